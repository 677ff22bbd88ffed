import Verif.Model.Help

/-!
# Vocabulary: help files

A help file consists of some lines of introduction and of articles: a line `- TOPIC`, the lines of the text, each
behind a TAB (an empty one written as a dot), and lines in between.
-/

namespace Ngircd.Spec
open Ngircd

/-- An article, and the lines between it and the next one. -/
structure Article where
  topic : Str
  text : List Str
  gap : List Str

/-- The lines of an article. -/
def Article.lines (a : Article) : List Str :=
  (['-', ' '] ++ a.topic) :: (a.text.map fun t => '\t' :: (if t = [] then ['.'] else t)) ++ a.gap

/-- A line of a file: no end of line in it, and short enough to be read at once. -/
def FileLine (l : Str) : Prop := '\n' ∉ l ∧ l.length ≤ 511

/-- An article as it should be: it can be read, no line of the text is a single dot, and the lines in between
begin neither with a TAB nor like an article. -/
structure Article.Wf (a : Article) : Prop where
  file : ∀ l ∈ a.lines, FileLine l
  dot : ['.'] ∉ a.text
  gap : ∀ l ∈ a.gap, l.head? ≠ some '\t' ∧ l.take 2 ≠ ['-', ' ']

/-- A help file. -/
def helpFile (intro : List Str) (as : List Article) : List Str := intro ++ (as.map Article.lines).flatten

/-- The file as bytes. -/
def fileText (ls : List Str) : Str := (ls.map (· ++ ['\n'])).flatten

/-- Lines follow the last article. -/
def EndsWithGap (as : List Article) : Prop := ∀ a, as.getLast? = some a → a.gap ≠ []

/-- The answer: the text of the first article with that topic; when there is none, or when it is empty, the
message that there is no help. -/
def answer (as : List Article) (topic : Str) : List HelpMsg :=
  match as.find? (fun a => caseEq a.topic topic) with
  | none => [.noHelp topic]
  | some a => if a.text = [] then [.noHelp topic] else a.text.map .line

end Ngircd.Spec
