import Verif.Spec.Help

/-!
# C101: the help text
-/

namespace Ngircd
open Spec

theorem readTextFile_line (cur l : Str) (h : '\n' ∉ l) (hl : cur.length + l.length ≤ 511) (rest : Str) :
    readTextFile cur (l ++ '\n' :: rest) = (cur ++ l) :: readTextFile [] rest := by
  induction l generalizing cur with
  | nil => simp [readTextFile]
  | cons c l ih =>
    have hC : COMMAND_LEN = 513 := rfl
    have h1 : c ≠ '\n' := fun e => h (by simp [e])
    have h2 : '\n' ∉ l := fun e => h (List.mem_cons_of_mem _ e)
    simp only [List.length_cons] at hl
    rw [List.cons_append, readTextFile, if_neg h1, if_neg (by omega), ih (cur ++ [c]) h2 (by simp; omega), List.append_assoc]
    rfl

/-- C101: a text file is read line by line, every line as it is, when no line is longer than 511 bytes. -/
theorem C101_file (ls : List Str) (h : ∀ l ∈ ls, FileLine l) : readTextFile [] (fileText ls) = ls := by
  induction ls with
  | nil => rfl
  | cons l ls ih =>
    have hl := h l (List.mem_cons_self ..)
    have e : fileText (l :: ls) = l ++ '\n' :: fileText ls := by simp [fileText]
    rw [e, readTextFile_line [] l hl.1 (by simpa using hl.2), ih fun x hx => h x (List.mem_cons_of_mem _ hx)]
    rfl

theorem readTextFile_all (file cur : Str) (hc : cur.length < 512) :
    (readTextFile cur file).flatten = cur ++ file.filter (· ≠ '\n') ∧ ∀ l ∈ readTextFile cur file, l.length ≤ 512 := by
  have hC : COMMAND_LEN = 513 := rfl
  induction file generalizing cur with
  | nil =>
    unfold readTextFile
    split
    · rename_i h
      simp [h]
    · simp
      omega
  | cons c cs ih =>
    unfold readTextFile
    by_cases h1 : c = '\n'
    · rw [if_pos h1]
      obtain ⟨e1, e2⟩ := ih [] (by simp)
      refine ⟨by rw [List.flatten_cons, e1]; simp [h1], fun l hl => ?_⟩
      rcases List.mem_cons.mp hl with rfl | hl
      · omega
      · exact e2 l hl
    · rw [if_neg h1]
      have hf : (c :: cs).filter (· ≠ '\n') = c :: cs.filter (· ≠ '\n') := by simp [h1]
      by_cases h2 : cur.length + 2 = COMMAND_LEN
      · rw [if_pos h2]
        obtain ⟨e1, e2⟩ := ih [] (by simp)
        refine ⟨by rw [List.flatten_cons, e1, hf]; simp, fun l hl => ?_⟩
        rcases List.mem_cons.mp hl with rfl | hl
        · simp
          omega
        · exact e2 l hl
      · rw [if_neg h2]
        obtain ⟨e1, e2⟩ := ih (cur ++ [c]) (by simp; omega)
        exact ⟨by rw [e1, hf]; simp, e2⟩

/-- C101: whatever the file contains, no byte of it but the ends of lines is lost, repeated or put elsewhere, and
no line is longer than 512 bytes. -/
theorem C101_bytes (file : Str) :
    (readTextFile [] file).flatten = file.filter (· ≠ '\n') ∧ ∀ l ∈ readTextFile [] file, l.length ≤ 512 :=
  readTextFile_all file [] (by simp)

/-- Lines that are not the beginning of an article are passed over. -/
theorem helpLoop_skip (topic : Str) (pre rest : List Str) (h : ∀ l ∈ pre, l.take 2 ≠ ['-', ' ']) (n : Nat) :
    helpLoop topic (pre ++ rest) false n = helpLoop topic rest false n := by
  induction pre with
  | nil => rfl
  | cons l pre ih =>
    have hl := h l (List.mem_cons_self ..)
    rw [List.cons_append, helpLoop, beq_eq_false_iff_ne.mpr hl, Bool.false_and]
    exact ih fun x hx => h x (List.mem_cons_of_mem _ hx)

/-- The text of an article is sent. -/
theorem helpLoop_text (topic : Str) (text rest : List Str) (hd : ['.'] ∉ text) (n : Nat) :
    helpLoop topic ((text.map fun t => '\t' :: (if t = [] then ['.'] else t)) ++ rest) true n =
      text.map .line ++ helpLoop topic rest true (n + text.length) := by
  induction text generalizing n with
  | nil => rfl
  | cons t text ih =>
    have h1 : t ≠ ['.'] := fun e => hd (by simp [e])
    have h2 : helpLine ('\t' :: (if t = [] then ['.'] else t)) = t := by
      by_cases ht : t = []
      · subst ht
        rfl
      · rw [if_neg ht]
        unfold helpLine
        rw [List.drop_one, List.tail_cons, if_neg h1]
    rw [List.map_cons, List.cons_append, helpLoop, if_neg (by simp), h2, ih fun x => hd (List.mem_cons_of_mem _ x)]
    simp only [List.map_cons, List.length_cons, List.cons_append]
    rw [Nat.add_assoc, Nat.add_comm 1]

/-- What follows an article that was sent. -/
theorem helpLoop_after (topic : Str) (rest : List Str) (h : ∀ l, rest.head? = some l → l.head? ≠ some '\t') (hne : rest ≠ [])
    (n : Nat) : helpLoop topic rest true n = if n > 0 then [] else [.noHelp topic] := by
  cases rest with
  | nil => exact absurd rfl hne
  | cons l ls => rw [helpLoop, if_pos (h l rfl)]

theorem helpLoop_empty (topic : Str) (rest : List Str) (h : ∀ l, rest.head? = some l → l.head? ≠ some '\t') :
    helpLoop topic rest true 0 = [.noHelp topic] := by
  cases rest with
  | nil => rfl
  | cons l ls =>
    rw [helpLoop, if_pos (h l rfl)]
    rfl

/-- The lines behind the text of an article do not begin with a TAB. -/
theorem behind_head (gap : List Str) (as : List Article) (hg : ∀ l ∈ gap, l.head? ≠ some '\t') (l : Str)
    (h : (gap ++ (as.map Article.lines).flatten).head? = some l) : l.head? ≠ some '\t' := by
  cases gap with
  | cons g gap =>
    have : g = l := by simpa using h
    exact this ▸ hg g (List.mem_cons_self ..)
  | nil =>
    cases as with
    | nil => simp at h
    | cons a as =>
      have : '-' :: ' ' :: a.topic = l := by simpa [Article.lines] using h
      rw [← this]
      simp

theorem help_articles (as : List Article) (hw : ∀ a ∈ as, a.Wf) (he : EndsWithGap as) (topic : Str) :
    helpLoop topic ((as.map Article.lines).flatten) false 0 = answer as topic := by
  induction as with
  | nil => rfl
  | cons a as ih =>
    have ha := hw a (List.mem_cons_self ..)
    have e : ((a :: as).map Article.lines).flatten = (['-', ' '] ++ a.topic) ::
        ((a.text.map fun t => '\t' :: (if t = [] then ['.'] else t)) ++ (a.gap ++ (as.map Article.lines).flatten)) := by
      simp [Article.lines]
    have h1 : ((['-', ' '] ++ a.topic).take 2 == ['-', ' ']) = true := by simp
    have h2 : (['-', ' '] ++ a.topic).drop 2 = a.topic := rfl
    rw [e, helpLoop, h1, h2, Bool.true_and]
    unfold answer
    rw [List.find?_cons]
    cases hc : caseEq a.topic topic with
    | true =>
      dsimp only
      rw [helpLoop_text _ _ _ ha.dot]
      have hb := behind_head a.gap as fun l hl => (ha.gap l hl).1
      by_cases ht : a.text = []
      · rw [if_pos ht, ht]
        exact helpLoop_empty _ _ hb
      · rw [if_neg ht]
        have hne : a.gap ++ (as.map Article.lines).flatten ≠ [] := by
          intro e0
          obtain ⟨g, r⟩ := List.append_eq_nil_iff.mp e0
          cases as with
          | nil => exact he a rfl g
          | cons b bs => simp [Article.lines] at r
        have hn : 0 < a.text.length := List.length_pos_iff.mpr ht
        rw [helpLoop_after _ _ hb hne, if_pos (by omega), List.append_nil]
    | false =>
      dsimp only
      have hskip : ∀ l ∈ (a.text.map fun t => '\t' :: (if t = [] then ['.'] else t)) ++ a.gap, l.take 2 ≠ ['-', ' '] := by
        intro l hl
        rcases List.mem_append.mp hl with h | h
        · obtain ⟨t, _, rfl⟩ := List.mem_map.mp h
          simp
        · exact (ha.gap l h).2
      rw [← List.append_assoc, helpLoop_skip _ _ _ hskip]
      refine ih (fun b hb => hw b (List.mem_cons_of_mem _ hb)) fun b hb => ?_
      cases as with
      | nil => simp at hb
      | cons c cs => exact he b (by rw [List.getLast?_cons_cons]; exact hb)

/-- C101: for every help file with lines behind its last article, HELP with a topic gives the text of the first
article with that topic, every line of it in order and nothing else; if there is none, it says so. -/
theorem C101_topic_partial (intro : List Str) (as : List Article) (hi : ∀ l ∈ intro, FileLine l ∧ l.take 2 ≠ ['-', ' '])
    (hw : ∀ a ∈ as, a.Wf) (he : EndsWithGap as) (commands : List Str) (topic : Str)
    (ht : caseEq topic "Commands".toList = false) :
    helpCommand (readTextFile [] (fileText (helpFile intro as))) commands (some topic) = answer as topic := by
  have hf : ∀ l ∈ helpFile intro as, FileLine l := by
    intro l hl
    rcases List.mem_append.mp hl with h | h
    · exact (hi l h).1
    · obtain ⟨x, hx, hl⟩ := List.mem_flatten.mp h
      obtain ⟨a, ha, rfl⟩ := List.mem_map.mp hx
      exact (hw a ha).file l hl
  rw [C101_file _ hf]
  unfold helpCommand
  simp only [ht, Bool.false_eq_true, if_false]
  show helpLoop topic (intro ++ _) false 0 = _
  rw [helpLoop_skip _ _ _ fun l hl => (hi l hl).2]
  exact help_articles as hw he topic

/-- C101: without a topic the article `Intro` is given. -/
theorem C101_intro_partial (intro : List Str) (as : List Article) (hi : ∀ l ∈ intro, FileLine l ∧ l.take 2 ≠ ['-', ' '])
    (hw : ∀ a ∈ as, a.Wf) (he : EndsWithGap as) (commands : List Str) (hne : helpFile intro as ≠ []) :
    helpCommand (readTextFile [] (fileText (helpFile intro as))) commands none = answer as "Intro".toList := by
  have hf : ∀ l ∈ helpFile intro as, FileLine l := by
    intro l hl
    rcases List.mem_append.mp hl with h | h
    · exact (hi l h).1
    · obtain ⟨x, hx, hl⟩ := List.mem_flatten.mp h
      obtain ⟨a, ha, rfl⟩ := List.mem_map.mp hx
      exact (hw a ha).file l hl
  rw [C101_file _ hf]
  unfold helpCommand
  simp only [ne_eq, hne, not_false_eq_true, if_true]
  show helpLoop _ (intro ++ _) false 0 = _
  rw [helpLoop_skip _ _ _ fun l hl => (hi l hl).2]
  exact help_articles as hw he _

/-- C101: `HELP Commands`, and `HELP` without a help text, give the names of all commands. -/
theorem C101_commands (helptext commands : List Str) (a : Str) (h : caseEq a "Commands".toList = true) :
    helpCommand helptext commands (some a) = commands.map .line ∧ helpCommand [] commands none = commands.map .line := by
  refine ⟨?_, rfl⟩
  unfold helpCommand
  dsimp only
  rw [if_pos h]

/-- Two articles. -/
def Sample.articles : List Article :=
  [⟨"JOIN".toList, ["JOIN <channel>".toList, [], "Join a channel.".toList], [[]]⟩, ⟨"POST".toList, ["POST [...]".toList], [[]]⟩]

/-- The hypotheses of `C101_topic_partial` are met. -/
example : (∀ a ∈ Sample.articles, a.Wf) ∧ EndsWithGap Sample.articles ∧
    answer Sample.articles "join".toList = [.line "JOIN <channel>".toList, .line [], .line "Join a channel.".toList] := by
  have hr : ∀ a ∈ Sample.articles, (∀ l ∈ a.lines, '\n' ∉ l ∧ l.length ≤ 511) ∧ ['.'] ∉ a.text ∧
      ∀ l ∈ a.gap, l.head? ≠ some '\t' ∧ l.take 2 ≠ ['-', ' '] := by decide
  refine ⟨fun a ha => ⟨(hr a ha).1, (hr a ha).2.1, (hr a ha).2.2⟩, ?_, by decide⟩
  intro a h
  have : some a = some ⟨"POST".toList, ["POST [...]".toList], [[]]⟩ := h.symm
  cases this
  decide

/-- C101: when the file ends with the text of an article (as the one of the distribution does), its text is
followed by the message that there is no help. -/
theorem C101_violated_by_last : ∃ as : List Article, (∀ a ∈ as, a.Wf) ∧
    helpCommand (readTextFile [] (fileText (helpFile [] as))) [] (some "POST".toList) =
      [.line "POST [...]".toList, .noHelp "POST".toList] ∧
    answer as "POST".toList = [.line "POST [...]".toList] := by
  have hr : ∀ a ∈ [(⟨"POST".toList, ["POST [...]".toList], []⟩ : Article)],
      (∀ l ∈ a.lines, '\n' ∉ l ∧ l.length ≤ 511) ∧ ['.'] ∉ a.text ∧
      ∀ l ∈ a.gap, l.head? ≠ some '\t' ∧ l.take 2 ≠ ['-', ' '] := by decide
  refine ⟨[⟨"POST".toList, ["POST [...]".toList], []⟩], fun a ha => ⟨(hr a ha).1, (hr a ha).2.1, (hr a ha).2.2⟩, ?_, ?_⟩ <;>
    decide

end Ngircd
