import Verif.Model.Str

/-!
# Model of the help text

`Read_TextFile` (src/ngircd/conf.c), which also reads the MOTD file, and `Help`, `IRC_HELP` (src/ngircd/irc.c).
Not modelled: bytes 0 in the file, failing allocations, a client that is disconnected while the text is sent.
-/

namespace Ngircd

/-- `Read_TextFile`, conf.c:872-903, with `fgets` and `ngt_TrimLastChr`: the lines of a file; `cur` is what
`fgets` has read of the current one, at most `COMMAND_LEN` - 1 bytes. -/
def readTextFile (cur : Str) : Str → List Str
  | [] => if cur = [] then [] else [cur]
  | c :: cs =>
    if c = '\n' then cur :: readTextFile [] cs
    else if cur.length + 2 = COMMAND_LEN then (cur ++ [c]) :: readTextFile [] cs
    else readTextFile (cur ++ [c]) cs

/-- What is sent to the client: lines of the text, or that there is no help for the topic. -/
inductive HelpMsg
  | line (text : Str)
  | noHelp (topic : Str)
  deriving DecidableEq

/-- `Help`, irc.c:421-477: the text of a line of an article. -/
def helpLine (line : Str) : Str := if line.drop 1 = ['.'] then line.drop 2 else line.drop 1

/-- `Help`, irc.c:421-477: the loop; `inArticle` and `lines` are the variables of the function. -/
def helpLoop (topic : Str) : List Str → Bool → Nat → List HelpMsg
  | [], _, _ => [.noHelp topic]
  | l :: ls, true, lines =>
    if l.head? ≠ some '\t' then (if lines > 0 then [] else [.noHelp topic])
    else .line (helpLine l) :: helpLoop topic ls true (lines + 1)
  | l :: ls, false, lines =>
    helpLoop topic ls (l.take 2 == ['-', ' '] && caseEq (l.drop 2) topic) lines

/-- `Help`, irc.c:421-477. -/
def help (helptext : List Str) (topic : Str) : List HelpMsg := helpLoop topic helptext false 0

/-- `IRC_HELP`, irc.c:304-331; `commands` are the names of all commands. -/
def helpCommand (helptext : List Str) (commands : List Str) (arg : Option Str) : List HelpMsg :=
  match arg with
  | none => if helptext ≠ [] then help helptext "Intro".toList else commands.map .line
  | some a => if caseEq a "Commands".toList then commands.map .line else help helptext a

end Ngircd
