import Verif.Model.Str

/-! # Specification: the lines of a byte stream -/

namespace Ngircd.Spec

/-- CR or LF. -/
def isEol (c : Char) : Bool := c == '\r' || c == '\n'

/-- The terminated, non-empty lines of `s`; `cur` is the (reversed) beginning of the current
line. -/
def linesFrom : Str → Str → List Str
  | _, [] => []
  | cur, c :: cs =>
    if isEol c then
      (if cur = [] then linesFrom [] cs else cur.reverse :: linesFrom [] cs)
    else linesFrom (c :: cur) cs

/-- The commands contained in a byte stream: every CR and every LF ends a line, empty lines
do not count, an unterminated rest does not count. -/
def lines (s : Str) : List Str := linesFrom [] s

/-- No line of the stream (terminated or not) is longer than 510 bytes. -/
def shortLines (s : Str) : Prop :=
  ∀ pre l post : Str, s = pre ++ l ++ post → (∀ c ∈ l, isEol c = false) → l.length ≤ 510

end Ngircd.Spec
