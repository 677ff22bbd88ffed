import Verif.Model.Str

/-! # Specification of trimming, tokens and case-insensitive equality -/

namespace Ngircd.Spec

/-- White space for trimming. -/
def Ws (c : Char) : Prop := c = ' ' ∨ c = '\t' ∨ c = '\n' ∨ c = '\r'

/-- `r` is `s` without leading and trailing white space: `s` is `r` between two runs of
white space and `r` neither begins nor ends with white space. -/
def Trimmed (s r : Str) : Prop :=
  (∃ a b : Str, s = a ++ r ++ b ∧ (∀ c ∈ a, Ws c) ∧ (∀ c ∈ b, Ws c)) ∧
  (∀ c r', r = c :: r' → ¬ Ws c) ∧ (∀ c r', r = r' ++ [c] → ¬ Ws c)

/-- `m` is one of the members of the list `s` delimited by characters satisfying `d`:
a non-empty maximal stretch without delimiters. -/
def Token (d : Char → Prop) (s m : Str) : Prop :=
  m ≠ [] ∧ (∀ c ∈ m, ¬ d c) ∧
  ∃ pre post : Str, s = pre ++ m ++ post ∧
    (pre = [] ∨ ∃ q c, pre = q ++ [c] ∧ d c) ∧
    (post = [] ∨ ∃ c q, post = c :: q ∧ d c)

/-- Two characters are equal up to ASCII letter case. -/
def SameLetter (a b : Char) : Prop :=
  a = b ∨ (65 ≤ a.toNat ∧ a.toNat ≤ 90 ∧ b.toNat = a.toNat + 32) ∨
    (65 ≤ b.toNat ∧ b.toNat ≤ 90 ∧ a.toNat = b.toNat + 32)

/-- Two strings are equal up to ASCII letter case. -/
inductive SameCase : Str → Str → Prop
  | nil : SameCase [] []
  | cons {a b : Char} {s t : Str} : SameLetter a b → SameCase s t → SameCase (a :: s) (b :: t)

end Ngircd.Spec
