import Verif.Model.Str

/-! # Specification of wildcard matching -/

namespace Ngircd.Spec

/-- `Glob p t`: the text `t` is obtained from the mask `p` by replacing every `'*'` by
some string and every `'?'` by some character; all other characters stand for
themselves. -/
inductive Glob : Str → Str → Prop
  | nil : Glob [] []
  | any {p t : Str} (c : Char) : Glob p t → Glob ('?' :: p) (c :: t)
  | star {p t : Str} (s : Str) : Glob p t → Glob ('*' :: p) (s ++ t)
  | lit {p t : Str} (c : Char) : c ≠ '*' → c ≠ '?' → Glob p t → Glob (c :: p) (c :: t)

/-- The masks for which the matcher of ngIRCd is complete: no `\` directly behind a
wildcard, and no two stars at the very end. -/
def GoodMask (p : Str) : Prop :=
  (∀ (pre post : Str) (w : Char), p = pre ++ w :: '\\' :: post → w ≠ '*' ∧ w ≠ '?') ∧
  (∀ pre : Str, p ≠ pre ++ ['*', '*'])

end Ngircd.Spec
