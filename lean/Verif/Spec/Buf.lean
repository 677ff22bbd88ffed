import Verif.Model.Array

/-! # Specification of the dynamic byte buffer: a byte string -/

namespace Ngircd.Spec

/-- Arguments are representable `size_t` values, element sizes are positive. -/
def ArrOpOk : ArrOp → Prop
  | .alloc s p => 0 < s ∧ s < SZ ∧ p < SZ
  | .catb s => s.length < SZ
  | .copyb s => s.length < SZ
  | .truncate m n => m < SZ ∧ n < SZ
  | .moveleft m n => 0 < m ∧ m < SZ ∧ n < SZ
  | _ => True

/-- `BufStep s op ok s'`: operation `op` on the byte string `s` reports `ok` and leaves `s'`. -/
def BufStep (s : Str) (op : ArrOp) (ok : Bool) (s' : Str) : Prop :=
  match op with
  | .catb t => (ok = true ∧ s' = s ++ t) ∨ (ok = false ∧ s' = s)
  | .copyb t => (ok = true ∧ s' = t) ∨ (ok = false ∧ s' = [])
  | .cat0 => (ok = true ∧ s' = s ++ ['\x00']) ∨ (ok = false ∧ s' = s)
  | .cat0Temporary => s' = s ∨ (ok = true ∧ s' = s ++ ['\x00'])
  | .trunc => s' = []
  | .free => s' = []
  | .moveleft m n => s' = s.drop (m * n)
  | .truncate m n => m * n ≤ s.length → s' = s.take (m * n)
  | .alloc _ _ => (ok = false ∧ s' = s) ∨ (ok = true ∧ ∃ k, s' = s ++ List.replicate k '\x00')

end Ngircd.Spec
