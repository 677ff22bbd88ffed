import Verif.Model.Hash
import Verif.Lemmas.Str

/-! # C35: hashes and letter case -/

namespace Ngircd
open Spec

/-- C35: names equal up to letter case have equal hashes. -/
theorem C35_hash_case (s t : Str) (h : SameCase s t) : Hash s = Hash t := by
  rw [sameCase_iff] at h
  simp [Hash, strlcpy, lowerStr_take, h]

example : SameCase "Alex[]".toList "aLEX[]".toList ∧ Hash "Alex[]".toList = Hash "aLEX[]".toList := by
  refine ⟨(sameCase_iff _ _).2 (by decide), ?_⟩
  exact C35_hash_case _ _ ((sameCase_iff _ _).2 (by decide))

/-- C35: unlike equal names, the hash really depends on the letters. -/
theorem C35_hash_not_constant : Hash "a".toList ≠ Hash "b".toList := by decide

end Ngircd
