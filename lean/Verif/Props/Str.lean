import Verif.Lemmas.Str

/-! # C42: bounded string operations -/

namespace Ngircd
open Spec

/-- C42: a bounded copy fits the destination (with its NUL), is a prefix of the source and
is the longest such prefix. -/
theorem C42_strlcpy (size : Nat) (s : Str) (hs : 0 < size) :
    (strlcpy size s).length < size ∧ (strlcpy size s) <+: s ∧
    (∀ q : Str, q <+: s → q.length < size → q.length ≤ (strlcpy size s).length) := by
  unfold strlcpy
  refine ⟨by simp; omega, List.take_prefix _ _, ?_⟩
  intro q hq hl
  have := hq.length_le
  simp; omega

/-- C42: a bounded append to a terminated destination fits the destination, keeps the old
content, and is the longest fitting prefix of the full concatenation. -/
theorem C42_strlcat (size : Nat) (d s : Str) (hd : d.length < size) :
    (strlcat size d s).length < size ∧ d <+: strlcat size d s ∧
    strlcat size d s <+: d ++ s ∧
    (∀ q : Str, q <+: d ++ s → q.length < size → q.length ≤ (strlcat size d s).length) := by
  rw [strlcat_eq size d s hd]
  refine ⟨by simp; omega, ?_, List.take_prefix _ _, ?_⟩
  · rw [List.take_append, List.take_of_length_le (by omega)]
    exact List.prefix_append _ _
  · intro q hq hl
    have := hq.length_le
    simp at this ⊢; omega

/-- C42: whatever the destination and size, appending never changes what is already there
and never writes at or behind `size` unless the destination was too long before. -/
theorem C42_strlcat_always (size : Nat) (d s : Str) :
    d <+: strlcat size d s ∧ (strlcat size d s).length ≤ max d.length (size - 1) := by
  unfold strlcat
  split
  · split
    · exact ⟨List.prefix_append _ _, by simp; omega⟩
    · exact ⟨List.prefix_append _ _, by simp; omega⟩
  · exact ⟨List.prefix_refl d, by omega⟩

example : strlcat 4 "ab".toList "cd".toList = "abc".toList ∧ ("ab".toList).length < 4 := by decide

/-- C42: trimming removes exactly the white space at both ends, ... -/
theorem C42_trim (s r : Str) : trimStr s = r ↔ Trimmed s r :=
  ⟨fun h => h ▸ trimStr_trimmed s, fun h => trimmed_unique (trimStr_trimmed s) h⟩

/-- ... and is idempotent. -/
theorem C42_trim_idempotent (s : Str) : trimStr (trimStr s) = trimStr s :=
  have h := trimStr_trimmed s
  trimStr_id h.2.1 h.2.2

example : trimStr " \t a b\r\n".toList = "a b".toList := by decide

/-- C42: `ngt_TrimLastChr` removes at most one character, the last, iff it is the given one. -/
theorem C42_trimLast (s : Str) (x : Char) :
    (∀ r, s = r ++ [x] → trimLastChr s x = r) ∧
    ((∀ r, s ≠ r ++ [x]) → trimLastChr s x = s) := by
  constructor
  · rintro r rfl
    simp [trimLastChr]
  · intro h
    unfold trimLastChr
    rcases List.eq_nil_or_concat s with hs | ⟨r, c, hs⟩
    · subst hs; rfl
    · subst hs
      have : c ≠ x := fun e => h r (by simp [e])
      simp [this]

example : trimLastChr "abc ".toList ' ' = "abc".toList := by decide

end Ngircd
