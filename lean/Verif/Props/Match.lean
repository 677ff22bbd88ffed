import Verif.Lemmas.Match
import Verif.Lemmas.Str

/-! # C01, C02, C03: mask matching -/

namespace Ngircd
open Spec

/-- C01: whatever `Match` accepts is an instance of the mask. -/
theorem C01_match_sound (p t : Str) (h : Match p t = true) : Glob p t :=
  (match_sound_aux _ p (Nat.le_refl _)).1 t (by simpa [Match] using h)

example : Match "a*c?!*@h".toList "abbcd!u@h".toList = true := by decide

/-- C01 (contrapositive use): brackets and backslashes are not magic - a mask without
wildcards matches itself only. -/
theorem C01_literal_mask (p t : Str) (hp : ∀ c ∈ p, c ≠ '*' ∧ c ≠ '?')
    (h : Match p t = true) : t = p := by
  have hg := C01_match_sound p t h
  clear h
  induction p generalizing t with
  | nil => exact glob_nil_inv hg
  | cons c p ih =>
    have hc := hp c (by simp)
    obtain ⟨s, e, hs⟩ := glob_lit_inv hc.1 hc.2 hg
    rw [e, ih s (fun d hd => hp d (by simp [hd])) hs]

example : Match "[ab]\\x".toList "[ab]\\x".toList = true := by decide

/-- C02, full statement (false of the code, see the witnesses below):
`∀ p t, Glob p t → Match p t = true`.  Proved for every mask that does not end in two
stars and has no backslash directly behind a wildcard. -/
theorem C02_match_complete_partial (p t : Str) (hp : GoodMask p) (h : Glob p t) :
    Match p t = true := by
  simp [Match, (match_complete_aux _ p (Nat.le_refl _) hp).1 t h]

/-- Together: for good masks `Match` decides the specification. -/
theorem C02_match_iff_partial (p t : Str) (hp : GoodMask p) : Match p t = true ↔ Glob p t :=
  ⟨C01_match_sound p t, C02_match_complete_partial p t hp⟩

/-- A simple sufficient condition for `GoodMask`: no backslash at all and no two
adjacent stars. -/
theorem goodMask_of_simple (p : Str) (h1 : '\\' ∉ p)
    (h2 : ∀ pre post : Str, p ≠ pre ++ '*' :: '*' :: post) : GoodMask p :=
  ⟨fun pre post w e => absurd (by rw [e]; simp) h1, fun pre e => h2 pre [] e⟩

/-- C02 is false in general: `a**` does not match `a`. -/
theorem C02_violation_trailing_stars :
    ∃ p t : Str, Glob p t ∧ Match p t = false :=
  ⟨['a', '*', '*'], ['a'],
    .lit 'a' (by decide) (by decide) (.star [] (.star [] .nil)), by decide⟩

/-- C02 is false in general: *no* text at all is matched by a mask with a star (or a run
of wildcards with a star) directly followed by a backslash and another character that is
neither a backslash nor `[`, e.g. a ban on the legal nickname pattern `*\foo`. -/
theorem C02_violation_backslash (x : Char) (rest t : Str) (hx : x ≠ '\\') (hb : x ≠ '[') :
    Match ('*' :: '\\' :: x :: rest) t = false := by
  have hl : ∀ t, starLoop x (matche ('\\' :: x :: rest)) t ≠ .valid := by
    intro t
    induction t with
    | nil => simp [starLoop]
    | cons c ts ih =>
      rw [starLoop]
      by_cases hc : x = c
      · subst hc
        have : matche ('\\' :: x :: rest) (x :: ts) = .literal := by
          simp [matche, Ne.symm hx]
        simpa [this] using ih
      · simpa [hc, hb] using ih
  cases t with
  | nil => simp [Match, matche]
  | cons c ts =>
    have e : matche ('*' :: '\\' :: x :: rest) (c :: ts)
        = starLoop x (matche ('\\' :: x :: rest)) (c :: ts) := by
      rw [show matche ('*' :: '\\' :: x :: rest) (c :: ts)
          = matcheAfterStar ('\\' :: x :: rest) (c :: ts) from by simp [matche]]
      rw [matcheAfterStar_literal _ _ _ (by decide) (by decide)]
      simp
    simp only [Match, e]
    simpa using hl (c :: ts)

example : GoodMask "a*?b!*@*".toList ∧ Glob "a*?b!*@*".toList "axxb!u@h".toList ∧
    Match "*\\foo!*@*".toList "\\foo!u@h".toList = false := by
  refine ⟨?_, C01_match_sound _ _ (by decide), by decide⟩
  constructor
  · intro pre post w e
    have : '\\' ∈ "a*?b!*@*".toList := by rw [e]; simp
    exact absurd this (by decide)
  · intro pre e
    have := congrArg (fun l : Str => l.reverse.take 2) e
    simp at this

/-- C03: case-insensitive matching gives the same answer for all letter-case variants of
mask and text. -/
theorem C03_case_irrelevant (p p' t t' : Str) (hp : SameCase p p') (ht : SameCase t t') :
    matchCaseInsensitive p t = matchCaseInsensitive p' t' := by
  rw [sameCase_iff] at hp ht
  simp [matchCaseInsensitive, strlcpy, lowerStr_take, hp, ht]

/-- C03: for masks and texts of at most 512 bytes a case-insensitive match is a wildcard
match of the lower-cased strings. -/
theorem C03_case_insensitive_sound (p t : Str) (hp : p.length ≤ 512) (ht : t.length ≤ 512)
    (h : matchCaseInsensitive p t = true) : Glob (lowerStr p) (lowerStr t) := by
  unfold matchCaseInsensitive strlcpy COMMAND_LEN at h
  rw [List.take_of_length_le (by simpa using hp), List.take_of_length_le (by simpa using ht)] at h
  exact C01_match_sound _ _ h

theorem C03_case_insensitive_complete_partial (p t : Str) (hp : p.length ≤ 512)
    (ht : t.length ≤ 512) (hg : GoodMask (lowerStr p)) (h : Glob (lowerStr p) (lowerStr t)) :
    matchCaseInsensitive p t = true := by
  unfold matchCaseInsensitive strlcpy COMMAND_LEN
  rw [List.take_of_length_le (by simpa using hp), List.take_of_length_le (by simpa using ht)]
  exact C02_match_complete_partial _ _ hg h

/-- C03: a list of masks matches iff one of its members, trimmed, matches. -/
theorem C03_mask_list (p t sep : Str) (hp : p.length ≤ 512) :
    matchCaseInsensitiveList p t sep = true ↔
      ∃ m r, Token (fun c => c ∈ sep) p m ∧ Trimmed m r ∧ matchCaseInsensitive r t = true := by
  unfold matchCaseInsensitiveList strlcpy COMMAND_LEN
  rw [List.take_of_length_le (by simpa using hp), List.any_eq_true]
  constructor
  · rintro ⟨m, hm, h⟩
    exact ⟨m, trimStr m, (mem_strtok _ _ _).1 hm, trimStr_trimmed m, h⟩
  · rintro ⟨m, r, hm, hr, h⟩
    refine ⟨m, (mem_strtok _ _ _).2 hm, ?_⟩
    rw [trimmed_unique (trimStr_trimmed m) hr]; exact h

example : matchCaseInsensitiveList "*.example.org, FOO*".toList "foobar".toList ",".toList = true := by
  decide

end Ngircd
