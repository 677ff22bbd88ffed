import Verif.Model.Match
import Verif.Spec.Glob

namespace Ngircd
open Spec

/-- The inner function of `matcheAfterStar` is `matche (p :: ps)`. -/
theorem matcheAfterStar_literal (p : Char) (ps t : Str) (h1 : p ≠ '*') (h2 : p ≠ '?') :
    matcheAfterStar (p :: ps) t =
      if p = '\\' then
        match ps with
        | [] => .pattern
        | n :: _ => starLoop n (matche (p :: ps)) t
      else starLoop p (matche (p :: ps)) t := by
  rw [matcheAfterStar.eq_def]
  simp only [beq_iff_eq, h1, h2, if_false]
  split
  · split
    · rfl
    · congr 1
      funext t'
      cases t' with
      | nil => simp [matche]
      | cons c ts => simp [matche, h1, h2]
  · congr 1
    funext t'
    cases t' with
    | nil => simp [matche, h1]
    | cons c ts => simp [matche, h1, h2]

theorem starLoop_valid {n : Char} {m : Str → MRes} {t : Str} (h : starLoop n m t = .valid) :
    ∃ u s, t = u ++ s ∧ m s = .valid := by
  induction t with
  | nil => simp [starLoop] at h
  | cons c ts ih =>
    rw [starLoop] at h
    by_cases hc : n == c || n == '['
    · simp only [hc, if_true] at h
      cases hm : m (c :: ts) with
      | valid => exact ⟨[], c :: ts, rfl, hm⟩
      | abort => simp [hm] at h
      | pattern => simp [hm] at h
      | literal =>
        simp only [hm] at h
        obtain ⟨u, s, e, hs⟩ := ih h
        exact ⟨c :: u, s, by simp [e], hs⟩
      | endOfPattern =>
        simp only [hm] at h
        obtain ⟨u, s, e, hs⟩ := ih h
        exact ⟨c :: u, s, by simp [e], hs⟩
    · simp only [hc] at h
      obtain ⟨u, s, e, hs⟩ := ih h
      exact ⟨c :: u, s, by simp [e], hs⟩

theorem glob_stars (p : Str) : Glob ('*' :: []) p := by
  have := Glob.star (p := []) p Glob.nil
  simpa using this

/-- Soundness of both functions, by induction on the length of the pattern. -/
theorem match_sound_aux (n : Nat) : ∀ p : Str, p.length ≤ n →
    (∀ t, matche p t = .valid → Glob p t) ∧
    (∀ t, matcheAfterStar p t = .valid → ∃ u s, t = u ++ s ∧ Glob p s) := by
  induction n with
  | zero =>
    intro p hp
    have : p = [] := List.eq_nil_of_length_eq_zero (by omega)
    subst this
    refine ⟨fun t h => ?_, fun t _ => ⟨t, [], by simp, Glob.nil⟩⟩
    cases t with
    | nil => exact Glob.nil
    | cons c ts => simp [matche] at h
  | succ n ih =>
    intro p hp
    cases p with
    | nil =>
      refine ⟨fun t h => ?_, fun t _ => ⟨t, [], by simp, Glob.nil⟩⟩
      cases t with
      | nil => exact Glob.nil
      | cons c ts => simp [matche] at h
    | cons p ps =>
      have ihp := ih ps (by simp at hp; omega)
      have first : ∀ t, matche (p :: ps) t = .valid → Glob (p :: ps) t := by
        intro t h
        cases t with
        | nil =>
          simp only [matche] at h
          by_cases hs : p = '*' ∧ ps = []
          · obtain ⟨rfl, rfl⟩ := hs; exact glob_stars []
          · simp only [beq_iff_eq, Bool.and_eq_true, List.isEmpty_iff, hs] at h
            simp at h
        | cons c ts =>
          simp only [matche] at h
          by_cases h1 : p = '?'
          · subst h1; simp at h; exact Glob.any c (ihp.1 ts h)
          · by_cases h2 : p = '*'
            · subst h2; simp at h
              obtain ⟨u, s, e, hg⟩ := ihp.2 _ h
              rw [e]; exact Glob.star u hg
            · by_cases h3 : p = c
              · subst h3; simp [h1, h2] at h
                exact Glob.lit p h2 h1 (ihp.1 ts h)
              · simp [h1, h2, h3] at h
      refine ⟨first, ?_⟩
      intro t h
      by_cases h1 : p = '?'
      · subst h1
        cases t with
        | nil => simp [matcheAfterStar] at h
        | cons c ts =>
          simp [matcheAfterStar] at h
          obtain ⟨u, s, e, hg⟩ := ihp.2 ts h
          -- the character in front of `s` is matched by `?`
          rcases List.eq_nil_or_concat u with hu | ⟨u', d, hu⟩
          · subst hu; exact ⟨[], c :: ts, rfl, by simp at e; subst e; exact Glob.any c hg⟩
          · subst hu
            exact ⟨c :: u', d :: s, by simp [e], Glob.any d hg⟩
      · by_cases h2 : p = '*'
        · subst h2
          simp [matcheAfterStar] at h
          obtain ⟨u, s, e, hg⟩ := ihp.2 t h
          exact ⟨u, s, e, by simpa using Glob.star [] hg⟩
        · rw [matcheAfterStar_literal p ps t h2 h1] at h
          have key : ∃ u s, t = u ++ s ∧ matche (p :: ps) s = .valid := by
            by_cases h3 : p = '\\'
            · simp only [h3, if_true] at h
              cases ps with
              | nil => simp at h
              | cons n ps' => subst h3; exact starLoop_valid h
            · simp only [h3, if_false] at h
              exact starLoop_valid h
          obtain ⟨u, s, e, hv⟩ := key
          exact ⟨u, s, e, first s hv⟩

/-! ## Completeness -/

theorem Spec.GoodMask.tail {c : Char} {p : Str} (h : GoodMask (c :: p)) : GoodMask p :=
  ⟨fun pre post w e => h.1 (c :: pre) post w (by simp [e]),
   fun pre e => h.2 (c :: pre) (by simp [e])⟩

/-- Inversion for `Glob` on a star. -/
theorem glob_star_inv {p t : Str} (h : Glob ('*' :: p) t) : ∃ u s, t = u ++ s ∧ Glob p s := by
  generalize hq : '*' :: p = q at h
  cases h with
  | nil => simp at hq
  | any c h => simp at hq
  | star s h => simp at hq; subst hq; exact ⟨s, _, rfl, h⟩
  | lit c h1 h2 h => simp at hq; exact absurd hq.1.symm h1

theorem glob_any_inv {p t : Str} (h : Glob ('?' :: p) t) : ∃ c s, t = c :: s ∧ Glob p s := by
  generalize hq : '?' :: p = q at h
  cases h with
  | nil => simp at hq
  | any c h => simp at hq; subst hq; exact ⟨c, _, rfl, h⟩
  | star s h => simp at hq
  | lit c h1 h2 h => simp at hq; exact absurd hq.1.symm h2

theorem glob_lit_inv {c : Char} {p t : Str} (h1 : c ≠ '*') (h2 : c ≠ '?')
    (h : Glob (c :: p) t) : ∃ s, t = c :: s ∧ Glob p s := by
  generalize hq : c :: p = q at h
  cases h with
  | nil => simp at hq
  | any c' h => simp at hq; exact absurd hq.1 h2
  | star s h => simp at hq; exact absurd hq.1 h1
  | lit c' h1 h2 h => simp at hq; obtain ⟨rfl, rfl⟩ := hq; exact ⟨_, rfl, h⟩

theorem glob_nil_inv {t : Str} (h : Glob [] t) : t = [] := by
  cases h; rfl

/-- A mask that matches the empty text consists of stars only. -/
theorem glob_empty_text {p : Str} (h : Glob p []) : ∀ c ∈ p, c = '*' := by
  induction p with
  | nil => simp
  | cons c p ih =>
    by_cases h1 : c = '*'
    · subst h1
      obtain ⟨u, s, e, hg⟩ := glob_star_inv h
      have : s = [] := by
        cases s with
        | nil => rfl
        | cons _ _ => simp at e
      subst this
      intro d hd
      rcases List.mem_cons.1 hd with rfl | hd
      · rfl
      · exact ih hg d hd
    · by_cases h2 : c = '?'
      · subst h2; obtain ⟨d, s, e, _⟩ := glob_any_inv h; simp at e
      · obtain ⟨s, e, _⟩ := glob_lit_inv h1 h2 h; simp at e

theorem allStars_good {p : Str} (h : ∀ c ∈ p, c = '*') (hg : GoodMask p) : p = [] ∨ p = ['*'] := by
  cases p with
  | nil => simp
  | cons a p =>
    cases p with
    | nil => right; simp at h; simp [h]
    | cons b p =>
      exfalso
      have hrep : a :: b :: p = List.replicate (p.length + 2) '*' := by
        apply List.eq_replicate_iff.2
        exact ⟨by simp, h⟩
      apply hg.2 (List.replicate p.length '*')
      rw [hrep, ← List.replicate_append_replicate]
      rfl

theorem starLoop_complete (p : Char) (m : Str → MRes)
    (hlit : ∀ c ts, p ≠ c → m (c :: ts) ≠ .valid)
    (hnp : ∀ s, m s ≠ .pattern)
    (habort : ∀ t, m t = .abort → ∀ u s, t = u ++ s → m s ≠ .valid) :
    ∀ t, (∃ u s, t = u ++ s ∧ s ≠ [] ∧ m s = .valid) → starLoop p m t = .valid := by
  intro t
  induction t with
  | nil =>
    rintro ⟨u, s, e, hne, hs⟩
    exfalso; apply hne
    cases s with
    | nil => rfl
    | cons _ _ => simp at e
  | cons c ts ih =>
    rintro ⟨u, s, e, hne, hs⟩
    rw [starLoop]
    have step : (m (c :: ts) ≠ .valid) → starLoop p m ts = .valid := by
      intro hv
      apply ih
      cases u with
      | nil => simp at e; subst e; exact absurd hs hv
      | cons d u' =>
        simp at e
        exact ⟨u', s, e.2, hne, hs⟩
    by_cases hc : p == c || p == '['
    · simp only [hc, if_true]
      cases hm : m (c :: ts) with
      | valid => rfl
      | abort => exact absurd hs (habort _ hm u s e)
      | pattern => exact absurd hm (hnp _)
      | literal => exact step (by simp [hm])
      | endOfPattern => exact step (by simp [hm])
    · simp only [hc]
      have hpc : p ≠ c := by intro h; simp [h] at hc
      exact step (hlit c ts hpc)

theorem matche_ne_pattern (n : Nat) : ∀ p : Str, p.length ≤ n → GoodMask p →
    (∀ t, matche p t ≠ .pattern) ∧
    ((∃ w, (w = '*' ∨ w = '?') ∧ GoodMask (w :: p)) → ∀ t, matcheAfterStar p t ≠ .pattern) := by
  induction n with
  | zero =>
    intro p hp _
    have : p = [] := List.eq_nil_of_length_eq_zero (by omega)
    subst this
    refine ⟨fun t => by cases t <;> simp [matche], fun _ t => by simp [matcheAfterStar]⟩
  | succ n ih =>
    intro p hp hg
    cases p with
    | nil => exact ⟨fun t => by cases t <;> simp [matche], fun _ t => by simp [matcheAfterStar]⟩
    | cons p ps =>
      have ihp := ih ps (by simp at hp; omega) hg.tail
      have first : ∀ t, matche (p :: ps) t ≠ .pattern := by
        intro t
        cases t with
        | nil => simp only [matche]; split <;> simp
        | cons c ts =>
          simp only [matche]
          split
          · exact ihp.1 ts
          · split
            · rename_i h2
              have h2' : p = '*' := by simpa using h2
              exact ihp.2 ⟨'*', Or.inl rfl, by subst h2'; exact hg⟩ _
            · split
              · simp
              · exact ihp.1 ts
      refine ⟨first, ?_⟩
      rintro ⟨w, hw, hgw⟩ t
      by_cases h1 : p = '?'
      · subst h1
        cases t with
        | nil => simp [matcheAfterStar]
        | cons c ts =>
          simp only [matcheAfterStar]
          simpa using ihp.2 ⟨'?', Or.inr rfl, hg⟩ ts
      · by_cases h2 : p = '*'
        · subst h2
          simpa [matcheAfterStar] using ihp.2 ⟨'*', Or.inl rfl, hg⟩ t
        · rw [matcheAfterStar_literal p ps t h2 h1]
          have h3 : p ≠ '\\' := by
            intro h3; subst h3
            rcases hw with rfl | rfl
            · exact (hgw.1 [] ps '*' rfl).1 rfl
            · exact (hgw.1 [] ps '?' rfl).2 rfl
          simp only [h3, if_false]
          have : ∀ t, starLoop p (matche (p :: ps)) t ≠ .pattern := by
            intro t
            induction t with
            | nil => simp [starLoop]
            | cons c ts ih2 =>
              rw [starLoop]
              split
              · simp
              · simp
              · rename_i hr
                split at hr
                · exact absurd hr (first _)
                · simp at hr
              · exact ih2
          exact this t

theorem match_complete_aux (n : Nat) : ∀ p : Str, p.length ≤ n → GoodMask p →
    (∀ t, Glob p t → matche p t = .valid) ∧
    (∀ t, matche p t = .abort → ∀ u s, t = u ++ s → ¬ Glob p s) ∧
    ((∃ w, (w = '*' ∨ w = '?') ∧ GoodMask (w :: p)) →
      ∀ t, (∃ u s, t = u ++ s ∧ Glob p s) → matcheAfterStar p t = .valid) := by
  induction n with
  | zero =>
    intro p hp _
    have : p = [] := List.eq_nil_of_length_eq_zero (by omega)
    subst this
    refine ⟨fun t h => by rw [glob_nil_inv h]; rfl, fun t h => ?_, fun _ t _ => by simp [matcheAfterStar]⟩
    cases t <;> simp [matche] at h
  | succ n ih =>
    intro p hp hg
    cases p with
    | nil =>
      refine ⟨fun t h => by rw [glob_nil_inv h]; rfl, fun t h => ?_, fun _ t _ => by simp [matcheAfterStar]⟩
      cases t <;> simp [matche] at h
    | cons p ps =>
      have ihp := ih ps (by simp at hp; omega) hg.tail
      have hA : ∀ t, Glob (p :: ps) t → matche (p :: ps) t = .valid := by
        intro t h
        cases t with
        | nil =>
          rcases allStars_good (glob_empty_text h) hg with h' | h'
          · simp at h'
          · simp at h'; obtain ⟨rfl, rfl⟩ := h'; simp [matche]
        | cons c ts =>
          simp only [matche]
          by_cases h1 : p = '?'
          · subst h1
            obtain ⟨d, s, e, hgs⟩ := glob_any_inv h
            simp at e; obtain ⟨rfl, rfl⟩ := e
            simpa using ihp.1 _ hgs
          · by_cases h2 : p = '*'
            · subst h2
              simpa using ihp.2.2 ⟨'*', Or.inl rfl, hg⟩ _ (glob_star_inv h)
            · obtain ⟨s, e, hgs⟩ := glob_lit_inv h2 h1 h
              simp at e; obtain ⟨rfl, rfl⟩ := e
              simpa [h1, h2] using ihp.1 _ hgs
      have hB : ∀ t, matche (p :: ps) t = .abort → ∀ u s, t = u ++ s → ¬ Glob (p :: ps) s := by
        intro t h u s e hgs
        cases t with
        | nil =>
          have : s = [] := by
            cases s with
            | nil => rfl
            | cons _ _ => simp at e
          subst this
          rw [hA [] hgs] at h; simp at h
        | cons c ts =>
          simp only [matche] at h
          by_cases h1 : p = '?'
          · subst h1
            obtain ⟨d, s', e', hgs'⟩ := glob_any_inv hgs
            subst e'
            simp at h
            cases u with
            | nil => simp at e; exact ihp.2.1 ts h [] s' (by simp [e.2]) hgs'
            | cons x u' =>
              simp at e
              exact ihp.2.1 ts h (u' ++ [d]) s' (by simp [e.2]) hgs'
          · by_cases h2 : p = '*'
            · subst h2
              simp at h
              obtain ⟨v, s', e', hgs'⟩ := glob_star_inv hgs
              have := ihp.2.2 ⟨'*', Or.inl rfl, hg⟩ (c :: ts) ⟨u ++ v, s', by rw [e, e']; simp, hgs'⟩
              rw [this] at h; simp at h
            · by_cases h3 : p = c
              · subst h3
                simp [h1, h2] at h
                obtain ⟨s', e', hgs'⟩ := glob_lit_inv h2 h1 hgs
                subst e'
                cases u with
                | nil => simp at e; exact ihp.2.1 ts h [] s' (by simp [e]) hgs'
                | cons x u' =>
                  simp at e
                  exact ihp.2.1 ts h (u' ++ [p]) s' (by simp [e.2]) hgs'
              · simp [h1, h2, h3] at h
      refine ⟨hA, hB, ?_⟩
      rintro ⟨w, hw, hgw⟩ t ⟨u, s, e, hgs⟩
      by_cases h1 : p = '?'
      · subst h1
        obtain ⟨d, s', e', hgs'⟩ := glob_any_inv hgs
        cases t with
        | nil => rw [e'] at e; simp at e
        | cons c ts =>
          simp only [matcheAfterStar]
          have : ∃ v, ts = v ++ s' := by
            rw [e'] at e
            cases u with
            | nil => simp at e; exact ⟨[], by simp [e.2]⟩
            | cons x u' => simp at e; exact ⟨u' ++ [d], by simp [e.2]⟩
          obtain ⟨v, hv⟩ := this
          simpa using ihp.2.2 ⟨'?', Or.inr rfl, hg⟩ ts ⟨v, s', hv, hgs'⟩
      · by_cases h2 : p = '*'
        · subst h2
          obtain ⟨v, s', e', hgs'⟩ := glob_star_inv hgs
          simpa [matcheAfterStar] using ihp.2.2 ⟨'*', Or.inl rfl, hg⟩ t ⟨u ++ v, s', by rw [e, e']; simp, hgs'⟩
        · rw [matcheAfterStar_literal p ps t h2 h1]
          have h3 : p ≠ '\\' := by
            intro h3; subst h3
            rcases hw with rfl | rfl
            · exact (hgw.1 [] ps '*' rfl).1 rfl
            · exact (hgw.1 [] ps '?' rfl).2 rfl
          simp only [h3, if_false]
          apply starLoop_complete
          · intro c ts hpc
            simp [matche, h1, h2, hpc]
          · exact (matche_ne_pattern _ _ (Nat.le_refl _) hg).1
          · intro t' ha u' s' e' hv
            exact hB t' ha u' s' e' ((match_sound_aux _ _ (Nat.le_refl _)).1 s' hv)
          · refine ⟨u, s, e, ?_, hA s hgs⟩
            intro hs; subst hs
            have := glob_empty_text hgs p (by simp)
            exact h2 this

end Ngircd
