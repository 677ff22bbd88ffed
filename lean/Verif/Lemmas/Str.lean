import Verif.Model.Str
import Verif.Spec.Str

namespace Ngircd
open Spec

theorem charLe_iff (a b : Char) : a ≤ b ↔ a.toNat ≤ b.toNat := by
  rw [Char.le_def, UInt32.le_iff_toNat_le]; rfl

theorem char_ext_toNat {a b : Char} (h : a.toNat = b.toNat) : a = b := by
  apply Char.ext
  exact UInt32.toNat_inj.1 h

theorem toNat_ofNat_small {n : Nat} (h : n < 55296) : (Char.ofNat n).toNat = n := by
  have hv : n.isValidChar := Or.inl (by omega)
  unfold Char.ofNat
  rw [dif_pos hv]
  rfl

theorem toLower_toNat (c : Char) :
    (toLower c).toNat = if 65 ≤ c.toNat ∧ c.toNat ≤ 90 then c.toNat + 32 else c.toNat := by
  have hA : ('A' : Char).toNat = 65 := rfl
  have hZ : ('Z' : Char).toNat = 90 := rfl
  unfold toLower
  simp only [charLe_iff, hA, hZ]
  split
  · rw [toNat_ofNat_small (by omega)]
  · rfl

theorem toUpper_toNat (c : Char) :
    (toUpper c).toNat = if 97 ≤ c.toNat ∧ c.toNat ≤ 122 then c.toNat - 32 else c.toNat := by
  have hA : ('a' : Char).toNat = 97 := rfl
  have hZ : ('z' : Char).toNat = 122 := rfl
  unfold toUpper
  simp only [charLe_iff, hA, hZ]
  split
  · rw [toNat_ofNat_small (by omega)]
  · rfl

@[simp] theorem toLower_idem (c : Char) : toLower (toLower c) = toLower c := by
  apply char_ext_toNat
  rw [toLower_toNat, toLower_toNat]
  split
  · rw [if_neg (by omega)]
  · rfl

theorem toLower_eq_iff (a b : Char) : toLower a = toLower b ↔ SameLetter a b := by
  constructor
  · intro h
    have h' := congrArg Char.toNat h
    rw [toLower_toNat, toLower_toNat] at h'
    unfold SameLetter
    by_cases e : a.toNat = b.toNat
    · exact Or.inl (char_ext_toNat e)
    · right
      split at h' <;> split at h' <;> omega
  · intro h
    apply char_ext_toNat
    rw [toLower_toNat, toLower_toNat]
    rcases h with rfl | h | h
    · rfl
    · rw [if_pos ⟨h.1, h.2.1⟩, if_neg (by omega)]; omega
    · rw [if_neg (by omega), if_pos ⟨h.1, h.2.1⟩]; omega

@[simp] theorem lowerStr_nil : lowerStr [] = [] := rfl
@[simp] theorem lowerStr_cons (c : Char) (s : Str) : lowerStr (c :: s) = toLower c :: lowerStr s := rfl
@[simp] theorem lowerStr_length (s : Str) : (lowerStr s).length = s.length := by simp [lowerStr]
@[simp] theorem lowerStr_idem (s : Str) : lowerStr (lowerStr s) = lowerStr s := by
  simp [lowerStr]
theorem lowerStr_append (a b : Str) : lowerStr (a ++ b) = lowerStr a ++ lowerStr b := by simp [lowerStr]
theorem lowerStr_take (n : Nat) (s : Str) : lowerStr (s.take n) = (lowerStr s).take n := by
  simp [lowerStr, List.map_take]

theorem sameCase_iff (s t : Str) : SameCase s t ↔ lowerStr s = lowerStr t := by
  constructor
  · intro h
    induction h with
    | nil => rfl
    | cons h _ ih => simp [(toLower_eq_iff _ _).2 h, ih]
  · intro h
    induction s generalizing t with
    | nil =>
      cases t with
      | nil => exact .nil
      | cons c t => simp at h
    | cons a s ih =>
      cases t with
      | nil => simp at h
      | cons b t =>
        simp at h
        exact .cons ((toLower_eq_iff _ _).1 h.1) (ih t h.2)

@[simp] theorem caseEq_iff (a b : Str) : caseEq a b = true ↔ lowerStr a = lowerStr b := by
  simp [caseEq]

theorem isTrimWs_iff (c : Char) : isTrimWs c = true ↔ Ws c := by
  simp [isTrimWs, Ws, or_assoc]

theorem trimEndRev_eq (s : Str) : trimEndRev s = s.dropWhile isTrimWs := by
  induction s with
  | nil => rfl
  | cons c s ih => simp only [trimEndRev, List.dropWhile]; split <;> simp_all

theorem trimStr_eq (s : Str) :
    trimStr s = ((s.dropWhile isTrimWs).reverse.dropWhile isTrimWs).reverse := by
  unfold trimStr
  simp only [trimEndRev_eq]
  split
  · rename_i h; rw [List.isEmpty_iff.1 h]; rfl
  · rfl

theorem dropWhile_split (p : Char → Bool) (s : Str) :
    ∃ a, s = a ++ s.dropWhile p ∧ (∀ c ∈ a, p c = true) :=
  ⟨s.takeWhile p, by simp, fun c hc => by simpa using List.all_takeWhile (l := s) (p := p) |> fun h => List.all_eq_true.1 h c hc⟩

theorem dropWhile_head (p : Char → Bool) (s : Str) (c : Char) (r : Str)
    (h : s.dropWhile p = c :: r) : p c = false := by
  induction s with
  | nil => simp at h
  | cons d s ih =>
    simp only [List.dropWhile] at h
    split at h
    · exact ih h
    · simp at h; rw [← h.1]; simp_all

theorem trimStr_trimmed (s : Str) : Trimmed s (trimStr s) := by
  rw [trimStr_eq]
  obtain ⟨a, ha, haw⟩ := dropWhile_split isTrimWs s
  obtain ⟨b, hb, hbw⟩ := dropWhile_split isTrimWs (s.dropWhile isTrimWs).reverse
  have hb' : s.dropWhile isTrimWs =
      ((s.dropWhile isTrimWs).reverse.dropWhile isTrimWs).reverse ++ b.reverse := by
    have := congrArg List.reverse hb
    simpa using this
  refine ⟨⟨a, b.reverse, ?_, ?_, ?_⟩, ?_, ?_⟩
  · rw [List.append_assoc, ← hb']; exact ha
  · intro c hc; exact (isTrimWs_iff c).1 (haw c hc)
  · intro c hc; exact (isTrimWs_iff c).1 (hbw c (by simpa using hc))
  · intro c r' h hw
    have hh : s.dropWhile isTrimWs = c :: (r' ++ b.reverse) := by rw [hb', h]; rfl
    have := dropWhile_head _ _ _ _ hh
    rw [(isTrimWs_iff c).2 hw] at this; simp at this
  · intro c r' h hw
    have hh : (s.dropWhile isTrimWs).reverse.dropWhile isTrimWs = c :: r'.reverse := by
      have := congrArg List.reverse h
      simpa using this
    have := dropWhile_head _ _ _ _ hh
    rw [(isTrimWs_iff c).2 hw] at this; simp at this

/-- A trimmed string is unchanged by `dropWhile`/trimming. -/
theorem trimStr_id {s : Str} (h1 : ∀ c r', s = c :: r' → ¬ Ws c) (h2 : ∀ c r', s = r' ++ [c] → ¬ Ws c) :
    trimStr s = s := by
  rw [trimStr_eq]
  have e1 : s.dropWhile isTrimWs = s := by
    cases s with
    | nil => rfl
    | cons c r =>
      have := h1 c r rfl
      rw [← isTrimWs_iff] at this
      simp [List.dropWhile, this]
  rw [e1]
  rcases List.eq_nil_or_concat s with h | ⟨r, c, h⟩
  · subst h; rfl
  · subst h
    have := h2 c r (by simp)
    rw [← isTrimWs_iff] at this
    simp [this]

theorem trimmed_unique {s r r' : Str} (h : Trimmed s r) (h' : Trimmed s r') : r = r' := by
  -- both equal the canonical trimming
  have key : ∀ r, Trimmed s r → r = trimStr s := by
    intro r ⟨⟨a, b, e, ha, hb⟩, h1, h2⟩
    subst e
    rw [trimStr_eq, List.append_assoc]
    have ha' : ∀ c ∈ a, isTrimWs c = true := fun c hc => (isTrimWs_iff c).2 (ha c hc)
    have hb' : ∀ c ∈ b, isTrimWs c = true := fun c hc => (isTrimWs_iff c).2 (hb c hc)
    rw [List.dropWhile_append_of_pos ha']
    cases r with
    | nil =>
      have e : ([] ++ b).dropWhile isTrimWs = [] := by
        rw [List.nil_append]
        have := List.dropWhile_append_of_pos (l₂ := []) hb'
        simpa using this
      rw [e]; rfl
    | cons c r =>
      have hc : isTrimWs c = false := by
        have := h1 c r rfl
        rw [← isTrimWs_iff] at this
        simpa using this
      have e : (c :: r ++ b).dropWhile isTrimWs = c :: r ++ b := by simp [hc]
      rw [e, List.reverse_append, List.dropWhile_append_of_pos (by simpa using hb')]
      rcases List.eq_nil_or_concat (c :: r) with hh | ⟨q, d, hh⟩
      · simp at hh
      · rw [hh]
        have hd : isTrimWs d = false := by
          have := h2 d q (by simp [hh])
          rw [← isTrimWs_iff] at this
          simpa using this
        simp [hd]
  rw [key r h, key r' h']

theorem strlcat_eq (size : Nat) (d s : Str) (h : d.length < size) :
    strlcat size d s = (d ++ s).take (size - 1) := by
  unfold strlcat
  split
  · split
    · rw [List.take_append]
      rw [List.take_of_length_le (l := d) (by omega)]
      congr 2
      omega
    · rw [List.take_of_length_le]; simp; omega
  · have : d.length = size - 1 := by omega
    rw [← this]; simp

/-! ## Tokens -/

theorem token_nil (d : Char → Prop) (m : Str) : ¬ Token d [] m := by
  rintro ⟨hne, _, pre, post, e, _, _⟩
  have := congrArg List.length e
  simp at this
  exact hne (List.eq_nil_of_length_eq_zero (by omega))

/-- A string without delimiters is its own only token. -/
theorem token_noDelim {d : Char → Prop} {a m : Str} (ha : ∀ c ∈ a, ¬ d c) :
    Token d a m ↔ (m = a ∧ a ≠ []) := by
  constructor
  · rintro ⟨hne, _, pre, post, e, hpre, hpost⟩
    have h1 : pre = [] := by
      rcases hpre with h | ⟨q, c, h, hc⟩
      · exact h
      · exact absurd hc (ha c (by rw [e, h]; simp))
    have h2 : post = [] := by
      rcases hpost with h | ⟨c, q, h, hc⟩
      · exact h
      · exact absurd hc (ha c (by rw [e, h]; simp))
    subst h1 h2
    simp at e
    exact ⟨e.symm, by rw [e]; exact hne⟩
  · rintro ⟨rfl, hne⟩
    exact ⟨hne, ha, [], [], by simp, Or.inl rfl, Or.inl rfl⟩

/-- Tokens across a delimiter. -/
theorem token_delim {d : Char → Prop} {a b m : Str} {x : Char} (ha : ∀ c ∈ a, ¬ d c) (hx : d x) :
    Token d (a ++ x :: b) m ↔ (m = a ∧ a ≠ []) ∨ Token d b m := by
  constructor
  · rintro ⟨hne, hm, pre, post, e, hpre, hpost⟩
    rcases hpre with h | ⟨q, c, h, hc⟩
    · -- token at the start
      subst h
      left
      simp only [List.nil_append] at e
      have e' : a = m := by
        rcases List.append_eq_append_iff.1 e with ⟨u, h1, h2⟩ | ⟨u, h1, h2⟩
        · cases u with
          | nil => simpa using h1.symm
          | cons y u =>
            simp at h2
            exact absurd (h2.1 ▸ hx) (hm y (by rw [h1]; simp))
        · cases u with
          | nil => simpa using h1
          | cons y u =>
            rcases hpost with h | ⟨c, q, h, hc⟩
            · rw [h] at h2; simp at h2
            · rw [h] at h2; simp at h2
              exact absurd (h2.1 ▸ hc) (ha y (by rw [h1]; simp))
      subst e'
      exact ⟨rfl, hne⟩
    · right
      subst h
      -- the delimiter in front of the token lies at or behind x
      have e1 : a ++ x :: b = q ++ (c :: (m ++ post)) := by rw [e]; simp
      rcases List.append_eq_append_iff.1 e1 with ⟨u, h1, h2⟩ | ⟨u, h1, h2⟩
      · -- q = a ++ u
        cases u with
        | nil =>
          simp at h2
          exact ⟨hne, hm, [], post, by simp [h2.2], Or.inl rfl, hpost⟩
        | cons y u =>
          simp at h2
          refine ⟨hne, hm, u ++ [c], post, by rw [h2.2]; simp, Or.inr ⟨u, c, rfl, hc⟩, hpost⟩
      · cases u with
        | nil =>
          simp at h2
          exact ⟨hne, hm, [], post, by simp [h2.2], Or.inl rfl, hpost⟩
        | cons y u =>
          simp at h2
          exact absurd (h2.1 ▸ hc) (ha y (by rw [h1]; simp))
  · rintro (⟨rfl, hne⟩ | ⟨hne, hm, pre, post, e, hpre, hpost⟩)
    · exact ⟨hne, ha, [], x :: b, by simp, Or.inl rfl, Or.inr ⟨x, b, rfl, hx⟩⟩
    · refine ⟨hne, hm, a ++ x :: pre, post, by rw [e]; simp, ?_, hpost⟩
      right
      rcases hpre with rfl | ⟨q, c, rfl, hc⟩
      · exact ⟨a, x, by simp, hx⟩
      · exact ⟨a ++ x :: q, c, by simp, hc⟩

theorem mem_strtokAux (d : Char → Bool) (s cur m : Str) (hcur : ∀ c ∈ cur, d c = false) :
    m ∈ strtokAux d s cur ↔ Token (fun c => d c = true) (cur.reverse ++ s) m := by
  induction s generalizing cur with
  | nil =>
    rw [List.append_nil, token_noDelim (by simpa using hcur)]
    unfold strtokAux
    split
    · rename_i h; rw [List.isEmpty_iff.1 h]; simp
    · rename_i h
      rw [List.isEmpty_iff] at h
      simp [h]
  | cons c cs ih =>
    unfold strtokAux
    by_cases hc : d c = true
    · rw [token_delim (by simpa using hcur) hc]
      simp only [hc, if_true]
      split
      · rename_i h
        rw [List.isEmpty_iff.1 h, ih [] (by simp)]
        simp
      · rename_i h
        rw [List.isEmpty_iff] at h
        simp [h, ih [] (by simp)]
    · simp only [hc]
      have := ih (c :: cur) (by
        intro x hx
        rcases List.mem_cons.1 hx with rfl | hx
        · simpa using hc
        · exact hcur x hx)
      simpa using this

theorem mem_strtok (s delim m : Str) :
    m ∈ strtok s delim ↔ Token (fun c => c ∈ delim) s m := by
  unfold strtok
  rw [mem_strtokAux _ _ _ _ (by simp)]
  simp

end Ngircd
