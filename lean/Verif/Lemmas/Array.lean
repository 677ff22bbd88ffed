import Verif.Model.Array

namespace Ngircd

@[simp] theorem Res.bind_ok {α β} (a : α) (f : α → Res β) : (Res.ok a).bind f = f a := rfl

namespace Arr

/-- The block has exactly the recorded size, the used part lies inside, sizes fit size_t,
and a NULL block has size 0, any other block at least 1. -/
structure Inv (a : Arr) : Prop where
  len : (a.cells.getD []).length = a.allocated
  used : a.used ≤ a.allocated
  bound : a.allocated < SZ
  null : a.cells ≠ none → 0 < a.allocated

/-- The logical content. -/
def content (a : Arr) : Str := (a.cells.getD []).take a.used

theorem content_length {a : Arr} (h : a.Inv) : a.content.length = a.used := by
  have := h.len; have := h.used
  simp [content]; omega

theorem init_inv : init.Inv := ⟨rfl, Nat.le_refl _, by decide, by simp [init]⟩

theorem safemult_eq (a b : Nat) (_ha : a < SZ) (hb : b < SZ) :
    safemult a b = if a * b < SZ then some (a * b) else none := by
  unfold safemult
  by_cases h : a * b < SZ
  · rw [Nat.mod_eq_of_lt h, if_pos h]
    by_cases hb0 : b = 0
    · simp [hb0]
    · rw [if_neg]
      intro ⟨_, h2⟩
      exact h2 (Nat.mul_div_cancel a (Nat.pos_of_ne_zero hb0))
  · rw [if_neg h, if_pos]
    have hb0 : b ≠ 0 := by intro e; subst e; simp [SZ] at h
    refine ⟨hb0, fun e => ?_⟩
    have h1 : a * b ≤ (a * b) % SZ := by
      have := Nat.div_mul_le_self ((a * b) % SZ) b
      rw [e] at this
      exact this
    have h2 : (a * b) % SZ < SZ := Nat.mod_lt _ (by decide)
    omega

theorem writeAt_ok {c s : Str} {off : Nat} (h : off + s.length ≤ c.length) :
    writeAt c off s = .ok (c.take off ++ s ++ c.drop (off + s.length)) := by
  simp [writeAt, h]

/-- What `alloc` does on a consistent array. -/
theorem alloc_spec (a : Arr) (size pos : Nat) (o : Option Char) (h : a.Inv)
    (hs : 0 < size) (hs' : size < SZ) (hp : pos < SZ) :
    (∃ off, alloc a size pos o = .ok (a, off) ∧
        ((off = none ∧ a.allocated < (pos + 1) * size ∧ (o = none ∨ SZ ≤ (pos + 1) * size)) ∨
         (off = some (pos * size) ∧ (pos + 1) * size ≤ a.allocated)) ) ∨
    (∃ blk, a.allocated < (pos + 1) * size ∧ (pos + 1) * size < SZ ∧ o.isSome ∧
      alloc a size pos o = .ok (Arr.mk (some blk) ((pos + 1) * size) ((pos + 1) * size),
        some (pos * size)) ∧
      blk = a.content ++ List.replicate ((pos + 1) * size - a.used) '\x00') := by
  unfold alloc
  rw [if_neg (by omega)]
  by_cases hp1 : pos + 1 = SZ
  · left
    have hge : SZ ≤ (pos + 1) * size := by
      have := Nat.mul_le_mul_left (pos + 1) hs
      omega
    have hbd := h.bound
    exact ⟨none, by simp [hp1], Or.inl ⟨rfl, by omega, Or.inr hge⟩⟩
  · have hpl : pos + 1 < SZ := by omega
    have hmul : pos * size ≤ (pos + 1) * size := Nat.mul_le_mul_right _ (by omega)
    have hmp : (pos + 1) % SZ = pos + 1 := Nat.mod_eq_of_lt hpl
    simp only [hmp, Nat.succ_ne_zero, if_false]
    rw [safemult_eq _ _ hs' hpl, Nat.mul_comm size (pos + 1)]
    by_cases hm : (pos + 1) * size < SZ
    · rw [if_pos hm, Nat.mod_eq_of_lt (Nat.lt_of_le_of_lt hmul hm)]
      simp only
      by_cases hg : a.allocated < (pos + 1) * size
      · rw [if_pos hg]
        cases o with
        | none => left; exact ⟨none, rfl, Or.inl ⟨rfl, hg, Or.inl rfl⟩⟩
        | some junk =>
          right
          have hl := h.len
          have hu := h.used
          have hsub : ((pos + 1) * size + SZ - a.used) % SZ = (pos + 1) * size - a.used := by
            rw [show (pos + 1) * size + SZ - a.used = ((pos + 1) * size - a.used) + SZ by omega]
            rw [Nat.add_mod_right, Nat.mod_eq_of_lt (by omega)]
          have hrl : (realloc a.cells ((pos + 1) * size) junk).length = (pos + 1) * size := by
            simp [realloc]; omega
          have htake : (realloc a.cells ((pos + 1) * size) junk).take a.used = a.content := by
            unfold realloc content
            rw [List.take_append_of_le_length (by simp; omega), List.take_take]
            congr 1; omega
          simp only [hsub]
          rw [writeAt_ok (by simp [hrl]; omega)]
          refine ⟨_, hg, hm, rfl, rfl, ?_⟩
          rw [htake]
          simp [hrl]
          omega
      · rw [if_neg hg, if_pos h.used]
        left
        exact ⟨_, rfl, Or.inr ⟨rfl, by omega⟩⟩
    · rw [if_neg hm]
      have hbd := h.bound
      left; exact ⟨none, rfl, Or.inl ⟨rfl, by omega, Or.inr (by omega)⟩⟩

theorem grown_inv {a : Arr} {n : Nat} (h : a.Inv) (hn : a.allocated < n) (hb : n < SZ) :
    Inv { cells := some (a.content ++ List.replicate (n - a.used) '\x00'), allocated := n, used := n } := by
  have := content_length h
  have hu := h.used
  exact ⟨by simp [this]; omega, Nat.le_refl _, hb, fun _ => by simp; omega⟩

theorem grown_content {a : Arr} {n : Nat} (h : a.Inv) (hn : a.allocated < n) :
    content { cells := some (a.content ++ List.replicate (n - a.used) '\x00'), allocated := n, used := n }
      = a.content ++ List.replicate (n - a.used) '\x00' := by
  have := content_length h
  have hu := h.used
  unfold content
  simp only [Option.getD_some]
  rw [List.take_of_length_le]
  simp
  omega

/-- What `catb` does on a consistent array. -/
theorem catb_spec (a : Arr) (s : Str) (o : Option Char) (h : a.Inv) (hs : s.length < SZ) :
    (a.catb s o = .ok (a, false) ∧ s ≠ [] ∧ (o = none ∨ SZ ≤ a.used + s.length + 1)) ∨
    (∃ a', a.catb s o = .ok (a', true) ∧ a'.Inv ∧ a'.content = a.content ++ s ∧
      (s ≠ [] → a'.used < a'.allocated) ∧ (s = [] → a' = a)) := by
  unfold catb
  by_cases h0 : s.length = 0
  · rw [if_pos h0]
    right
    have : s = [] := List.eq_nil_of_length_eq_zero h0
    subst this
    exact ⟨a, rfl, h, by simp, by simp, by simp⟩
  · rw [if_neg h0]
    have hne : s ≠ [] := by intro e; simp [e] at h0
    have hub := h.used
    have hbd := h.bound
    have hcl := content_length h
    by_cases hov : SZ ≤ a.used + s.length
    · have : (a.used + s.length) % SZ = a.used + s.length - SZ := by
        rw [Nat.mod_eq_sub_mod hov, Nat.mod_eq_of_lt (by omega)]
      simp only [this]
      rw [if_pos (by omega)]
      left; exact ⟨rfl, hne, Or.inr (by omega)⟩
    · have hmod : (a.used + s.length) % SZ = a.used + s.length := Nat.mod_eq_of_lt (by omega)
      simp only [hmod]
      rw [if_neg (by omega)]
      rcases alloc_spec a 1 (a.used + s.length) o h (by omega) (by decide) (by omega) with
        ⟨off, e, hoff⟩ | ⟨blk, hlt, hlt2, ho, e, hblk⟩
      · rw [e]
        rcases hoff with ⟨rfl, _, hwhy⟩ | ⟨rfl, hle⟩
        · left
          exact ⟨rfl, hne, hwhy.imp id (by omega)⟩
        · right
          simp only [Res.bind_ok]
          cases hc : a.cells with
          | none =>
            have hl := h.len
            simp [hc] at hl
            omega
          | some blk =>
            simp only
            have hl : blk.length = a.allocated := by have := h.len; simpa [hc] using this
            rw [writeAt_ok (by omega)]
            refine ⟨_, rfl, ⟨?_, ?_, hbd, fun _ => by simp; omega⟩, ?_, fun _ => by simp; omega, fun he => absurd he hne⟩
            · simp; omega
            · simp; omega
            · simp only [content, hc, Option.getD_some]
              rw [List.take_append_of_le_length (by simp; omega), List.take_of_length_le (by simp; omega)]
      · right
        rw [e]
        simp only [Res.bind_ok, Nat.mul_one] at *
        have hbl : blk.length = a.used + s.length + 1 := by
          rw [hblk]; simp [hcl]; omega
        rw [writeAt_ok (by omega)]
        refine ⟨_, rfl, ⟨?_, ?_, hlt2, fun _ => by simp⟩, ?_, fun _ => by simp, fun he => absurd he hne⟩
        · simp; omega
        · simp
        · simp only [content, Option.getD_some]
          rw [List.take_append_of_le_length (by simp; omega), List.take_of_length_le (by simp; omega)]
          congr 1
          rw [hblk, List.take_append_of_le_length (by omega), List.take_of_length_le (by omega)]
          rfl

theorem trunc_inv {a : Arr} (h : a.Inv) : a.trunc.Inv := ⟨h.len, Nat.zero_le _, h.bound, h.null⟩
theorem trunc_content (a : Arr) : a.trunc.content = [] := by simp [trunc, content]

/-- What `cat0_temporary` does on a consistent array. -/
theorem cat0Temporary_spec (a : Arr) (o : Option Char) (h : a.Inv) :
    (a.cat0Temporary o = .ok (a, false) ∧ a.used = a.allocated) ∨
    (∃ a', a.cat0Temporary o = .ok (a', true) ∧ a'.Inv ∧ a'.allocated = max a.allocated (a.used + 1) ∧
      ((a.used < a.allocated ∧ a'.content = a.content ∧ a'.used = a.used) ∨
       (a.used = a.allocated ∧ a'.content = a.content ++ ['\x00'])) ∧
      ∃ blk, a'.cells = some blk ∧ blk[a.used]? = some '\x00') := by
  have hub := h.used
  have hbd := h.bound
  have hcl := content_length h
  unfold cat0Temporary bytes
  rcases alloc_spec a 1 a.used o h (by omega) (by decide) (by omega) with
        ⟨off, e, hoff⟩ | ⟨blk, hlt, hlt2, ho, e, hblk⟩
  · rw [e]
    rcases hoff with ⟨rfl, hlt, hwhy⟩ | ⟨rfl, hle⟩
    · left
      exact ⟨rfl, by omega⟩
    · right
      simp only [Res.bind_ok]
      cases hc : a.cells with
      | none =>
        have hl := h.len
        simp [hc] at hl
        omega
      | some blk =>
        simp only
        have hl : blk.length = a.allocated := by have := h.len; simpa [hc] using this
        rw [writeAt_ok (by simp; omega)]
        refine ⟨_, rfl, ⟨?_, hub, hbd, fun _ => by simp; omega⟩, by simp; omega, Or.inl ⟨by omega, ?_, rfl⟩, _, rfl, ?_⟩
        · simp; omega
        · simp only [content, hc, Option.getD_some, Nat.mul_one]
          rw [List.append_assoc, List.take_append_of_le_length (by simp; omega)]
          simp [List.take_take]
        · simp only [Nat.mul_one]
          rw [List.append_assoc, List.getElem?_append_right (by rw [List.length_take]; omega)]
          simp [show min a.used blk.length = a.used by omega]
  · right
    rw [e]
    simp only [Res.bind_ok, Nat.mul_one] at *
    have heq : a.used = a.allocated := by omega
    have hbl : blk.length = a.used + 1 := by rw [hblk]; simp [hcl]
    rw [writeAt_ok (by simp; omega)]
    refine ⟨_, rfl, ⟨?_, Nat.le_refl _, hlt2, fun _ => by simp⟩, by simp; omega, Or.inr ⟨heq, ?_⟩, _, rfl, ?_⟩
    · simp; omega
    · simp only [content, Option.getD_some]
      rw [List.take_of_length_le (by simp; omega), hblk]
      rw [List.take_append_of_le_length (by omega), List.take_of_length_le (by omega)]
      rw [List.drop_of_length_le (by simp [hcl]), List.append_nil]
      rfl
    · rw [List.append_assoc, List.getElem?_append_right (by rw [List.length_take]; omega)]
      simp [hbl]

theorem moveleft_spec (a : Arr) (m n : Nat) (h : a.Inv) (hm : 0 < m) (hm' : m < SZ) (hn : n < SZ) :
    ∃ a', a.moveleft m n = .ok a' ∧ a'.Inv ∧ a'.content = a.content.drop (m * n) ∧
      a'.allocated = a.allocated ∧ a'.used ≤ a.used := by
  have hub := h.used
  have hbd := h.bound
  have hcl := content_length h
  unfold moveleft
  rw [if_neg (by omega), safemult_eq _ _ hm' hn]
  by_cases hov : m * n < SZ
  · rw [if_pos hov]
    simp only
    by_cases h0 : m * n = 0
    · rw [if_pos h0]; exact ⟨a, rfl, h, by simp [h0], rfl, Nat.le_refl _⟩
    · rw [if_neg h0]
      by_cases hle : a.used ≤ m * n
      · rw [if_pos hle]
        refine ⟨_, rfl, ⟨h.len, Nat.zero_le _, hbd, h.null⟩, ?_, rfl, Nat.zero_le _⟩
        rw [List.drop_of_length_le (by omega)]
        simp [content]
      · rw [if_neg hle]
        cases hc : a.cells with
        | none => have := h.len; simp [hc] at this; omega
        | some blk =>
          have hl : blk.length = a.allocated := by have := h.len; simpa [hc] using this
          simp only
          rw [if_pos (by omega), writeAt_ok (by simp; omega)]
          refine ⟨_, rfl, ⟨?_, ?_, hbd, fun _ => by simp; omega⟩, ?_, rfl, ?_⟩
          · simp; omega
          · simp; omega
          · simp only [content, hc, Option.getD_some]
            simp only [List.take_zero, List.nil_append]
            rw [List.take_append_of_le_length (by simp; omega), List.take_of_length_le (by simp; omega)]
            rw [List.drop_take]
          · simp
  · rw [if_neg hov]
    refine ⟨_, rfl, ⟨h.len, Nat.zero_le _, hbd, h.null⟩, ?_, rfl, Nat.zero_le _⟩
    rw [List.drop_of_length_le (by omega)]
    simp [content]

theorem truncate_inv (a : Arr) (m n : Nat) (h : a.Inv) : (a.truncate m n).Inv := by
  unfold truncate
  split
  · exact h
  · split
    · rename_i hle; exact ⟨h.len, hle, h.bound, h.null⟩
    · exact h

end Arr
end Ngircd
