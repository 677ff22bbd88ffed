import Verif.Spec.Encoding

/-! # C94, C95: conversion of character encodings -/

namespace Ngircd

/-- The handles of the connections: open, in pairs for the two directions, and not shared. -/
structure EncInv (s : Enc) : Prop where
  pair : ∀ i, s.conns i = {} ∨ ∃ a b n, s.conns i = ⟨some a, some b⟩ ∧ a ≠ b ∧
    s.handles a = some (Spec.UTF8, n) ∧ s.handles b = some (n, Spec.UTF8)
  own : ∀ i j h, ((s.conns i).frm = some h ∨ (s.conns i).to = some h) →
    ((s.conns j).frm = some h ∨ (s.conns j).to = some h) → i = j
  fresh : ∀ h, s.next ≤ h → s.handles h = none

theorem EncInv.init : EncInv {} := by
  refine ⟨fun _ => .inl rfl, fun _ _ _ h => ?_, fun _ _ => rfl⟩
  rcases h with h | h <;> cases h

@[simp] theorem putAt_same {α} (f : Nat → α) (n : Nat) (a : α) : putAt f n a n = a := by simp [putAt]
theorem putAt_ne {α} (f : Nat → α) {n m : Nat} (a : α) (h : m ≠ n) : putAt f n a m = f m := by simp [putAt, h]

/-- Removing the handles of a connection: never a fault. -/
theorem unset_ok {s : Enc} (hs : EncInv s) (i : Nat) :
    ∃ t, unsetEncoding s i = .ok t ∧ EncInv t ∧ t.conns = putAt s.conns i {} ∧ t.next = s.next ∧ t.buf = s.buf ∧
      (∀ j, j ≠ i → Spec.speaks t j = Spec.speaks s j) ∧
      (∀ h, (t.handles h).isSome → (s.handles h).isSome ∧ (s.conns i).frm ≠ some h ∧ (s.conns i).to ≠ some h) := by
  rcases hs.pair i with hi | ⟨a, b, n, hi, hab, ha, hb⟩
  · refine ⟨{ s with conns := putAt s.conns i {} }, by simp [unsetEncoding, hi, Enc.closes, Res.bind], ?_, rfl, rfl, rfl, ?_, ?_⟩
    · have e : putAt s.conns i {} = s.conns := by
        funext j; unfold putAt; split
        · next h => rw [h, hi]
        · rfl
      rw [e]; exact hs
    · intro j hj; simp [Spec.speaks, putAt_ne _ _ hj]
    · intro h hh; exact ⟨hh, by simp [hi], by simp [hi]⟩
  · have key : ∀ j, j ≠ i → ∀ h, (s.conns j).frm = some h ∨ (s.conns j).to = some h → h ≠ a ∧ h ≠ b := by
      intro j hj h hh
      constructor
      · intro e; subst e; exact hj (hs.own j i h hh (.inl (by simp [hi])))
      · intro e; subst e; exact hj (hs.own j i h hh (.inr (by simp [hi])))
    refine ⟨{ s with handles := putAt (putAt s.handles a none) b none, conns := putAt s.conns i {} }, ?_, ?_, rfl, rfl, rfl, ?_, ?_⟩
    · have : (putAt s.handles a none b).isSome = true := by rw [putAt_ne _ _ (Ne.symm hab), hb]; rfl
      simp [unsetEncoding, hi, Enc.closes, Res.bind, ha, this]
    · constructor
      · intro j
        by_cases hj : j = i
        · left; simp [hj]
        · simp only [putAt_ne _ _ hj]
          rcases hs.pair j with h | ⟨a', b', n', h, hne, h1, h2⟩
          · exact .inl h
          · refine .inr ⟨a', b', n', h, hne, ?_, ?_⟩
            · have := key j hj a' (.inl (by simp [h]))
              rw [putAt_ne _ _ this.2, putAt_ne _ _ this.1, h1]
            · have := key j hj b' (.inr (by simp [h]))
              rw [putAt_ne _ _ this.2, putAt_ne _ _ this.1, h2]
      · intro j k h hj hk
        by_cases ej : j = i
        · simp [ej] at hj
        · by_cases ek : k = i
          · simp [ek] at hk
          · simp only [putAt_ne _ _ ej, putAt_ne _ _ ek] at hj hk
            exact hs.own j k h hj hk
      · intro h hh
        show putAt (putAt s.handles a none) b none h = none
        unfold putAt; split
        · rfl
        · split
          · rfl
          · exact hs.fresh h hh
    · intro j hj
      simp only [Spec.speaks, putAt_ne _ _ hj]
      cases hto : (s.conns j).to with
      | none => rfl
      | some h =>
        have := key j hj h (.inr hto)
        simp only [Option.bind_some]
        rw [putAt_ne _ _ this.2, putAt_ne _ _ this.1]
    · intro h hh
      simp only [putAt] at hh
      split at hh
      · simp at hh
      · split at hh
        · simp at hh
        · next h1 h2 => exact ⟨hh, by simp [hi]; exact fun e => h2 e.symm, by simp [hi]; exact fun e => h1 e.symm⟩

/-- Opening both handles for a connection that has none. -/
theorem EncInv.opened {s : Enc} (hs : EncInv s) (i : Nat) (n : Str) :
    EncInv { s with
      handles := putAt (putAt s.handles s.next (some (Spec.UTF8, n))) (s.next + 1) (some (n, Spec.UTF8))
      next := s.next + 1 + 1
      conns := putAt s.conns i ⟨some s.next, some (s.next + 1)⟩ } := by
  have old : ∀ j h, (s.conns j).frm = some h ∨ (s.conns j).to = some h → h < s.next := by
    intro j h hh
    rcases hs.pair j with e | ⟨a, b, n, e, _, ha, hb⟩
    · rw [e] at hh; rcases hh with hh | hh <;> cases hh
    · rw [e] at hh
      rcases hh with hh | hh <;> cases hh
      · exact Nat.lt_of_not_le (fun hle => by rw [hs.fresh _ hle] at ha; cases ha)
      · exact Nat.lt_of_not_le (fun hle => by rw [hs.fresh _ hle] at hb; cases hb)
  constructor
  · intro j
    by_cases hj : j = i
    · subst hj
      refine .inr ⟨s.next, s.next + 1, n, by simp, by omega, ?_, by simp⟩
      show putAt _ (s.next + 1) _ s.next = _
      rw [putAt_ne _ _ (by omega)]; simp
    · simp only [putAt_ne _ _ hj]
      rcases hs.pair j with e | ⟨a, b, m, e, hne, ha, hb⟩
      · exact .inl e
      · have h1 := old j a (.inl (by simp [e]))
        have h2 := old j b (.inr (by simp [e]))
        refine .inr ⟨a, b, m, e, hne, ?_, ?_⟩
        · rw [putAt_ne _ _ (by omega), putAt_ne _ _ (by omega), ha]
        · rw [putAt_ne _ _ (by omega), putAt_ne _ _ (by omega), hb]
  · intro j k h hj hk
    by_cases ej : j = i <;> by_cases ek : k = i
    · rw [ej, ek]
    · subst ej
      simp only [putAt_ne _ _ ek] at hk
      have := old k h hk
      simp only [putAt_same, Option.some.injEq] at hj; omega
    · subst ek
      simp only [putAt_ne _ _ ej] at hj
      have := old j h hj
      simp only [putAt_same, Option.some.injEq] at hk; omega
    · simp only [putAt_ne _ _ ej, putAt_ne _ _ ek] at hj hk
      exact hs.own j k h hj hk
  · intro h hh
    have hh : s.next + 1 + 1 ≤ h := hh
    show putAt (putAt s.handles s.next _) (s.next + 1) _ h = none
    rw [putAt_ne _ _ (by omega), putAt_ne _ _ (by omega), hs.fresh h (by omega)]

theorem speaks_opened {s : Enc} (hs : EncInv s) (i j : Nat) (n : Str) :
    Spec.speaks { s with
      handles := putAt (putAt s.handles s.next (some (Spec.UTF8, n))) (s.next + 1) (some (n, Spec.UTF8))
      next := s.next + 1 + 1
      conns := putAt s.conns i ⟨some s.next, some (s.next + 1)⟩ } j = if j = i then some n else Spec.speaks s j := by
  by_cases hj : j = i
  · subst hj; simp [Spec.speaks]
  · simp only [Spec.speaks, putAt_ne _ _ hj, hj, if_false]
    rcases hs.pair j with e | ⟨a, b, m, e, hne, ha, hb⟩
    · simp [e]
    · have h2 : b < s.next := Nat.lt_of_not_le (fun hle => by rw [hs.fresh _ hle] at hb; cases hb)
      simp only [e, Option.bind_some]
      rw [putAt_ne _ _ (by omega), putAt_ne _ _ (by omega)]

/-- Opening only the first handle, and closing it again. -/
theorem unset_half {s : Enc} (hs : EncInv s) (i : Nat) (n : Str) (hi : s.conns i = {}) :
    unsetEncoding { s with
      handles := putAt s.handles s.next (some (Spec.UTF8, n))
      next := s.next + 1
      conns := putAt s.conns i ⟨some s.next, none⟩ } i = .ok { s with next := s.next + 1 } := by
  have e1 : putAt (putAt s.handles s.next (some (Spec.UTF8, n))) s.next none = s.handles := by
    funext h; unfold putAt; split
    · next e => rw [e, hs.fresh _ (Nat.le_refl _)]
    · rfl
  have e2 : putAt (putAt s.conns i ⟨some s.next, none⟩) i {} = s.conns := by
    funext j; unfold putAt; split
    · next e => rw [e, hi]
    · rfl
  simp [unsetEncoding, Enc.closes, Res.bind, e1, e2]

theorem EncInv.plain {s : Enc} (hs : EncInv s) : EncInv { s with next := s.next + 1 } :=
  ⟨hs.pair, hs.own, fun h hh => hs.fresh h (by have : s.next + 1 ≤ h := hh; omega)⟩

theorem speaks_plain {s : Enc} {i : Nat} (hi : s.conns i = {}) : Spec.speaks s i = none := by simp [Spec.speaks, hi]

/-- `Conn_SetEncoding` in any state with the invariant. -/
theorem set_ok {s : Enc} (hs : EncInv s) (i : Nat) (enc : Str) (ok1 ok2 : Bool) :
    ∃ t, setEncoding s i enc ok1 ok2 = .ok (t, caseEq enc "UTF-8".toList || (ok1 && ok2)) ∧ EncInv t ∧
      Spec.speaks t i = (if caseEq enc "UTF-8".toList || !(ok1 && ok2) then none else some (iconvName enc)) ∧
      (∀ j, j ≠ i → Spec.speaks t j = Spec.speaks s j) ∧ (Spec.NoLeak s → Spec.NoLeak t) := by
  obtain ⟨s1, h1, hs1, hc1, hn1, _, hsp1, hh1⟩ := unset_ok hs i
  have hi1 : s1.conns i = {} := by rw [hc1]; simp
  have leak1 : Spec.NoLeak s → Spec.NoLeak s1 := by
    intro hl h hh
    obtain ⟨h1, h2, h3⟩ := hh1 h hh
    obtain ⟨j, hj⟩ := hl h h1
    have : j ≠ i := by intro e; subst e; rcases hj with hj | hj <;> contradiction
    exact ⟨j, by rw [hc1, putAt_ne _ _ this]; exact hj⟩
  unfold setEncoding
  rw [h1]
  simp only [Res.bind]
  by_cases hu : caseEq enc "UTF-8".toList = true
  · rw [if_pos hu]
    exact ⟨s1, by rw [hu]; rfl, hs1, by rw [speaks_plain hi1, hu]; rfl, hsp1, leak1⟩
  rw [if_neg hu]
  have hu : caseEq enc "UTF-8".toList = false := by simpa using hu
  simp only [hu, Bool.false_or]
  cases ok1
  · obtain ⟨s2, h2, hs2, hc2, hn2, _, hsp2, hh2⟩ := unset_ok hs1 i
    have hi2 : s2.conns i = {} := by rw [hc2]; simp
    simp only [Bool.not_false, if_true, h2]
    refine ⟨s2, rfl, hs2, by rw [speaks_plain hi2]; rfl, fun j hj => (hsp2 j hj).trans (hsp1 j hj), ?_⟩
    intro hl h hh
    obtain ⟨h1, h2, h3⟩ := hh2 h hh
    obtain ⟨j, hj⟩ := leak1 hl h h1
    have : j ≠ i := by intro e; subst e; rcases hj with hj | hj <;> contradiction
    exact ⟨j, by rw [hc2, putAt_ne _ _ this]; exact hj⟩
  · simp only [Bool.not_true, Bool.false_eq_true, if_false, Bool.true_and]
    cases ok2
    · have hf := unset_half hs1 i (iconvName enc) hi1
      simp only [Bool.not_false, if_true, Enc.opens, hi1]
      have hf' : unsetEncoding { s1 with handles := putAt s1.handles s1.next (some (iconvName "UTF-8".toList, iconvName enc)), next := s1.next + 1, conns := putAt s1.conns i ⟨some s1.next, none⟩ } i = .ok { s1 with next := s1.next + 1 } := hf
      rw [hf']
      refine ⟨{ s1 with next := s1.next + 1 }, rfl, hs1.plain, by rw [speaks_plain (by exact hi1)], hsp1, ?_⟩
      exact fun hl => leak1 hl
    · simp only [Bool.not_true, Bool.false_eq_true, if_false, Enc.opens, hi1, putAt_same]
      have e : putAt (putAt s1.conns i ⟨some s1.next, none⟩) i ⟨some s1.next, some (s1.next + 1)⟩ =
          putAt s1.conns i ⟨some s1.next, some (s1.next + 1)⟩ := by
        funext j; unfold putAt; split <;> rfl
      rw [e]
      refine ⟨_, rfl, hs1.opened i (iconvName enc), ?_, ?_, ?_⟩
      · exact (speaks_opened hs1 i i (iconvName enc)).trans (by simp)
      · intro j hj
        exact (speaks_opened hs1 i j (iconvName enc)).trans (by rw [if_neg hj]; exact hsp1 j hj)
      · intro hl h hh
        simp only [putAt] at hh
        split at hh
        · next e => exact ⟨i, .inr (by simp [e])⟩
        · split at hh
          · next e => exact ⟨i, .inl (by simp [e])⟩
          · obtain ⟨j, hj⟩ := leak1 hl h hh
            have : j ≠ i := by intro e; subst e; rw [hi1] at hj; rcases hj with hj | hj <;> cases hj
            exact ⟨j, by simp only [putAt_ne _ _ this]; exact hj⟩

/-- What a conversion leaves unchanged. -/
theorem convert_same {conv : Iconv} {s t : Enc} {h : Nat} {x : Str} (hc : convertMessage conv s h x = .ok t) :
    t.conns = s.conns ∧ t.handles = s.handles ∧ t.next = s.next := by
  unfold convertMessage at hc
  split at hc
  · cases hc
  · simp only at hc
    split at hc
    · cases hc; exact ⟨rfl, rfl, rfl⟩
    · split at hc
      · cases hc
      · cases hc; exact ⟨rfl, rfl, rfl⟩

theorem res_bind_ok {α β} {x : Res α} {f : α → Res β} {b : β} (h : x.bind f = .ok b) : ∃ a, x = .ok a ∧ f a = .ok b := by
  cases x with
  | ok a => exact ⟨a, rfl, h⟩
  | fault => cases h

theorem write_same {conv : Iconv} {s t : Enc} {i : Nat} {x l : Str} (hc : writeEncoded conv s i x = .ok (t, l)) :
    t.conns = s.conns ∧ t.handles = s.handles ∧ t.next = s.next := by
  unfold writeEncoded at hc
  obtain ⟨p, _, hc⟩ := res_bind_ok hc
  split at hc
  · obtain ⟨s1, h1, hc⟩ := res_bind_ok hc
    obtain ⟨l1, _, hc⟩ := res_bind_ok hc
    cases hc; exact convert_same h1
  · obtain ⟨l1, _, hc⟩ := res_bind_ok hc
    cases hc; exact ⟨rfl, rfl, rfl⟩

theorem batch_same {conv : Iconv} {x : Str} : ∀ {is : List Nat} {s t : Enc} {ls : List (Nat × Str)},
    writeBatch conv x s is = .ok (t, ls) → t.conns = s.conns ∧ t.handles = s.handles ∧ t.next = s.next
  | [], s, t, ls, hc => by cases hc; exact ⟨rfl, rfl, rfl⟩
  | i :: is, s, t, ls, hc => by
    unfold writeBatch at hc
    obtain ⟨⟨s1, l⟩, h1, hc⟩ := res_bind_ok hc
    obtain ⟨⟨s2, l2⟩, h2, hc⟩ := res_bind_ok hc
    cases hc
    have a := write_same h1
    have b := batch_same h2
    exact ⟨b.1.trans a.1, b.2.1.trans a.2.1, b.2.2.trans a.2.2⟩

theorem batches_same {conv : Iconv} {m : Option Str} : ∀ {bs : List Batch} {s t : Enc} {ls : List (Nat × Str)},
    writeBatches conv m s bs = .ok (t, ls) → t.conns = s.conns ∧ t.handles = s.handles ∧ t.next = s.next
  | [], s, t, ls, hc => by cases hc; exact ⟨rfl, rfl, rfl⟩
  | i :: is, s, t, ls, hc => by
    unfold writeBatches at hc
    obtain ⟨⟨s1, l⟩, h1, hc⟩ := res_bind_ok hc
    obtain ⟨⟨s2, l2⟩, h2, hc⟩ := res_bind_ok hc
    cases hc
    have a := batch_same h1
    have b := batches_same h2
    exact ⟨b.1.trans a.1, b.2.1.trans a.2.1, b.2.2.trans a.2.2⟩

theorem message_same {conv : Iconv} {s t : Enc} {i : Nat} {x : Str} {bs : List Batch} {ls : List (Nat × Str)}
    (hc : sendEncoded conv s i x bs = .ok (t, ls)) :
    t.conns = s.conns ∧ t.handles = s.handles ∧ t.next = s.next := by
  unfold sendEncoded at hc
  split at hc
  · exact batches_same hc
  · obtain ⟨s1, h1, hc⟩ := res_bind_ok hc
    have a := convert_same h1
    have b := batches_same hc
    exact ⟨b.1.trans a.1, b.2.1.trans a.2.1, b.2.2.trans a.2.2⟩

theorem EncInv.same {s t : Enc} (hs : EncInv s) (h : t.conns = s.conns ∧ t.handles = s.handles ∧ t.next = s.next) :
    EncInv t := by
  obtain ⟨h1, h2, h3⟩ := h
  exact ⟨by rw [h1, h2]; exact hs.pair, by rw [h1]; exact hs.own, by rw [h2, h3]; exact hs.fresh⟩

theorem EncInv.close {s : Enc} (hs : EncInv s) (i : Nat) : EncInv (closeEncoding s i) := by
  refine ⟨fun j => ?_, fun j k h hj hk => ?_, hs.fresh⟩
  · by_cases e : j = i
    · left; simp [closeEncoding, e]
    · simp only [closeEncoding, putAt_ne _ _ e]; exact hs.pair j
  · by_cases ej : j = i
    · simp [closeEncoding, ej] at hj
    · by_cases ek : k = i
      · simp [closeEncoding, ek] at hk
      · simp only [closeEncoding, putAt_ne _ _ ej, putAt_ne _ _ ek] at hj hk
        exact hs.own j k h hj hk

theorem EncInv.step {conv : Iconv} {s t : Enc} (hs : EncInv s) {e : EncEvent} (h : s.step conv e = .ok t) : EncInv t := by
  cases e with
  | charconv i arg ok1 ok2 =>
    obtain ⟨t1, h1, hi, _⟩ := set_ok hs i (upperStr (strlcpy 20 arg)) ok1 ok2
    obtain ⟨r, h2, h3⟩ := res_bind_ok h
    unfold ircCHARCONV at h2
    rw [h1] at h2
    cases h2; cases h3; exact hi
  | close i => cases h; exact hs.close i
  | write i x =>
    obtain ⟨⟨t1, l⟩, h1, h2⟩ := res_bind_ok h
    cases h2; exact hs.same (write_same h1)
  | message i x bs =>
    obtain ⟨⟨t1, l⟩, h1, h2⟩ := res_bind_ok h
    cases h2; exact hs.same (message_same h1)

theorem EncInv.runs {conv : Iconv} : ∀ {es : List EncEvent} {s t : Enc}, EncInv s → s.runs conv es = .ok t → EncInv t
  | [], _, _, hs, h => by cases h; exact hs
  | _ :: _, _, _, hs, h => by
    obtain ⟨s1, h1, h2⟩ := res_bind_ok h
    exact (hs.step h1).runs h2

theorem enc_inv {conv : Iconv} {s : Enc} (h : Spec.EncReachable conv s) : EncInv s := by
  obtain ⟨es, h⟩ := h
  exact EncInv.init.runs h

theorem to_none {s : Enc} (hs : EncInv s) {i : Nat} (h : Spec.speaks s i = none) : (s.conns i).to = none ∧ (s.conns i).frm = none := by
  rcases hs.pair i with e | ⟨a, b, n, e, _, _, hb⟩
  · rw [e]; exact ⟨rfl, rfl⟩
  · simp [Spec.speaks, e, hb] at h

theorem to_some {s : Enc} (hs : EncInv s) {i : Nat} {n : Str} (h : Spec.speaks s i = some n) :
    ∃ a b, s.conns i = ⟨some a, some b⟩ ∧ s.handles a = some (Spec.UTF8, n) ∧ s.handles b = some (n, Spec.UTF8) := by
  rcases hs.pair i with e | ⟨a, b, m, e, _, ha, hb⟩
  · simp [Spec.speaks, e] at h
  · simp [Spec.speaks, e, hb] at h
    subst h
    exact ⟨a, b, e, ha, hb⟩

theorem cutAt_same : ∀ {l : Str}, '\x00' ∉ l → cutAt l '\x00' = l
  | [], _ => rfl
  | c :: cs, h => by
    have h1 : c ≠ '\x00' := fun e => h (by simp [e])
    have ih := cutAt_same (l := cs) (fun e => h (by simp [e]))
    unfold cutAt at ih ⊢
    rw [List.takeWhile_cons, if_pos (by simpa using h1), ih]

/-- A conversion with room enough. -/
theorem convert_ok {conv : Iconv} {s : Enc} {h : Nat} {target source x : Str} (hh : s.handles h = some (target, source))
    (hl : (Spec.converted conv target source x).length ≤ 512) (hz : '\x00' ∉ Spec.converted conv target source x) :
    convertMessage conv s h x = .ok { s with buf := Spec.converted conv target source x } := by
  have hC : COMMAND_LEN = 513 := rfl
  unfold convertMessage
  simp only [hh]
  unfold Spec.converted at hl hz ⊢
  simp only at hl hz ⊢
  split
  · next hok =>
    simp only [hok, if_true] at hl hz
    rw [List.take_of_length_le (by omega), cutAt_same hz]
  · next hok =>
    simp only [hok, Bool.false_eq_true, if_false, List.length_append] at hl hz
    have e1 : strlcpy COMMAND_LEN (x.drop (conv target source x).used) = x.drop (conv target source x).used :=
      List.take_of_length_le (by omega)
    rw [e1, List.take_of_length_le (by omega), if_neg (by omega), cutAt_same hz]

theorem strchr_idx (x : Char) : ∀ l : Str, strchr l x = if x ∈ l then some (l.drop (l.idxOf x)) else none
  | [] => by simp [strchr]
  | c :: cs => by
    unfold strchr
    by_cases h : c = x
    · subst h; simp
    · rw [if_neg (by simpa using h), strchr_idx x cs]
      have h' : ¬ x = c := fun e => h e.symm
      simp only [List.mem_cons, h', false_or]
      split
      · rw [List.idxOf_cons]
        have : (c == x) = false := by simpa using h
        simp [this]
      · rfl

theorem cutAt_idx (x : Char) : ∀ l : Str, x ∈ l → cutAt l x ++ [x] = l.take (l.idxOf x + 1)
  | [], h => by cases h
  | c :: cs, h => by
    by_cases e : c = x
    · subst e; simp [cutAt]
    · have h' : x ∈ cs := by
        rcases List.mem_cons.1 h with h | h
        · exact absurd h.symm e
        · exact h
      have ih := cutAt_idx x cs h'
      have : (c == x) = false := by simpa using e
      rw [List.idxOf_cons]
      simp only [this, cond_false, List.take_succ_cons]
      rw [← ih]
      simp [cutAt, e]

theorem split_eq (c : Char) (cs : Str) :
    splitMessage (c :: cs) = .ok ((Spec.messageAt (c :: cs)).map (fun k => ((c :: cs).take k, (c :: cs).drop k))) := by
  unfold splitMessage Spec.messageAt
  simp only [List.drop_succ_cons, List.drop_zero]
  rw [strchr_idx]
  split
  · next r hr =>
    split at hr
    · cases hr
    · next h => rw [if_neg h]; rfl
  · next r hr =>
    split at hr
    · next h =>
      cases hr
      rw [if_pos h]
      simp only [Option.map_some]
      rw [List.take_succ_cons, List.drop_succ_cons, ← cutAt_idx _ _ h, List.drop_drop]
      simp
    · cases hr

theorem cutText_short {x : Str} (h : x.length ≤ 510) : cutText x = x := by
  have hC : COMMAND_LEN = 513 := rfl
  unfold cutText
  rw [if_neg (by omega)]

theorem finish_short {x : Str} (h : x.length ≤ 510) : finishLine x = .ok (x ++ "\r\n".toList) := by
  have hC : COMMAND_LEN = 513 := rfl
  have h2 : ("\r\n".toList).length = 2 := rfl
  have e : strlcat COMMAND_LEN x "\r\n".toList = x ++ "\r\n".toList := by
    unfold strlcat
    rw [if_pos (by omega), if_neg (by omega)]
  unfold finishLine
  rw [e, if_neg (by omega), List.length_append, h2, Nat.sub_self, List.replicate_zero, List.append_nil]

/-- A line that fits is written as the specification says, and only the buffer of the converter changes. -/
theorem write_ok {conv : Iconv} {s : Enc} (hs : EncInv s) {i : Nat} {x l : Str}
    (h : Spec.lineFor conv (Spec.speaks s i) x = some l) :
    ∃ t, writeEncoded conv s i x = .ok (t, l) ∧ (Spec.speaks s i = none → t = s) := by
  unfold Spec.lineFor at h
  split at h
  · cases h
  next hx =>
  have hx1 : x ≠ [] := fun e => hx (.inl e)
  have hx2 : x.length ≤ 510 := Nat.le_of_not_lt (fun e => hx (.inr e))
  obtain ⟨c, cs, rfl⟩ : ∃ c cs, x = c :: cs := by
    cases x with
    | nil => exact absurd rfl hx1
    | cons c cs => exact ⟨c, cs, rfl⟩
  unfold writeEncoded
  rw [cutText_short hx2, split_eq]
  simp only [Res.bind]
  split at h
  · next n k hsp hk =>
    rw [hsp]
    simp only at h
    split at h
    · next hfit =>
      cases h
      obtain ⟨a, b, hc, _, hb⟩ := to_some hs hsp
      rw [hk]
      simp only [Option.map_some, hc, reduceCtorEq, false_implies]
      rw [convert_ok hb (by omega) hfit.2]
      simp only
      have hlen : ((c :: cs).take k).length ≤ k := List.length_take_le _ _
      have hC : COMMAND_LEN = 513 := rfl
      have e : strlcpy (COMMAND_LEN - ((c :: cs).take k).length) (Spec.converted conv n Spec.UTF8 ((c :: cs).drop k)) =
          Spec.converted conv n Spec.UTF8 ((c :: cs).drop k) := List.take_of_length_le (by omega)
      rw [e, finish_short (by rw [List.length_append]; omega)]
      exact ⟨_, rfl, trivial⟩
    · cases h
  · next hno =>
    cases h
    refine ⟨s, ?_, fun _ => rfl⟩
    split
    · next hd msg h' heq hto =>
      exfalso
      cases hk : Spec.messageAt (c :: cs) with
      | none => rw [hk] at heq; cases heq
      | some k =>
        cases hsp : Spec.speaks s i with
        | none => rw [(to_none hs hsp).1] at hto; cases hto
        | some n => exact hno n k hsp hk
    · rw [finish_short hx2]

/-! ## The properties -/

/-- **C94**: CHARCONV never fails in the server.  The answer is positive exactly if UTF-8 is asked for or
the C library knows the encoding in both directions; then lines are converted to that encoding (or, for
UTF-8, not at all); otherwise they are not converted any more.  Other connections keep theirs. -/
theorem C94_charconv {conv : Iconv} {s : Enc} (h : Spec.EncReachable conv s) (i : Nat) (arg : Str) (ok1 ok2 : Bool) :
    ∃ t, ircCHARCONV s i arg ok1 ok2 = .ok (t, caseEq (Spec.asked arg) "UTF-8".toList || (ok1 && ok2)) ∧
      Spec.speaks t i = (if caseEq (Spec.asked arg) "UTF-8".toList || !(ok1 && ok2) then none else some (Spec.askedName arg)) ∧
      ∀ j, j ≠ i → Spec.speaks t j = Spec.speaks s j := by
  obtain ⟨t, h1, _, h2, h3, _⟩ := set_ok (enc_inv h) i (upperStr (strlcpy 20 arg)) ok1 ok2
  exact ⟨t, h1, h2, h3⟩

/-- **C94**: the message of a line is converted to the encoding of the connection, and nothing else of
it; without a conversion the line is sent as it is.  This holds for every line that fits. -/
theorem C94_line {conv : Iconv} {s : Enc} (h : Spec.EncReachable conv s) {i : Nat} {line bytes : Str}
    (hl : Spec.lineFor conv (Spec.speaks s i) line = some bytes) :
    ∃ t, writeEncoded conv s i line = .ok (t, bytes) := by
  obtain ⟨t, ht, _⟩ := write_ok (enc_inv h) hl
  exact ⟨t, ht⟩

/-- **C94**: a connection without conversion gets its lines as if the server had no conversions at all,
of any length. -/
theorem C94_plain {conv : Iconv} {s : Enc} (h : Spec.EncReachable conv s) {i : Nat} (hi : Spec.speaks s i = none)
    {line : Str} (hl : line ≠ []) : writeEncoded conv s i line = .ok (s, formatLine line) := by
  have hC : COMMAND_LEN = 513 := rfl
  have hX : CUT_TXTSUFFIX.length = 5 := rfl
  have h2 : ("\r\n".toList).length = 2 := rfl
  have hto := (to_none (enc_inv h) hi).1
  have hlen : (cutText line).length ≤ 510 := by
    unfold cutText; split
    · rw [List.length_append, List.length_take, List.length_take]; omega
    · omega
  have hne : cutText line ≠ [] := by
    unfold cutText; split
    · intro e
      have := congrArg List.length e
      rw [List.length_append, hX] at this
      simp only [List.length_nil] at this
      omega
    · exact hl
  have hfmt : formatLine line = cutText line ++ "\r\n".toList := by
    have e : formatLine line = strlcat COMMAND_LEN (cutText line) "\r\n".toList := by
      unfold formatLine cutText
      simp only
      split
      · rfl
      · rw [List.take_of_length_le (by omega)]
    rw [e]; unfold strlcat
    rw [if_pos (by omega), if_neg (by omega)]
  unfold writeEncoded
  cases hc : cutText line with
  | nil => exact absurd hc hne
  | cons c cs =>
    rw [split_eq]
    simp only [Res.bind, hto]
    rw [hc] at hlen hfmt
    rw [finish_short hlen, hfmt]
    cases Spec.messageAt (c :: cs) <;> rfl

/-- **C94**: messages of a client are converted from the encoding its lines are converted to. -/
theorem C94_inverse {conv : Iconv} {s : Enc} (h : Spec.EncReachable conv s) (i : Nat) :
    (s.conns i).frm.bind s.handles = (Spec.speaks s i).map (fun n => (Spec.UTF8, n)) := by
  cases hs : Spec.speaks s i with
  | none => rw [(to_none (enc_inv h) hs).2]; rfl
  | some n =>
    obtain ⟨a, b, hc, ha, _⟩ := to_some (enc_inv h) hs
    rw [hc]; exact ha

/-- **C94**, handles: as long as no connection is closed while it has a conversion, every handle of the
C library that is open belongs to a connection.  Missing: the closing of such connections, where it is
false (`C94_violated_by_close`). -/
theorem C94_handles_partial {conv : Iconv} {s t : Enc} (h : Spec.EncReachable conv s) (hl : Spec.NoLeak s) {e : EncEvent}
    (he : ∀ i, e = .close i → Spec.speaks s i = none) (ht : s.step conv e = .ok t) : Spec.NoLeak t := by
  have keep : ∀ {t : Enc}, (t.conns = s.conns ∧ t.handles = s.handles ∧ t.next = s.next) → Spec.NoLeak t := by
    intro t ⟨h1, h2, _⟩
    unfold Spec.NoLeak
    rw [h1, h2]; exact hl
  cases e with
  | charconv i arg ok1 ok2 =>
    obtain ⟨t1, h1, _, _, _, hi⟩ := set_ok (enc_inv h) i (upperStr (strlcpy 20 arg)) ok1 ok2
    obtain ⟨r, h2, h3⟩ := res_bind_ok ht
    unfold ircCHARCONV at h2
    rw [h1] at h2
    cases h2; cases h3; exact hi hl
  | close i =>
    cases ht
    have hi := to_none (enc_inv h) (he i rfl)
    intro k hk
    obtain ⟨j, hj⟩ := hl k hk
    refine ⟨j, ?_⟩
    have : j ≠ i := by intro e; subst e; rw [hi.1, hi.2] at hj; rcases hj with hj | hj <;> cases hj
    simp only [closeEncoding, putAt_ne _ _ this]; exact hj
  | write i x =>
    obtain ⟨⟨t1, l⟩, h1, h2⟩ := res_bind_ok ht
    cases h2; exact keep (write_same h1)
  | message i x bs =>
    obtain ⟨⟨t1, l⟩, h1, h2⟩ := res_bind_ok ht
    cases h2; exact keep (message_same h1)

theorem speaks_same {s t : Enc} (h : t.conns = s.conns ∧ t.handles = s.handles ∧ t.next = s.next) (j : Nat) :
    Spec.speaks t j = Spec.speaks s j := by unfold Spec.speaks; rw [h.1, h.2.1]

/-- One batch: every connection gets its line; if none has a conversion the state stays the same. -/
theorem batch_ok {conv : Iconv} {x : Str} : ∀ {is : List Nat} {s : Enc}, EncInv s →
    (∀ j ∈ is, (Spec.lineFor conv (Spec.speaks s j) x).isSome) →
    ∃ t, writeBatch conv x s is = .ok (t, is.map (fun j => (j, (Spec.lineFor conv (Spec.speaks s j) x).getD []))) ∧
      ((∀ j ∈ is, Spec.speaks s j = none) → t = s)
  | [], s, _, _ => ⟨s, rfl, fun _ => rfl⟩
  | i :: is, s, hs, hl => by
    obtain ⟨l, hi⟩ := Option.isSome_iff_exists.1 (hl i (by simp))
    obtain ⟨s1, h1, e1⟩ := write_ok hs hi
    have hsame := write_same h1
    have hsp := speaks_same hsame
    obtain ⟨s2, h2, e2⟩ := batch_ok (x := x) (hs.same hsame) (is := is) (fun j hj => by rw [hsp]; exact hl j (by simp [hj]))
    refine ⟨s2, ?_, ?_⟩
    · unfold writeBatch
      rw [h1]
      simp only [Res.bind]
      rw [h2]
      simp only [List.map_cons, hi, Option.getD_some, hsp]
    · intro hn
      rw [e2 (fun j hj => by rw [hsp]; exact hn j (by simp [hj])), e1 (hn i (by simp))]

/-- All batches of a message that keeps its value. -/
theorem batches_ok {conv : Iconv} {m : Str} {p : Option Str} : ∀ {bs : List Batch} {s : Enc}, EncInv s →
    p.getD s.buf = m → (p.isSome ∨ ∀ b ∈ bs.dropLast, ∀ j ∈ b.conns, Spec.speaks s j = none) →
    (∀ b ∈ bs, ∀ j ∈ b.conns, (Spec.lineFor conv (Spec.speaks s j) (b.head ++ m)).isSome) →
    ∃ t, writeBatches conv p s bs = .ok (t, bs.flatMap (fun b => b.conns.map (fun j =>
      (j, (Spec.lineFor conv (Spec.speaks s j) (b.head ++ m)).getD []))))
  | [], s, _, _, _, _ => ⟨s, rfl⟩
  | b :: bs, s, hs, hm, hp, hl => by
    obtain ⟨s1, h1, e1⟩ := batch_ok hs (hl b (by simp))
    have hsame := batch_same h1
    have hsp := speaks_same hsame
    unfold writeBatches
    rw [hm, h1]
    simp only [Res.bind]
    cases bs with
    | nil => exact ⟨s1, by simp [writeBatches]⟩
    | cons b2 bs =>
      obtain ⟨s2, h2⟩ := batches_ok (conv := conv) (m := m) (p := p) (bs := b2 :: bs) (hs.same hsame)
        (by
          cases p with
          | some p => exact hm
          | none =>
            rcases hp with hp | hp
            · cases hp
            · have := e1 (hp b (by simp))
              rw [this]; exact hm)
        (by
          rcases hp with hp | hp
          · exact .inl hp
          · exact .inr (fun c hc j hj => by rw [hsp]; exact hp c (by simp only [List.dropLast_cons_cons]; exact List.mem_cons_of_mem _ hc) j hj))
        (fun c hc j hj => by rw [hsp]; exact hl c (List.mem_cons_of_mem _ hc) j hj)
      refine ⟨s2, ?_⟩
      rw [h2]
      simp only [hsp, List.flatMap_cons]

/-- **C95**: a message is taken from the encoding of its sender, and every receiver gets it in its own
encoding.  This holds if everything fits and either the sender has no conversion, or none of the receivers
of the targets but the last one has.  Missing: the other messages, where it is false
(`C95_violated_by_two_targets`). -/
theorem C95_message_partial {conv : Iconv} {s : Enc} (h : Spec.EncReachable conv s) {i : Nat} {text m : Str} {batches : List Batch}
    (ht : Spec.taken conv (Spec.speaks s i) text = some m)
    (hone : Spec.speaks s i = none ∨ ∀ b ∈ batches.dropLast, ∀ j ∈ b.conns, Spec.speaks s j = none)
    (hfit : ∀ b ∈ batches, ∀ j ∈ b.conns, (Spec.lineFor conv (Spec.speaks s j) (b.head ++ m)).isSome) :
    ∃ t, sendEncoded conv s i text batches = .ok (t, batches.flatMap (fun b => b.conns.map (fun j =>
      (j, (Spec.lineFor conv (Spec.speaks s j) (b.head ++ m)).getD [])))) := by
  have hs := enc_inv h
  unfold sendEncoded
  cases hi : Spec.speaks s i with
  | none =>
    rw [(to_none hs hi).2]
    rw [hi] at ht
    cases ht
    exact batches_ok hs rfl (.inl rfl) hfit
  | some n =>
    obtain ⟨a, b, hc, ha, _⟩ := to_some hs hi
    rw [hi] at ht hone
    unfold Spec.taken at ht
    simp only at ht
    split at ht
    · next hf =>
      cases ht
      rw [hc]
      simp only
      rw [convert_ok ha hf.1 hf.2]
      simp only [Res.bind]
      have hone : ∀ b ∈ batches.dropLast, ∀ j ∈ b.conns, Spec.speaks s j = none := by
        rcases hone with h | h
        · cases h
        · exact h
      have hsame : ∀ {s' : Enc}, s' = { s with buf := Spec.converted conv Spec.UTF8 n text } →
          (s'.conns = s.conns ∧ s'.handles = s.handles ∧ s'.next = s.next) := by
        intro s' e; subst e; exact ⟨rfl, rfl, rfl⟩
      have := batches_ok (conv := conv) (p := none) (m := Spec.converted conv Spec.UTF8 n text) (bs := batches)
        (hs.same (hsame rfl)) rfl (.inr (fun b hb j hj => hone b hb j hj)) (fun b hb j hj => hfit b hb j hj)
      exact this
    · cases ht

/-! ## Cases, and the defects -/

namespace Sample

/-- Connections 1 and 3 speak Latin-1, connection 2 has asked for it and then for UTF-8. -/
def encEvents : List EncEvent :=
  [.charconv 1 "latin1".toList true true, .charconv 2 "latin1".toList true true, .charconv 3 "Latin1".toList true true,
   .charconv 2 "utf-8".toList true true, .charconv 4 "klingon".toList true false]

/-- The state after these. -/
def enc : Enc := match Enc.runs Spec.latin {} encEvents with | .ok s => s | .fault => {}

theorem enc_reachable : Spec.EncReachable Spec.latin enc := ⟨encEvents, rfl⟩

/-- A byte of Latin-1: a small e with an accent. -/
def eAcute : Char := Char.ofNat 233

/-- The lines sent, if nothing went wrong. -/
def sent : Res (Enc × List (Nat × Str)) → Option (List (Nat × Str))
  | .ok (_, l) => some l
  | .fault => none

theorem enc_facts :
    Spec.speaks enc 1 = some "LATIN1//TRANSLIT".toList ∧ Spec.speaks enc 2 = none ∧ Spec.speaks enc 4 = none ∧
    -- the message of a line is converted
    Spec.lineFor Spec.latin (Spec.speaks enc 1) (":a!b@c PRIVMSG x :caf".toList ++ [Char.ofNat 195, Char.ofNat 169]) =
      some (":a!b@c PRIVMSG x :caf".toList ++ [eAcute] ++ "\r\n".toList) ∧
    -- and the message of a client
    Spec.taken Spec.latin (Spec.speaks enc 1) ("caf".toList ++ [eAcute]) =
      some ("caf".toList ++ [Char.ofNat 195, Char.ofNat 169]) ∧
    -- both are what the server does: `1` writes to `3`, `2` and `5`
    sent (sendEncoded Spec.latin enc 1 ("caf".toList ++ [eAcute]) [⟨":a!b@c PRIVMSG #c :".toList, [3, 2, 5]⟩]) =
      some [(3, ":a!b@c PRIVMSG #c :caf".toList ++ [eAcute] ++ "\r\n".toList),
        (2, ":a!b@c PRIVMSG #c :caf".toList ++ [Char.ofNat 195, Char.ofNat 169] ++ "\r\n".toList),
        (5, ":a!b@c PRIVMSG #c :caf".toList ++ [Char.ofNat 195, Char.ofNat 169] ++ "\r\n".toList)] := by decide +kernel

example : Spec.NoLeak {} := fun h hh => by cases hh

example : ∃ t, writeEncoded Spec.latin enc 1 (":a!b@c PRIVMSG x :caf".toList ++ [Char.ofNat 195, Char.ofNat 169]) =
    .ok (t, ":a!b@c PRIVMSG x :caf".toList ++ [eAcute] ++ "\r\n".toList) :=
  C94_line enc_reachable enc_facts.2.2.2.1

example : writeEncoded Spec.latin enc 2 (List.replicate 600 'x') = .ok (enc, formatLine (List.replicate 600 'x')) :=
  C94_plain enc_reachable enc_facts.2.1 (by decide)

example : ∃ l t, sendEncoded Spec.latin enc 1 ("caf".toList ++ [eAcute]) [⟨":a!b@c PRIVMSG y :".toList, [2, 5]⟩, ⟨":a!b@c PRIVMSG x :".toList, [3]⟩] =
    .ok (t, l) :=
  ⟨_, C95_message_partial enc_reachable enc_facts.2.2.2.2.1 (.inr (by decide +kernel)) (by decide +kernel)⟩

end Sample

/-- **C94** is violated: 300 accented letters of a Latin-1 client become 600 bytes, the conversion stops
with an error when its buffer is full, and the rest of the message is written behind the end of the
buffer. -/
theorem C94_violated_by_growth :
    ∃ s, Spec.EncReachable Spec.latin s ∧
      sendEncoded Spec.latin s 1 (List.replicate 300 Sample.eAcute) [⟨":a!b@c PRIVMSG #c :".toList, [2]⟩] = .fault :=
  ⟨Sample.enc, Sample.enc_reachable, by
    have : (match sendEncoded Spec.latin Sample.enc 1 (List.replicate 300 Sample.eAcute) [⟨":a!b@c PRIVMSG #c :".toList, [2]⟩] with | .fault => true | .ok _ => false) = true := by
      decide +kernel
    revert this
    cases sendEncoded Spec.latin Sample.enc 1 (List.replicate 300 Sample.eAcute) [⟨":a!b@c PRIVMSG #c :".toList, [2]⟩] with
    | ok _ => intro h; cases h
    | fault => intro _; rfl⟩

/-- A converter to an encoding with more bytes per character, for the next example. -/
def Spec.widen : Iconv := fun _ _ text => ⟨true, text.length, text ++ text⟩

/-- **C94** is violated, too, when the conversion itself is fine: a line that gets longer than 511 bytes
has no CR LF any more, and bytes behind the end of the buffer are sent. -/
theorem C94_violated_by_long_line :
    ∃ s, Spec.EncReachable Spec.widen s ∧
      writeEncoded Spec.widen s 1 (":a!b@c PRIVMSG #c :".toList ++ List.replicate 250 'x') = .fault := by
  refine ⟨match Enc.runs Spec.widen {} [.charconv 1 "wide".toList true true] with | .ok s => s | .fault => {},
    ⟨[.charconv 1 "wide".toList true true], rfl⟩, ?_⟩
  have : (match writeEncoded Spec.widen (match Enc.runs Spec.widen {} [.charconv 1 "wide".toList true true] with | .ok s => s | .fault => {}) 1 (":a!b@c PRIVMSG #c :".toList ++ List.replicate 250 'x') with | .fault => true | .ok _ => false) = true := by
    decide +kernel
  revert this
  generalize writeEncoded Spec.widen _ 1 (":a!b@c PRIVMSG #c :".toList ++ List.replicate 250 'x') = r
  cases r with
  | ok _ => intro h; cases h
  | fault => intro _; rfl

/-- **C94** (handles) is violated: when a client with a conversion leaves, its handles stay open for ever:
no connection knows them. -/
theorem C94_violated_by_close :
    ∃ s, Spec.EncReachable Spec.latin s ∧ ¬ Spec.NoLeak s := by
  refine ⟨closeEncoding Sample.enc 1, ⟨Sample.encEvents ++ [.close 1], rfl⟩, fun h => ?_⟩
  obtain ⟨i, hi⟩ := h 0 (by decide +kernel)
  have hinv : EncInv Sample.enc := enc_inv Sample.enc_reachable
  by_cases e : i = 1
  · subst e; simp [closeEncoding] at hi
  · simp only [closeEncoding, putAt_ne _ _ e] at hi
    exact e (hinv.own i 1 0 hi (.inl (by decide +kernel)))

/-- **C95** is violated: a Latin-1 client writes to two targets; the first receiver speaks Latin-1, too.
The second one, who does not, gets the text as it was converted for the first. -/
theorem C95_violated_by_two_targets :
    ∃ s text m t l, Spec.EncReachable Spec.latin s ∧ Spec.taken Spec.latin (Spec.speaks s 1) text = some m ∧
      sendEncoded Spec.latin s 1 text [⟨":a!b@c PRIVMSG x :".toList, [3]⟩, ⟨":a!b@c PRIVMSG y :".toList, [2]⟩] = .ok (t, l) ∧
      Spec.speaks s 2 = none ∧ (2, ":a!b@c PRIVMSG y :".toList ++ text ++ "\r\n".toList) ∈ l ∧ m ≠ text := by
  have key : Sample.sent (sendEncoded Spec.latin Sample.enc 1 ("caf".toList ++ [Sample.eAcute]) [⟨":a!b@c PRIVMSG x :".toList, [3]⟩, ⟨":a!b@c PRIVMSG y :".toList, [2]⟩]) =
      some [(3, ":a!b@c PRIVMSG x :".toList ++ ("caf".toList ++ [Sample.eAcute]) ++ "\r\n".toList),
        (2, ":a!b@c PRIVMSG y :".toList ++ ("caf".toList ++ [Sample.eAcute]) ++ "\r\n".toList)] := by decide +kernel
  cases hr : sendEncoded Spec.latin Sample.enc 1 ("caf".toList ++ [Sample.eAcute]) [⟨":a!b@c PRIVMSG x :".toList, [3]⟩, ⟨":a!b@c PRIVMSG y :".toList, [2]⟩] with
  | fault => rw [hr] at key; cases key
  | ok r =>
    rw [hr] at key
    have key : r.2 = _ := Option.some.inj key
    exact ⟨Sample.enc, _, "caf".toList ++ [Char.ofNat 195, Char.ofNat 169], r.1, r.2, Sample.enc_reachable, Sample.enc_facts.2.2.2.2.1, hr,
      Sample.enc_facts.2.1, by rw [key]; exact List.mem_cons_of_mem _ (List.mem_cons_self ..), by decide +kernel⟩

end Ngircd
