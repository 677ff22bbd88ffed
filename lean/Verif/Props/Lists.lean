import Verif.Model.Lists
import Verif.Lemmas.Str

/-! # C28, C29, C30: mask lists -/

namespace Ngircd
open Spec

theorem caseEq_same (a b : Str) : caseEq a b = true ↔ SameCase a b := by
  rw [sameCase_iff]; simp [caseEq]

instance (a b : Str) : Decidable (SameCase a b) := decidable_of_iff _ (caseEq_same a b)

theorem caseEq_eq_of {a b : Str} (h : caseEq a b = true) (c : Str) : caseEq a c = caseEq b c := by
  simp [caseEq] at h; simp [caseEq, h]

theorem caseEq_comm (a b : Str) : caseEq a b = caseEq b a := by
  simp only [caseEq]; rw [Bool.beq_comm]

/-- Specification: a list without two entries for the same mask. -/
def NoDupMasks (h : MaskList) : Prop := h.Pairwise (fun a b => ¬ SameCase a.mask b.mask)

/-- Specification: the entry of a mask, if any. -/
def entryOf (h : MaskList) (m : Str) : Option ListElem := h.find? (fun e => caseEq e.mask m)

theorem listsCheckDupe_eq (h : MaskList) (m : Str) : listsCheckDupe h m = entryOf h m := by
  induction h with
  | nil => rfl
  | cons e es ih =>
    simp only [listsCheckDupe, entryOf, List.find?_cons]
    cases hc : caseEq e.mask m with
    | true => simp
    | false => simpa [entryOf] using ih

theorem listsDel_eq (h : MaskList) (m : Str) : listsDel h m = h.filter (fun e => !caseEq e.mask m) := by
  induction h with
  | nil => rfl
  | cons e es ih => cases hc : caseEq e.mask m <;> simp [listsDel, hc, ih]

theorem listsExpire_eq (h : MaskList) (now : Nat) :
    listsExpire h now = h.filter (fun e => !(decide (e.validUntil > 0) && decide (e.validUntil < now))) := by
  induction h with
  | nil => rfl
  | cons e es ih =>
    by_cases hc : e.validUntil > 0 ∧ e.validUntil < now
    · simp [listsExpire, hc, ih]
    · rw [listsExpire, if_neg hc, List.filter_cons, if_pos, ih]
      simp only [Bool.not_eq_true', Bool.and_eq_false_iff, decide_eq_false_iff_not]
      omega

/-- C28: counting counts. -/
theorem C28_count (h : MaskList) : listsCount h = h.length := by
  induction h with
  | nil => rfl
  | cons e es ih => simp [listsCount, ih]

theorem noDup_key {h : MaskList} (hd : NoDupMasks h) {a b : ListElem} (ha : a ∈ h) (hb : b ∈ h)
    (hs : SameCase a.mask b.mask) : a = b := by
  unfold NoDupMasks at hd
  induction hd with
  | nil => simp at ha
  | cons h1 _ ih =>
    have sym : ∀ {x y : Str}, SameCase x y → SameCase y x := by
      intro x y h; rw [sameCase_iff] at *; exact h.symm
    rw [List.mem_cons] at ha hb
    rcases ha with rfl | ha <;> rcases hb with rfl | hb
    · rfl
    · exact absurd hs (h1 _ hb)
    · exact absurd (sym hs) (h1 _ ha)
    · exact ih ha hb

theorem noDup_perm {h h' : MaskList} (hs : List.Sublist h' h) (hd : NoDupMasks h) : NoDupMasks h' :=
  List.Pairwise.sublist hs hd

theorem entryOf_some {h : MaskList} {m : Str} {e : ListElem} (he : entryOf h m = some e) :
    e ∈ h ∧ SameCase e.mask m := by
  unfold entryOf at he
  exact ⟨List.mem_of_find?_eq_some he, (caseEq_same _ _).1 (by simpa using List.find?_some he)⟩

theorem entryOf_none {h : MaskList} {m : Str} : entryOf h m = none ↔ ∀ e ∈ h, ¬ SameCase e.mask m := by
  simp [entryOf, List.find?_eq_none, ← caseEq_same]

theorem entryOf_unique {h : MaskList} (hd : NoDupMasks h) {m : Str} {e : ListElem} (he : e ∈ h)
    (hm : SameCase e.mask m) : entryOf h m = some e := by
  cases hf : entryOf h m with
  | none => exact absurd hm (entryOf_none.1 hf e he)
  | some e' =>
    obtain ⟨h1, h2⟩ := entryOf_some hf
    rw [noDup_key hd h1 he]
    rw [sameCase_iff] at *; rw [h2, hm]

theorem listsUpdate_masks (h : MaskList) (m : Str) (v : Nat) (r : Option Str) :
    (listsUpdate h m v r).map (·.mask) = h.map (·.mask) := by
  induction h with
  | nil => rfl
  | cons e es ih => simp only [listsUpdate]; split <;> simp [ih]

theorem noDup_iff_masks (h : MaskList) : NoDupMasks h ↔ (h.map (·.mask)).Pairwise (fun a b => ¬ SameCase a b) := by
  simp [NoDupMasks, List.pairwise_map]

theorem check_sublist (h : MaskList) (m : ClientMasks) : List.Sublist (listsCheckReason h m).1 h := by
  induction h with
  | nil => exact List.Sublist.refl _
  | cons e es ih =>
    simp only [listsCheckReason]
    split
    · simp only; split
      · exact List.sublist_cons_self _ _
      · exact List.Sublist.refl _
    · exact List.Sublist.cons_cons _ ih

/-- C28 (no duplicates): however lists are modified, no two entries ever have the same mask
(ignoring case).  Masks are shorter than the 128 byte buffer: all callers but INVITE pass a
mask built by `Lists_MakeMask` in such a buffer. -/
theorem C28_no_duplicates (ops : List LOp)
    (hlen : ∀ op ∈ ops, ∀ al m v r o, op = .add al m v r o → m.length < 128) :
    NoDupMasks (ops.foldl LOp.apply []) := by
  have step : ∀ (h : MaskList) (op : LOp), NoDupMasks h →
      (∀ al m v r o, op = .add al m v r o → m.length < 128) → NoDupMasks (op.apply h) := by
    intro h op hd hl
    cases op with
    | add al m v r o =>
      simp only [LOp.apply, listsAdd, listsCheckDupe_eq]
      split
      · rw [noDup_iff_masks, listsUpdate_masks, ← noDup_iff_masks]; exact hd
      · rename_i hn
        split
        · refine List.Pairwise.cons ?_ hd
          intro e he hs
          have := hl al m v r o rfl
          simp only [strlcpy, MASK_LEN] at hs
          rw [List.take_of_length_le (by omega)] at hs
          exact entryOf_none.1 hn e he (by rw [sameCase_iff] at *; exact hs.symm)
        · exact hd
    | del m => simp only [LOp.apply, listsDel_eq]; exact noDup_perm List.filter_sublist hd
    | check m => exact noDup_perm (check_sublist h m) hd
    | expire now => simp only [LOp.apply, listsExpire_eq]; exact noDup_perm List.filter_sublist hd
  have : ∀ h, NoDupMasks h → NoDupMasks (ops.foldl LOp.apply h) := by
    induction ops with
    | nil => exact fun h hd => hd
    | cons op ops ih =>
      intro h hd
      exact ih (fun op' h' => hlen op' (by simp [h'])) _
        (step h op hd (hlen op (by simp)))
  exact this [] List.Pairwise.nil

/-- The length hypothesis is needed: a mask of 128 or more bytes is stored cut, so adding it
again is not recognised as a duplicate. -/
theorem C28_violation_long_mask (m : Str) (hl : 128 ≤ m.length) :
    ¬ NoDupMasks ([LOp.add true m 0 none false, .add true m 0 none false].foldl LOp.apply []) := by
  have h1 : lowerStr (strlcpy MASK_LEN m) ≠ lowerStr m := by
    intro h
    have := congrArg List.length h
    simp [lowerStr, strlcpy, MASK_LEN] at this
    omega
  have h2 : caseEq (strlcpy MASK_LEN m) m = false := by simp [caseEq, h1]
  simp [LOp.apply, listsAdd, listsCheckDupe, h2, NoDupMasks, sameCase_iff]

/-- C28 (last write wins): after adding, the entry of the mask has the new expiry time and the
new reason (the old one if none is given); the entries of all other masks are unchanged.
(`onlyonce` keeps its value when the entry existed.) -/
theorem C28_add (h : MaskList) (m : Str) (v : Nat) (r : Option Str) (o : Bool) (hl : m.length < 128) (m' : Str) :
    (listsAdd true h m v r o).2 = true ∧
    entryOf (listsAdd true h m v r o).1 m' =
      if SameCase m m' then
        some (match entryOf h m with
          | some e => { e with validUntil := v, reason := r.orElse (fun _ => e.reason) }
          | none => { mask := m, reason := r, validUntil := v, onlyonce := o })
      else entryOf h m' := by
  simp only [listsAdd, listsCheckDupe_eq]
  cases hf : entryOf h m with
  | none =>
    simp only [if_true, true_and]
    have hm : strlcpy MASK_LEN m = m := by simp only [strlcpy, MASK_LEN]; exact List.take_of_length_le (by omega)
    rw [hm]
    by_cases hs : SameCase m m'
    · rw [if_pos hs]; simp [entryOf, (caseEq_same _ _).2 hs]
    · rw [if_neg hs]
      have : caseEq m m' = false := by
        cases hc : caseEq m m' with
        | true => exact absurd ((caseEq_same _ _).1 hc) hs
        | false => rfl
      simp [entryOf, this]
  | some e =>
    simp only [true_and]
    clear hl
    revert hf
    induction h with
    | nil => simp [entryOf]
    | cons a es ih =>
      intro hf
      simp only [entryOf, List.find?_cons] at hf
      simp only [listsUpdate]
      cases hc : caseEq a.mask m with
      | true =>
        rw [hc] at hf
        simp at hf
        subst hf
        simp only [if_true]
        rw [entryOf, List.find?_cons]
        by_cases hs : SameCase m m'
        · rw [if_pos hs]
          have : caseEq a.mask m' = true := by rw [caseEq_eq_of hc]; exact (caseEq_same _ _).2 hs
          simp only [this]
          cases r <;> rfl
        · rw [if_neg hs]
          have : caseEq a.mask m' = false := by
            rw [caseEq_eq_of hc]
            cases hc2 : caseEq m m' with
            | true => exact absurd ((caseEq_same _ _).1 hc2) hs
            | false => rfl
          simp [this, entryOf]
      | false =>
        rw [hc] at hf
        simp only at hf
        have ih' := ih hf
        simp only [Bool.false_eq_true, if_false]
        rw [entryOf, List.find?_cons]
        cases hc2 : caseEq a.mask m' with
        | true =>
          have hs : ¬ SameCase m m' := by
            intro hs
            have := (caseEq_same _ _).2 hs
            rw [caseEq_eq_of hc2 m] at hc
            rw [caseEq_comm] at hc
            rw [this] at hc; exact absurd hc (by simp)
          rw [if_neg hs]
          simp [entryOf, hc2]
        | false =>
          simp only
          unfold entryOf at ih'
          rw [ih']
          simp [entryOf, hc2]

/-- C28: without memory for a new entry nothing changes and the failure is reported. -/
theorem C28_add_nomem (h : MaskList) (m : Str) (v : Nat) (r : Option Str) (o : Bool)
    (hn : entryOf h m = none) : listsAdd false h m v r o = (h, false) := by
  simp [listsAdd, listsCheckDupe_eq, hn]

/-- C28 (deletion): exactly the entry of that mask disappears. -/
theorem C28_del (h : MaskList) (m m' : Str) :
    entryOf (listsDel h m) m' = if SameCase m m' then none else entryOf h m' := by
  rw [listsDel_eq]
  induction h with
  | nil => simp [entryOf]
  | cons a es ih =>
    unfold entryOf at ih ⊢
    by_cases hs : SameCase m m'
    · rw [if_pos hs] at ih ⊢
      have heq : lowerStr m = lowerStr m' := (sameCase_iff _ _).1 hs
      cases hc : caseEq a.mask m with
      | true => simpa [List.filter_cons, hc] using ih
      | false =>
        have : caseEq a.mask m' = false := by simp only [caseEq] at hc ⊢; rw [← heq]; exact hc
        simpa [List.filter_cons, hc, List.find?_cons, this] using ih
    · rw [if_neg hs] at ih ⊢
      cases hc : caseEq a.mask m with
      | true =>
        have : caseEq a.mask m' = false := by
          rw [caseEq_eq_of hc]
          cases hc2 : caseEq m m' with
          | true => exact absurd ((caseEq_same _ _).1 hc2) hs
          | false => rfl
        simpa [List.filter_cons, hc, List.find?_cons, this] using ih
      | false =>
        cases hc2 : caseEq a.mask m' with
        | true => simp [List.filter_cons, hc, List.find?_cons, hc2]
        | false => simpa [List.filter_cons, hc, List.find?_cons, hc2] using ih

/-- C28 (deletion keeps everything else): the other entries stay, in order. -/
theorem C28_del_exact (h : MaskList) (m : Str) (e : ListElem) :
    e ∈ listsDel h m ↔ e ∈ h ∧ ¬ SameCase e.mask m := by
  rw [listsDel_eq, List.mem_filter, ← caseEq_same, Bool.not_eq_true', Bool.not_eq_true]

/-- C28 (expiry): exactly the entries with an expiry time that has passed disappear. -/
theorem C28_expire_exact (h : MaskList) (now : Nat) (e : ListElem) :
    e ∈ listsExpire h now ↔ e ∈ h ∧ ¬ (0 < e.validUntil ∧ e.validUntil < now) := by
  rw [listsExpire_eq, List.mem_filter]
  simp only [Bool.not_eq_true', Bool.and_eq_false_iff, decide_eq_false_iff_not]
  constructor <;> rintro ⟨h1, h2⟩ <;> exact ⟨h1, by omega⟩

/-- C28: expiring and deleting never reorder or duplicate entries. -/
theorem C28_sublists (h : MaskList) (m : Str) (now : Nat) :
    List.Sublist (listsDel h m) h ∧ List.Sublist (listsExpire h now) h := by
  rw [listsDel_eq, listsExpire_eq]
  exact ⟨List.filter_sublist, List.filter_sublist⟩

example : ([LOp.add true "a!*@*".toList 5 (some "x".toList) false, .add true "b!*@*".toList 9 none false,
    .add true "A!*@*".toList 7 none true, .expire 8, .del "B!*@*".toList].foldl LOp.apply []) = [] := by decide
example : ([LOp.add true "a!*@*".toList 5 (some "x".toList) false, .add true "A!*@*".toList 7 none true].foldl
    LOp.apply []) = [⟨"a!*@*".toList, some "x".toList, 7, false⟩] := by decide

/-! ## C29 -/

/-- Specification: `nick!user@host` form. -/
def MaskForm (m : Str) : Prop := ∃ n u h : Str, m = n ++ '!' :: u ++ '@' :: h ∧ '!' ∉ n ∧ '@' ∉ n ∧ '@' ∉ u

theorem strchr_none {s : Str} {x : Char} : strchr s x = none ↔ x ∉ s := by
  induction s with
  | nil => simp [strchr]
  | cons c s ih =>
    simp only [strchr]
    by_cases h : c = x
    · simp [h]
    · rw [if_neg (by simpa using h), ih]; simp [Ne.symm h]

theorem strchr_some {s t : Str} {x : Char} (h : strchr s x = some t) :
    ∃ p r, s = p ++ x :: r ∧ x ∉ p ∧ t = x :: r := by
  induction s with
  | nil => simp [strchr] at h
  | cons c s ih =>
    simp only [strchr] at h
    by_cases hc : c = x
    · subst hc; simp at h; exact ⟨[], s, rfl, by simp, h.symm⟩
    · rw [if_neg (by simpa using hc)] at h
      obtain ⟨p, r, h1, h2, h3⟩ := ih h
      exact ⟨c :: p, r, by simp [h1], by simp [h2, Ne.symm hc], h3⟩

theorem strchr_at {p r : Str} {x : Char} (h : x ∉ p) : strchr (p ++ x :: r) x = some (x :: r) := by
  induction p with
  | nil => simp [strchr]
  | cons c p ih =>
    simp at h
    simp [strchr, ih h.2, Ne.symm h.1]

theorem cutAt_at {p r : Str} {x : Char} (h : x ∉ p) : cutAt (p ++ x :: r) x = p := by
  induction p with
  | nil => simp [cutAt]
  | cons c p ih =>
    simp at h
    unfold cutAt at ih
    have hc : (c != x) = true := by simpa using Ne.symm h.1
    simp [cutAt, hc, ih h.2]

/-- A mask that already has all parts is kept. -/
theorem C29_full_mask_kept (m : Str) (len : Nat) (hf : MaskForm m) (hl : m.length < len) :
    listsMakeMask m len = m := by
  obtain ⟨n, u, h, rfl, h1, h2, h3⟩ := hf
  have ha : strchr (n ++ '!' :: u ++ '@' :: h) '@' = some ('@' :: h) := by
    apply strchr_at; simp [h2, h3]
  have hx : strchr (n ++ '!' :: u ++ '@' :: h) '!' = some ('!' :: (u ++ '@' :: h)) := by
    rw [show n ++ '!' :: u ++ '@' :: h = n ++ '!' :: (u ++ '@' :: h) by simp]
    exact strchr_at h1
  simp only [listsMakeMask, ha, hx]
  rw [if_neg (by simp; omega)]
  simp only [strlcpy]
  exact List.take_of_length_le (by omega)

theorem strlcat_fits {len : Nat} {a b : Str} (h : a.length + b.length < len) : strlcat len a b = a ++ b := by
  rw [strlcat_eq _ _ _ (by omega)]
  exact List.take_of_length_le (by simp; omega)

/-- C29: the result, spelled out for patterns short enough for the buffer. -/
theorem C29_normal_form (p : Str) (len : Nat) (hl : p.length + 5 < len) :
    listsMakeMask p len =
      if '@' ∉ p ∧ '!' ∉ p then p ++ "!*@*".toList
      else if '@' ∉ p then p ++ "@*".toList
      else if '!' ∈ cutAt p '@' then p
      else cutAt p '@' ++ "!*@".toList ++ (p.drop ((cutAt p '@').length + 1)) := by
  have hcpy : ∀ (k : Nat) (q : Str), k ≤ 5 → q.length ≤ p.length → strlcpy (len - k) q = q := by
    intro k q hk hq; simp only [strlcpy]; exact List.take_of_length_le (by omega)
  unfold listsMakeMask
  cases ha : strchr p '@' with
  | none =>
    have ha' := strchr_none.1 ha
    cases hx : strchr p '!' with
    | none =>
      have hx' := strchr_none.1 hx
      rw [if_pos ⟨ha', hx'⟩]
      simp only [hcpy 5 p (by omega) (by omega)]
      exact strlcat_fits (by simp; omega)
    | some t =>
      obtain ⟨q, r, h1, h2, h3⟩ := strchr_some hx
      rw [if_neg (by rintro ⟨_, h⟩; apply h; rw [h1]; simp), if_pos ha']
      simp only [hcpy 3 p (by omega) (by omega)]
      exact strlcat_fits (by simp; omega)
  | some a =>
    obtain ⟨q, r, h1, h2, h3⟩ := strchr_some ha
    have hat : '@' ∈ p := by rw [h1]; simp
    rw [if_neg (by rintro ⟨h, _⟩; exact h hat), if_neg (by simpa using hat)]
    have hcut : cutAt p '@' = q := by rw [h1]; exact cutAt_at h2
    have hdrop : p.drop (q.length + 1) = r := by rw [h1]; simp
    rw [hcut, hdrop]
    cases hx : strchr p '!' with
    | none =>
      have hx' := strchr_none.1 hx
      have : '!' ∉ q := by intro h; apply hx'; rw [h1]; simp [h]
      rw [if_neg this]
      subst h3
      have hq : q.length ≤ p.length := by rw [h1]; simp
      have hlen : q.length + r.length + 1 = p.length := by rw [h1]; simp; omega
      simp only [hcut, hcpy 5 q (by omega) hq, List.tail_cons]
      rw [strlcat_fits (a := q) (by simp; omega)]
      exact strlcat_fits (by simp; omega)
    | some t =>
      obtain ⟨q', r', h1', h2', h3'⟩ := strchr_some hx
      subst h3 h3'
      have hl1 : q.length + r.length + 1 = p.length := by rw [h1]; simp; omega
      have hl2 : q'.length + r'.length + 1 = p.length := by rw [h1']; simp; omega
      simp only
      by_cases hlt : ('@' :: r).length > ('!' :: r').length
      · rw [if_pos hlt]
        simp at hlt
        have : '!' ∉ q := by
          intro hm
          have : q = q'.take q.length := by
            have e1 : p.take q.length = q := by rw [h1]; simp
            have e2 : p.take q.length = q'.take q.length := by
              rw [h1', List.take_append_of_le_length (by omega)]
            rw [← e1, e2]; simp
          rw [this] at hm
          exact h2' (List.mem_of_mem_take hm)
        rw [if_neg this]
        simp only [hcut, hcpy 5 q (by omega) (by omega), List.tail_cons]
        rw [strlcat_fits (a := q) (by simp; omega)]
        exact strlcat_fits (by simp; omega)
      · rw [if_neg hlt]
        simp at hlt
        have : '!' ∈ q := by
          have hne : q'.length ≠ q.length := by
            intro he
            have := List.append_inj (h1.symm.trans h1') he.symm
            simp at this
          have e1 : p.take q.length = q := by rw [h1]; simp
          rw [← e1, h1', List.take_append, List.mem_append]
          right
          rw [show q.length - q'.length = (q.length - q'.length - 1) + 1 by omega]
          simp
        rw [if_pos this]
        exact hcpy 0 p (by omega) (Nat.le_refl _)

theorem mem_split_first {x : Char} {s : Str} (h : x ∈ s) : ∃ p r, s = p ++ x :: r ∧ x ∉ p := by
  cases hs : strchr s x with
  | none => exact absurd h (strchr_none.1 hs)
  | some t => obtain ⟨p, r, h1, h2, _⟩ := strchr_some hs; exact ⟨p, r, h1, h2⟩

/-- C29: the result always has the form nick!user@host. -/
theorem C29_has_mask_form (p : Str) (len : Nat) (hl : p.length + 5 < len) :
    MaskForm (listsMakeMask p len) := by
  rw [C29_normal_form p len hl]
  split
  · rename_i h
    exact ⟨p, ['*'], ['*'], by simp, h.2, h.1, by simp⟩
  · rename_i h0
    split
    · rename_i h
      have : '!' ∈ p := by
        apply Decidable.byContradiction; intro h'; exact h0 ⟨h, h'⟩
      obtain ⟨q, r, h1, h2⟩ := mem_split_first this
      rw [h1] at h
      simp at h
      refine ⟨q, r, ['*'], by rw [h1]; simp, h2, h.1, h.2⟩
    · rename_i h
      have h : '@' ∈ p := Decidable.byContradiction h
      obtain ⟨q, r, h1, h2⟩ := mem_split_first h
      have hcut : cutAt p '@' = q := by rw [h1]; exact cutAt_at h2
      rw [hcut]
      split
      · rename_i h3
        obtain ⟨n, u, h4, h5⟩ := mem_split_first h3
        rw [h4] at h2
        simp at h2
        refine ⟨n, u, r, by rw [h1, h4], h5, h2.1, h2.2⟩
      · rename_i h3
        exact ⟨q, ['*'], p.drop (q.length + 1), by simp, h3, h2, by simp⟩

/-- C29: normalising twice changes nothing (buffers of equal size, as in the code). -/
theorem C29_idempotent (p : Str) (len : Nat) (hl : p.length + 5 < len) :
    listsMakeMask (listsMakeMask p len) len = listsMakeMask p len := by
  apply C29_full_mask_kept _ _ (C29_has_mask_form p len hl)
  rw [C29_normal_form p len hl]
  have hcut : (cutAt p '@').length ≤ p.length := by
    unfold cutAt; exact (List.takeWhile_sublist _).length_le
  split
  · simp; omega
  · split
    · simp; omega
    · split
      · omega
      · simp; omega

/-- The result always fits the buffer, for every pattern. -/
theorem C29_fits (p : Str) (len : Nat) (hl : 5 < len) : (listsMakeMask p len).length < len := by
  have hc : ∀ (a b : Str), a.length < len → (strlcat len a b).length < len := by
    intro a b h; rw [strlcat_eq _ _ _ h]; simp; omega
  have h0 : ∀ (k : Nat) (q : Str), (strlcpy (len - k) q).length < len := by
    intro k q; simp [strlcpy]; omega
  unfold listsMakeMask
  simp only
  split
  · exact hc _ _ (h0 5 _)
  · exact hc _ _ (h0 3 _)
  · exact hc _ _ (hc _ _ (h0 5 _))
  · exact h0 0 _

example : listsMakeMask "joe".toList 128 = "joe!*@*".toList := by decide
example : listsMakeMask "joe@host".toList 128 = "joe!*@host".toList := by decide
example : listsMakeMask "joe!x".toList 128 = "joe!x@*".toList := by decide

/-! ## C30 -/

/-- C30: the check succeeds iff some entry matches the client. -/
theorem C30_check_iff (h : MaskList) (m : ClientMasks) :
    (listsCheck h m).2 = true ↔ ∃ e ∈ h, elemMatches e m = true := by
  unfold listsCheck
  induction h with
  | nil => simp [listsCheckReason]
  | cons e es ih =>
    simp only [listsCheckReason]
    by_cases hm : elemMatches e m = true
    · simp [hm]
    · simp only [hm, Bool.false_eq_true, if_false]
      simp only at ih
      rw [ih]; simp [hm]

/-- C30: a check removes nothing but the one one-time entry it used; permanent entries and
entries not matching the client always stay. -/
theorem C30_check_effect (h : MaskList) (m : ClientMasks) :
    (listsCheck h m).1 = h ∨
    ∃ a e b, h = a ++ e :: b ∧ (listsCheck h m).1 = a ++ b ∧ e.onlyonce = true ∧
      elemMatches e m = true ∧ (∀ x ∈ a, elemMatches x m = false) ∧ (listsCheck h m).2 = true := by
  unfold listsCheck
  induction h with
  | nil => left; rfl
  | cons e es ih =>
    simp only [listsCheckReason]
    by_cases hm : elemMatches e m = true
    · simp only [hm, if_true]
      by_cases ho : e.onlyonce = true
      · right; exact ⟨[], e, es, rfl, by simp [ho], ho, hm, by simp, rfl⟩
      · left; simp [ho]
    · simp only [hm, Bool.false_eq_true, if_false]
      rcases ih with ih | ⟨a, x, b, h1, h2, h3, h4, h5, h6⟩
      · left; simp only at ih; simp [ih]
      · right
        simp only at h2 h6
        refine ⟨e :: a, x, b, by simp [h1], by simp [h2], h3, h4, ?_, h6⟩
        intro y hy
        rw [List.mem_cons] at hy
        rcases hy with rfl | hy
        · simpa using hm
        · exact h5 y hy

/-- The number of entries matching a client. -/
def matchCount (h : MaskList) (m : ClientMasks) : Nat := h.countP (fun e => elemMatches e m)

/-- Repeated join checks of the same client: how many succeed. -/
def repeatChecks (m : ClientMasks) : Nat → MaskList → Nat
  | 0, _ => 0
  | n + 1, h => (if (listsCheck h m).2 then 1 else 0) + repeatChecks m n (listsCheck h m).1

/-- C30: when all entries that match a client are one-time entries, then out of any number of
checks exactly as many succeed as there are such entries: each admits once. -/
theorem C30_admits_once (m : ClientMasks) (n : Nat) (h : MaskList)
    (ho : ∀ e ∈ h, elemMatches e m = true → e.onlyonce = true) :
    repeatChecks m n h = min n (matchCount h m) := by
  induction n generalizing h with
  | zero => simp [repeatChecks]
  | succ n ih =>
    simp only [repeatChecks]
    rcases C30_check_effect h m with heq | ⟨a, e, b, h1, h2, h3, h4, h5, h6⟩
    · -- nothing removed: nothing matched
      have hnone : ∀ e ∈ h, elemMatches e m = false := by
        unfold listsCheck at heq
        simp only at heq
        revert heq ho
        clear ih
        induction h with
        | nil => simp
        | cons e es ihh =>
          intro ho heq
          simp only [listsCheckReason] at heq
          by_cases hm : elemMatches e m = true
          · simp only [hm, if_true, ho e (by simp) hm] at heq
            exact absurd (congrArg List.length heq) (by simp)
          · simp only [hm, Bool.false_eq_true, if_false, List.cons.injEq, true_and] at heq
            intro x hx
            rw [List.mem_cons] at hx
            rcases hx with rfl | hx
            · simpa using hm
            · exact ihh (fun e he => ho e (by simp [he])) heq x hx
      have hc : matchCount h m = 0 := by
        unfold matchCount; rw [List.countP_eq_zero]; intro e he; simp [hnone e he]
      have hf : (listsCheck h m).2 = false := by
        cases hh : (listsCheck h m).2 with
        | false => rfl
        | true =>
          obtain ⟨e, he, hm⟩ := (C30_check_iff h m).1 hh
          rw [hnone e he] at hm; simp at hm
      rw [heq, ih h ho, hf, hc]; simp
    · have hsub : ∀ x ∈ a ++ b, elemMatches x m = true → x.onlyonce = true := by
        intro x hx
        apply ho
        rw [h1]; simp at hx ⊢; rcases hx with h | h <;> simp [h]
      rw [h6, h2, ih _ hsub]
      have hc : matchCount h m = matchCount (a ++ b) m + 1 := by
        rw [h1]; simp [matchCount, h4]; omega
      rw [hc]; simp; omega

/-- C30: a one-time invitation is used up by the check it satisfies. -/
theorem C30_consumed (h : MaskList) (m : ClientMasks)
    (ho : ∀ e ∈ h, elemMatches e m = true → e.onlyonce = true)
    (h1 : matchCount h m = 1) :
    (listsCheck h m).2 = true ∧ (listsCheck (listsCheck h m).1 m).2 = false := by
  have hc := C30_admits_once m 1 h ho
  have hc2 := C30_admits_once m 2 h ho
  simp only [repeatChecks, h1] at hc hc2
  revert hc hc2
  cases (listsCheck h m).2 <;> cases (listsCheck (listsCheck h m).1 m).2 <;> simp

example : (listsCheck [⟨"joe!*@*".toList, none, 1, true⟩] ⟨"joe!u@h".toList, "joe!u@h".toList⟩) = ([], true) := by
  decide
example : (listsCheck [⟨"joe!*@*".toList, none, 1, false⟩] ⟨"Joe!u@h".toList, "joe!u@h".toList⟩)
    = ([⟨"joe!*@*".toList, none, 1, false⟩], true) := by decide

end Ngircd
