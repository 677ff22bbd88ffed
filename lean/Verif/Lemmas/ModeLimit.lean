import Verif.Spec.ModeLimit
import Verif.Lemmas.ModeLocal

/-!
# At most five list entries per MODE command
-/

set_option linter.unusedSimpArgs false

namespace Ngircd
open Spec

variable {s t u : Srv} {n k ch : Nat}

theorem Spec.Grow.refl (s : Srv) : Grow n s s := ⟨id, (List.map_id _).symm, fun _ => ⟨rfl, Nat.le_add_right _ _⟩⟩

theorem Spec.Grow.trans (h : Grow n s t) (g : Grow k t u) : Grow (n + k) s u := by
  obtain ⟨f, h1, h2⟩ := h
  obtain ⟨f', g1, g2⟩ := g
  refine ⟨fun c => f' (f c), by rw [g1, h1, List.map_map]; rfl, fun c => ⟨by rw [(g2 _).1, (h2 _).1], ?_⟩⟩
  show listSize (f' (f c)) ≤ _
  have a := (g2 (f c)).2
  have b := (h2 c).2
  omega

theorem Spec.Grow.then0 (h : Grow n s t) (g : Grow 0 t u) : Grow n s u := h.trans g
theorem Spec.Grow.first0 (h : Grow 0 s t) (g : Grow n t u) : Grow n s u := by have := h.trans g; rwa [Nat.zero_add] at this
theorem Spec.Grow.mono (h : Grow n s t) (hk : n ≤ k) : Grow k s t := by
  obtain ⟨f, h1, h2⟩ := h
  exact ⟨f, h1, fun c => ⟨(h2 c).1, by have := (h2 c).2; omega⟩⟩

theorem Spec.OnlyOutput.grow (h : OnlyOutput s t) : Grow n s t := by
  obtain ⟨o, f, rfl⟩ := h
  exact ⟨id, (List.map_id _).symm, fun _ => ⟨rfl, Nat.le_add_right _ _⟩⟩

theorem Spec.Grow.upd {f : Chan → Chan} (hf : ∀ c, (f c).ref = c.ref ∧ listSize (f c) ≤ listSize c + n) : Grow n s (s.updChan ch f) := by
  refine ⟨fun c => if c.ref = ch then f c else c, rfl, fun c => ?_⟩
  simp only
  split
  · exact hf c
  · exact ⟨rfl, Nat.le_add_right _ _⟩

theorem listSize_setList (c : Chan) (l : CList) (h : MaskList) (hh : h.length ≤ (c.list l).length + n) : listSize (c.setList l h) ≤ listSize c + n := by
  cases l <;> simp only [listSize, Chan.setList, Chan.list] at * <;> omega

theorem listsUpdate_len (h : MaskList) (m : Str) (v : Nat) (r : Option Str) : (listsUpdate h m v r).length = h.length := by
  induction h with
  | nil => rfl
  | cons e es ih =>
    simp only [listsUpdate]
    split
    · rfl
    · simp only [List.length_cons, ih]

theorem listsAdd_len (h : MaskList) (m : Str) (v : Nat) (r : Option Str) (b c : Bool) : (listsAdd b h m v r c).1.length ≤ h.length + 1 := by
  unfold listsAdd
  split
  · rw [listsUpdate_len]; omega
  · split
    · exact Nat.le_refl _
    · exact Nat.le_succ _

theorem listsDel_len (h : MaskList) (m : Str) : (listsDel h m).length ≤ h.length := by
  induction h with
  | nil => exact Nat.le_refl _
  | cons e es ih =>
    simp only [listsDel]
    split
    · exact Nat.le_succ_of_le ih
    · exact Nat.succ_le_succ ih

theorem setList_ref (c : Chan) (l : CList) (h : MaskList) : (c.setList l h).ref = c.ref := by cases l <;> rfl

theorem addToList_grow {l : CList} {p c : Client} {d : Chan} {m : Str} : Grow 1 s (addToList s l p c d m) := by
  unfold addToList
  simp only
  split
  · exact .refl _
  · split
    · exact (oo_writeErr _ _ _).grow
    · exact (Grow.upd (fun c => ⟨setList_ref c l _, listSize_setList c l _ (listsAdd_len _ _ _ _ _ _)⟩)).then0 (oo_sendListChange _ _ _ _ _ _ _).grow

theorem delFromList_grow {l : CList} {p c : Client} {d : Chan} {m : Str} : Grow 0 s (delFromList s l p c d m) := by
  unfold delFromList
  simp only
  split
  · exact .refl _
  · exact (Grow.upd (fun c => ⟨setList_ref c l _, listSize_setList c l _ (listsDel_len _ _)⟩)).then0 (oo_sendListChange _ _ _ _ _ _ _).grow

theorem modeAdd_grow {m : Char} : Grow 0 s (channelModeAdd s ch m).1 := .upd (fun _ => ⟨rfl, Nat.le_refl _⟩)
theorem modeDel_grow {m : Char} : Grow 0 s (channelModeDel s ch m).1 := .upd (fun _ => ⟨rfl, Nat.le_refl _⟩)
theorem cmErr_grow {st : CModeSt} {o : Nat} {d : Chan} {e : String} : Grow 0 st.s (cmErr st o d e).s := (oo_writeErr _ _ _).grow

/-- What one letter adds, and how the count goes on. -/
def Counted (st st' : CModeSt) (a : CAct) : Prop :=
  match a with
  | .exit => Grow 0 st.s st'.s
  | _ => st'.count ≤ 5 ∧ st.count ≤ st'.count ∧ Grow (st'.count - st.count) st.s st'.s

theorem Counted.zero {st st' : CModeSt} {a : CAct} (h5 : st.count ≤ 5) (hc : st'.count = st.count) (hg : Grow 0 st.s st'.s) : Counted st st' a := by
  unfold Counted
  split
  · exact hg
  · exact ⟨by omega, by omega, hg.mono (Nat.zero_le _)⟩

/-- The client is a user. -/
def UserCl (s : Srv) (cl : Nat) : Prop := (s.cl cl).type = .user

theorem limit_user {st : CModeSt} {cl : Nat} (h : UserCl st.s cl) (n : Nat) : modeLimitReached (st.s.cl cl) n = decide (n ≥ 5) := by
  unfold modeLimitReached
  unfold UserCl at h
  rw [h]; rfl

theorem cmArgMode_count {st : CModeSt} {cl o : Nat} {c : Chan} {m : Char} {req : Request} (h : UserCl st.s cl) (h5 : st.count ≤ 5) :
    Counted st (cmArgMode st cl o c m req).1 (cmArgMode st cl o c m req).2 := by
  have key : Grow 0 st.s (cmArgMode st cl o c m req).1.s ∧ (cmArgMode st cl o c m req).1.count = st.count + 1 ∧
      (st.count = 5 → (cmArgMode st cl o c m req).2 = .exit) := by
    simp only [cmArgMode, Nat.add_sub_cancel, limit_user h]
    split
    · exact ⟨.refl _, rfl, fun _ => rfl⟩
    · rename_i hl
      simp only [decide_eq_true_eq] at hl
      refine ⟨?_, ?_, fun e => by omega⟩
      · split
        · split
          · split <;> exact .refl _
          · exact cmErr_grow
        · split
          · split
            · exact .refl _
            · exact (oo_writeErr _ _ _).grow
          · rename_i a as hargs
            generalize (if m = 'k' then !a.isEmpty && !hasChar a ' '
              else decide (0 < atoi a) && decide (atoi a < 0xFFFF)) = valid
            cases valid
            · simp only [Bool.not_false, if_true]
              split
              · exact .refl _
              · exact cmErr_grow
            · simp only [Bool.not_true, Bool.false_eq_true, if_false]
              cases st.rights.half
              · simp only [Bool.false_eq_true, if_false]
                exact (oo_writeErr _ _ _).grow
              · simp only [if_true]
                refine (modeDel_grow (ch := c.ref) (m := m)).then0 ?_
                split
                · exact .upd (fun _ => ⟨rfl, Nat.le_refl _⟩)
                · exact .upd (fun _ => ⟨rfl, Nat.le_refl _⟩)
      · (repeat' split) <;> rfl
  obtain ⟨k1, k2, k3⟩ := key
  generalize cmArgMode st cl o c m req = r at *
  obtain ⟨st', a⟩ := r
  unfold Counted
  split
  · exact k1
  · rename_i hne
    have : st.count ≠ 5 := fun e => hne (k3 e)
    simp only at k2
    refine ⟨?_, ?_, k1.mono (Nat.zero_le _)⟩
    · show st'.count ≤ 5; omega
    · show st.count ≤ st'.count; omega

theorem cmListMode_count {st : CModeSt} {cl o : Nat} {c : Chan} {k : CList} (h : UserCl st.s cl) (h5 : st.count ≤ 5) :
    Counted st (cmListMode st cl o c k).1 (cmListMode st cl o c k).2 := by
  have key : (st.count = 5 → (cmListMode st cl o c k).2 = .exit ∧ (cmListMode st cl o c k).1.s = st.s) ∧
      (st.count ≠ 5 → Grow 1 st.s (cmListMode st cl o c k).1.s ∧ (cmListMode st cl o c k).1.count = st.count + 1 ∧ (cmListMode st cl o c k).2 = .skip) := by
    simp only [cmListMode, Nat.add_sub_cancel, limit_user h]
    split
    · rename_i hl
      simp only [decide_eq_true_eq] at hl
      exact ⟨fun _ => ⟨rfl, rfl⟩, fun e => by omega⟩
    · rename_i hl
      simp only [decide_eq_true_eq] at hl
      refine ⟨fun e => by omega, fun _ => ⟨?_, ?_, ?_⟩⟩
      · split
        · refine OnlyOutput.grow ?_
          unfold showChannelList
          exact (oo_foldl _ (fun s a => oo_write _ _ _) _ _).trans (oo_write _ _ _)
        · split
          · simp only
            split
            · exact addToList_grow
            · exact delFromList_grow.mono (Nat.zero_le _)
          · exact (oo_writeErr _ _ _).grow
      · (repeat' split) <;> rfl
      · (repeat' split) <;> rfl
  obtain ⟨k1, k2⟩ := key
  generalize cmListMode st cl o c k = r at *
  obtain ⟨st', a⟩ := r
  by_cases e : st.count = 5
  · obtain ⟨rfl, e2⟩ := k1 e
    show Grow 0 st.s st'.s
    rw [show st'.s = st.s from e2]; exact .refl _
  · obtain ⟨g1, g2, rfl⟩ := k2 e
    simp only at g1 g2
    exact ⟨by omega, by omega, g1.mono (by omega)⟩

theorem cmSwitch_count {st : CModeSt} {cl o : Nat} {c : Chan} {m : Char} {req : Request} (h : UserCl st.s cl) (h5 : st.count ≤ 5) :
    Counted st (cmSwitch st cl o c m req).1 (cmSwitch st cl o c m req).2 := by
  have z : ∀ {st' : CModeSt} {a : CAct}, st'.count = st.count → Grow 0 st.s st'.s → Counted st st' a := fun e g => .zero h5 e g
  simp only [cmSwitch]
  split
  · exact z rfl cmErr_grow
  split
  · split
    · exact z rfl (.refl _)
    · exact z rfl cmErr_grow
  split
  · exact cmArgMode_count h h5
  split
  · split
    · split
      · exact z rfl (.refl _)
      · exact z rfl (oo_writeErr _ _ _).grow
    · split
      · exact z rfl (.refl _)
      · exact z rfl cmErr_grow
  split
  · refine z ?_ ?_
    · simp only [cmMemberMode]
      (repeat' split) <;> rfl
    · simp only [cmMemberMode]
      split
      · exact cmErr_grow
      · split
        · exact .refl _
        · split
          · split
            · exact .refl _
            · exact (oo_writeErr _ _ _).grow
          · exact (oo_writeErr _ _ _).grow
  split
  · exact cmListMode_count h h5
  split
  · exact cmListMode_count h h5
  split
  · exact cmListMode_count h h5
  split
  · exact z rfl (oo_writeErr _ _ _).grow
  · exact z rfl (.refl _)

theorem cmApply_grow {st : CModeSt} {o : Nat} {c : Chan} {m : Char} (a : CAct) : Grow 0 st.s (cmApply st o c m a).s ∧ (cmApply st o c m a).count = st.count := by
  cases a with
  | exit => exact ⟨.refl _, rfl⟩
  | skip => exact ⟨.refl _, rfl⟩
  | chanMode w =>
    refine ⟨?_, rfl⟩
    simp only [cmApply]
    split
    · exact modeAdd_grow
    · exact modeDel_grow
  | memberMode r =>
    have hs : ∀ r : Srv × Bool, (∃ g : List Cl2Chan, r.1 = { st.s with cl2 := g }) → Grow 0 st.s r.1 := by
      rintro r ⟨g, e⟩
      rw [e]
      exact ⟨id, (List.map_id _).symm, fun _ => ⟨rfl, Nat.le_refl _⟩⟩
    simp only [cmApply]
    split
    · exact ⟨(oo_writeErr _ _ _).grow, rfl⟩
    · have h1 : Grow 0 st.s (if st.set = true then userModeAdd st.s c.ref r m else userModeDel st.s c.ref r m).1 := by
        split
        · exact hs _ ⟨_, rfl⟩
        · exact hs _ ⟨_, rfl⟩
      generalize (if st.set = true then userModeAdd st.s c.ref r m else userModeDel st.s c.ref r m) = q at h1
      split
      · exact ⟨h1, rfl⟩
      · exact ⟨h1, rfl⟩

theorem Spec.ChannelOnly.user (h : ChannelOnly ch s t) {cl : Nat} (hu : UserCl s cl) : UserCl t cl := by
  obtain ⟨⟨o, f, r, e⟩, -, -⟩ := h
  have : t.clients = s.clients := by have := congrArg Srv.clients e; exact this
  unfold UserCl at *
  simp only [Srv.cl, Srv.cl?, this] at *
  exact hu

theorem cmChar_count {st : CModeSt} {cl o : Nat} {c : Chan} {m : Char} {req : Request} (h : UserCl st.s cl) (h5 : st.count ≤ 5) :
    ((cmChar st cl o c m req).2 = false → Grow 0 st.s (cmChar st cl o c m req).1.s) ∧
    ((cmChar st cl o c m req).2 = true → (cmChar st cl o c m req).1.count ≤ 5 ∧ st.count ≤ (cmChar st cl o c m req).1.count ∧
      Grow ((cmChar st cl o c m req).1.count - st.count) st.s (cmChar st cl o c m req).1.s) := by
  simp only [cmChar]
  split
  · refine ⟨fun e => (by cases e), fun _ => ?_⟩
    split
    · exact ⟨h5, Nat.le_refl _, .refl _⟩
    · exact ⟨h5, Nat.le_refl _, .refl _⟩
  · have h1 := cmSwitch_count (st := { st with rights := collectRights st.s st.rights c.ref cl }) (cl := cl) (o := o) (c := c) (m := m) (req := req) h h5
    generalize cmSwitch { st with rights := collectRights st.s st.rights c.ref cl } cl o c m req = r at h1
    obtain ⟨st', a⟩ := r
    cases a with
    | exit => exact ⟨fun _ => h1, fun e => (by cases e)⟩
    | skip =>
      exact ⟨fun e => (by cases e), fun _ => h1⟩
    | chanMode w =>
      obtain ⟨g1, g2⟩ := cmApply_grow (st := st') (o := o) (c := c) (m := m) (.chanMode w)
      refine ⟨fun e => (by cases e), fun _ => ?_⟩
      obtain ⟨a1, a2, a3⟩ := h1
      simp only at a1 a2 a3 ⊢
      rw [g2]
      exact ⟨a1, a2, a3.then0 g1⟩
    | memberMode w =>
      obtain ⟨g1, g2⟩ := cmApply_grow (st := st') (o := o) (c := c) (m := m) (.memberMode w)
      refine ⟨fun e => (by cases e), fun _ => ?_⟩
      obtain ⟨a1, a2, a3⟩ := h1
      simp only at a1 a2 a3 ⊢
      rw [g2]
      exact ⟨a1, a2, a3.then0 g1⟩

theorem cmLoop_count {cl o : Nat} {c : Chan} {req : Request} : ∀ (n : Nat) (ptr : Str) (st : CModeSt), HasChan st.s c.ref → UserCl st.s cl → st.count ≤ 5 →
    Grow (5 - st.count) st.s (cmLoop cl o c req n ptr st).s := by
  intro n
  induction n with
  | zero => exact fun ptr st _ _ _ => .refl _
  | succ n ih =>
    intro ptr st hc hu h5
    cases ptr with
    | nil =>
      simp only [cmLoop]
      split
      · exact .refl _
      · split
        · exact (oo_crash _).grow
        · rename_i a as _ _
          exact ih a { st with args := as } hc hu h5
    | cons m ms =>
      have h1 := cmChar_only (st := st) (cl := cl) (o := o) (c := c) (m := m) (req := req) hc
      have h2 := cmChar_count (st := st) (cl := cl) (o := o) (c := c) (m := m) (req := req) hu h5
      simp only [cmLoop]
      generalize cmChar st cl o c m req = r at h1 h2
      obtain ⟨st', b⟩ := r
      cases b with
      | false => exact (h2.1 rfl).mono (Nat.zero_le _)
      | true =>
        obtain ⟨a1, a2, a3⟩ := h2.2 rfl
        simp only at a1 a2 a3 h1 ⊢
        exact (a3.trans (ih ms st' (h1.has hc) (h1.user hu) a1)).mono (by omega)

theorem channelMode_count {cl o : Nat} {c : Chan} {req : Request} (hc : HasChan s c.ref) (hu : UserCl s cl) : Grow 5 s (channelMode s cl o c req) := by
  simp only [channelMode]
  split
  · exact (oo_writeErr _ _ _).grow
  · split
    · exact ((oo_write _ _ _).trans (oo_write _ _ _)).grow
    · split
      · exact (oo_writeErr _ _ _).grow
      · refine Grow.then0 ?_ (oo_cmFinish _ _ _ _).grow
        exact cmLoop_count _ _ ({ s := s, the := _, set := _, rights := _, args := _ } : CModeSt) hc hu (Nat.zero_le _)

end Ngircd
