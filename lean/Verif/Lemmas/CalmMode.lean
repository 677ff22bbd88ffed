import Verif.Lemmas.CalmChan

/-!
# Steps that go well: MODE, AWAY, OPER
-/

set_option linter.unusedSimpArgs false

namespace Ngircd
open Spec

variable {s t u : Srv} {c d f p : Client} {cl : Nat} {req : Request} {m : Msg}

/-! ## User modes -/

theorem calm_clientModeAdd {r : Nat} {x : Char} : Calm s (clientModeAdd s r x).1 := Calm.upd (fun _ => rfl) (fun _ => rfl)
theorem calm_clientModeDel {r : Nat} {x : Char} : Calm s (clientModeDel s r x).1 := Calm.upd (fun _ => rfl) (fun _ => rfl)

theorem calm_userModeChar {st : UModeSt} {a b : Nat} {x : Char} (hs : Safe st.s cl) :
    Calm st.s (userModeChar st a cl b x).s := by
  unfold userModeChar
  split
  · split
    · exact .refl _
    · exact .refl _
  · split
    · exact hs.self
    · simp only
      have h1 : Calm st.s (if x = 'a' then st.s.updCl cl (fun c => { c with away := some (strlcpy CLIENT_AWAY_LEN "Away".toList) }) else st.s) := by
        split
        · exact Calm.upd (fun _ => rfl) (fun _ => rfl)
        · exact .refl _
      split
      · exact h1.trans calm_clientModeAdd
      · exact h1.trans calm_clientModeDel

theorem calm_userModeFold {a b : Nat} {l : Str} : ∀ {st : UModeSt}, Safe st.s cl →
    Calm st.s (l.foldl (fun st m => userModeChar st a cl b m) st).s := by
  induction l with
  | nil => intro st _; exact .refl _
  | cons x l ih =>
    intro st hs
    have h1 := calm_userModeChar (a := a) (b := b) (x := x) hs
    exact h1.trans (ih (st := userModeChar st a cl b x) (hs.calm h1.toMild))

theorem calm_userModeLoop {a b : Nat} {l : List Str} : ∀ {st : UModeSt}, Safe st.s cl → (∀ x ∈ l, x ≠ []) →
    Calm st.s (userModeLoop a cl b l st).s := by
  induction l with
  | nil => intro st _ _; exact .refl _
  | cons x l ih =>
    intro st hs hl
    unfold userModeLoop
    rw [if_neg (by simpa using hl x (List.mem_cons_self ..))]
    have h1 := calm_userModeFold (a := a) (b := b) (l := x) hs
    exact h1.trans (ih (hs.calm h1.toMild) (fun y hy => hl y (List.mem_cons_of_mem _ hy)))

theorem calm_userModeFinish {st : UModeSt} {a b : Nat} (hs : Safe st.s cl) (ha : a = cl ∨ (st.s.cl a).type = .server)
    (hb : (st.s.cl b).conn.isSome = true → Routed st.s (st.s.cl b)) : Calm st.s (userModeFinish st a cl b) := by
  have hsub : ∀ (u : Srv) (x : Msg), Calm st.s u → (u.cl b).conn.isSome = true → Calm st.s (writePrefix u (u.cl b) (u.cl cl) x) := by
    intro u x hu hc
    have hw := hu.clw b
    refine Calm.writePrefix ((hb ?_).way hw) hu
    rw [← show (u.cl b).conn = (st.s.cl b).conn from congrArg (fun x => x.2.1) hw]
    exact hc
  unfold userModeFinish
  simp only
  split
  · exact .refl _
  · have h1 : Calm st.s (if (st.s.cl a).type = .server then
        writeServers (if (st.s.cl b).conn.isSome = true then writePrefix st.s (st.s.cl b) (st.s.cl cl) ⟨"MODE", [(st.s.cl b).ID, dropAction st.the]⟩ else st.s) (some a)
          ((if (st.s.cl b).conn.isSome = true then writePrefix st.s (st.s.cl b) (st.s.cl cl) ⟨"MODE", [(st.s.cl b).ID, dropAction st.the]⟩ else st.s).cl cl) ⟨"MODE", [(st.s.cl b).ID, dropAction st.the]⟩
        else writeServers (writePrefix st.s (st.s.cl a) (st.s.cl cl) ⟨"MODE", [(st.s.cl b).ID, dropAction st.the]⟩) (some a)
          ((writePrefix st.s (st.s.cl a) (st.s.cl cl) ⟨"MODE", [(st.s.cl b).ID, dropAction st.the]⟩).cl cl) ⟨"MODE", [(st.s.cl b).ID, dropAction st.the]⟩) := by
      split
      · apply Calm.writeServers
        split
        · exact hsub _ _ (.refl _) ‹_›
        · exact .refl _
      · rename_i hn
        rcases ha with ha | ha
        · subst ha
          exact Calm.writeServers hs.self
        · exact absurd ha hn
    exact Calm.ite (fun hh => hsub _ _ h1 (Bool.and_eq_true _ _ ▸ hh).2) (fun _ => h1)

theorem calm_clientMode {a b : Nat} (hs : Safe s cl) (ha : a = cl ∨ (s.cl a).type = .server)
    (hb : (s.cl b).conn.isSome = true → Routed s (s.cl b)) (hne : ∀ x ∈ req.argv.drop 2, x ≠ []) : Calm s (clientMode s a cl b req) := by
  unfold clientMode
  split
  · rename_i h
    rcases ha with ha | ha
    · rw [ha]; exact hs.self
    · rw [ha] at h; exact absurd h (by simp)
  · split
    · exact hs.self
    · rename_i x rest hx
      have hrest : rest = req.argv.drop 2 := by
        have : req.argv.drop 2 = (req.argv.drop 1).drop 1 := by rw [List.drop_drop]
        rw [this, hx]; rfl
      split
      · exact hs.self
      · split
        · simp only
          have h1 := calm_userModeFold (a := a) (b := b) (l := ‹Str›) (st := { s := s, the := [‹Char›], set := ‹Char› == '+' }) hs
          have h2 := calm_userModeLoop (a := a) (b := b) (l := rest) (hs.calm h1.toMild) (by rw [hrest]; exact hne)
          have h3 := h1.trans h2
          refine hs.next h3 (fun hs => ?_)
          refine calm_userModeFinish hs ?_ ?_
          · refine ha.imp id (fun h => ?_)
            rw [h3.kind]; exact h
          · intro hc
            have hw := h3.clw b
            refine h3.routed hw (hb ?_)
            rw [← show _ = (s.cl b).conn from congrArg (fun x => x.2.1) hw]
            exact hc
        · exact hs.self

/-! ## Channel modes -/

theorem calm_channelModeAnswer (hc : Routed s c) {ch : Chan} : Calm s (channelModeAnswer s c ch) := by
  unfold channelModeAnswer
  simp only
  calm

theorem calm_showChannelList (hc : Routed s c) {ch : Chan} {l : CList} : Calm s (showChannelList s c ch l) := by
  unfold showChannelList
  simp only
  exact Calm.write hc (Calm.foldl (fun t a _ h => Calm.write hc h) (.refl _))

theorem calm_sendListChange (hc : Routed s c) {x : Bool} {ch : Chan} {l : CList} {k : Str} : Calm s (sendListChange s x l p c ch k) := by
  unfold sendListChange
  simp only
  calm

theorem calm_addToList (hs : Safe s cl) {ch : Chan} {l : CList} {k : Str} : Calm s (addToList s l p (s.cl cl) ch k) := by
  unfold addToList
  simp only
  split
  · exact .refl _
  · split
    · exact hs.self
    · exact hs.next calm_updChan (fun hs' => calm_sendListChange (hs'.me.way rfl))

theorem calm_delFromList (hs : Safe s cl) {ch : Chan} {l : CList} {k : Str} : Calm s (delFromList s l p (s.cl cl) ch k) := by
  unfold delFromList
  simp only
  split
  · exact .refl _
  · exact hs.next calm_updChan (fun hs' => calm_sendListChange (hs'.me.way rfl))

/-- One letter: nothing bad, and the arguments left are some of those before. -/
def CmOk (st st' : CModeSt) : Prop := Calm st.s st'.s ∧ ∀ a ∈ st'.args, a ∈ st.args

theorem CmOk.refl (st : CModeSt) : CmOk st st := ⟨.refl _, fun _ h => h⟩

theorem cmErr_ok {st : CModeSt} (hs : Safe st.s cl) {ch : Chan} {e : String} : CmOk st (cmErr st cl ch e) := ⟨hs.self, fun _ h => h⟩

theorem CmOk.ite {st : CModeSt} {q : Prop} [Decidable q] {a b : CModeSt × CAct} (ha : q → CmOk st a.1) (hb : ¬ q → CmOk st b.1) :
    CmOk st (if q then a else b).1 := by
  split
  · exact ha ‹_›
  · exact hb ‹_›

theorem cmArgMode_ok {st : CModeSt} (hs : Safe st.s cl) {ch : Chan} {x : Char} : CmOk st (cmArgMode st cl cl ch x req).1 := by
  unfold cmArgMode
  simp only
  split
  · exact ⟨.refl _, fun _ h => h⟩
  · split
    · split
      · split
        · exact ⟨.refl _, fun _ h => List.mem_of_mem_drop h⟩
        · exact ⟨.refl _, fun _ h => h⟩
      · exact ⟨hs.self, fun _ h => h⟩
    · split
      · split
        · exact ⟨.refl _, fun _ h => h⟩
        · exact ⟨hs.self, fun _ h => h⟩
      · rename_i a as he
        have hm : ∀ y ∈ as, y ∈ st.args := fun y h => by rw [show st.args = a :: as from he]; exact List.mem_cons_of_mem _ h
        refine CmOk.ite (fun _ => CmOk.ite (fun _ => ⟨.refl _, fun _ h => h⟩) (fun _ => ⟨hs.self, fun _ h => h⟩)) (fun _ => CmOk.ite (fun _ => ⟨?_, hm⟩) (fun _ => ⟨hs.self, hm⟩))
        simp only
        split
        · exact .of_eq rfl rfl rfl
        · exact .of_eq rfl rfl rfl

theorem cmMemberMode_ok {st : CModeSt} (hs : Safe st.s cl) {ch : Chan} {x : Char} : CmOk st (cmMemberMode st cl ch x).1 := by
  unfold cmMemberMode
  split
  · exact cmErr_ok hs
  · split
    · exact .refl _
    · rename_i a as he
      have hm : ∀ y ∈ as, y ∈ st.args := fun y h => by rw [he]; exact List.mem_cons_of_mem _ h
      split
      · split
        · exact ⟨.refl _, hm⟩
        · exact ⟨hs.self, hm⟩
      · exact ⟨hs.self, hm⟩

theorem cmListMode_ok {st : CModeSt} (hs : Safe st.s cl) {ch : Chan} {l : CList} : CmOk st (cmListMode st cl cl ch l).1 := by
  unfold cmListMode
  simp only
  split
  · exact ⟨.refl _, fun _ h => h⟩
  · split
    · exact ⟨calm_showChannelList hs.me, fun _ h => h⟩
    · rename_i a as he
      have hm : ∀ y ∈ as, y ∈ st.args := fun y h => by rw [show st.args = a :: as from he]; exact List.mem_cons_of_mem _ h
      split
      · refine ⟨?_, hm⟩
        simp only
        split
        · exact calm_addToList hs
        · exact calm_delFromList hs
      · exact ⟨hs.self, hm⟩

theorem cmSwitch_ok {st : CModeSt} (hs : Safe st.s cl) {ch : Chan} {x : Char} : CmOk st (cmSwitch st cl cl ch x req).1 := by
  unfold cmSwitch
  split
  · exact cmErr_ok hs
  split
  · split
    · exact .refl _
    · exact cmErr_ok hs
  split
  · exact cmArgMode_ok hs
  split
  · split
    · split
      · exact .refl _
      · exact ⟨hs.self, fun _ h => h⟩
    · split
      · exact .refl _
      · exact cmErr_ok hs
  split
  · exact cmMemberMode_ok hs
  split
  · exact cmListMode_ok hs
  split
  · exact cmListMode_ok hs
  split
  · exact cmListMode_ok hs
  split
  · exact ⟨hs.self, fun _ h => h⟩
  · exact .refl _

theorem cmApply_ok {st : CModeSt} (hs : Safe st.s cl) {ch : Chan} {x : Char} {a : CAct} : CmOk st (cmApply st cl ch x a) := by
  cases a with
  | exit => exact .refl _
  | skip => exact .refl _
  | memberMode r =>
    simp only [cmApply]
    split
    · exact ⟨hs.self, fun _ h => h⟩
    · cases st.set
      · simp only [Bool.false_eq_true, if_false]
        split
        · exact ⟨.of_eq rfl rfl rfl, fun _ h => h⟩
        · exact ⟨.of_eq rfl rfl rfl, fun _ h => h⟩
      · simp only [if_true]
        split
        · exact ⟨.of_eq rfl rfl rfl, fun _ h => h⟩
        · exact ⟨.of_eq rfl rfl rfl, fun _ h => h⟩
  | chanMode g =>
    refine ⟨?_, fun _ h => h⟩
    simp only [cmApply]
    cases st.set
    · exact .of_eq rfl rfl rfl
    · exact .of_eq rfl rfl rfl

theorem cmChar_ok {st : CModeSt} (hs : Safe st.s cl) {ch : Chan} {x : Char} : CmOk st (cmChar st cl cl ch x req).1 := by
  unfold cmChar
  split
  · simp only
    split
    · exact ⟨.refl _, fun _ h => h⟩
    · exact .refl _
  · simp only
    have h1 := cmSwitch_ok (st := { st with rights := collectRights st.s st.rights ch.ref cl }) hs (ch := ch) (x := x) (req := req)
    split
    · rename_i e; rw [e] at h1; exact ⟨h1.1, h1.2⟩
    · rename_i st' a _ e
      rw [e] at h1
      have h2 := cmApply_ok (st := st') (hs.calm h1.1.toMild) (ch := ch) (x := x) (a := a)
      exact ⟨h1.1.trans h2.1, fun y h => h1.2 y (h2.2 y h)⟩

theorem calm_cmLoop {ch : Chan} {n : Nat} : ∀ {l : Str} {st : CModeSt}, Safe st.s cl → (∀ a ∈ st.args, a ≠ []) →
    Calm st.s (cmLoop cl cl ch req n l st).s := by
  induction n with
  | zero => intro l st _ _; exact .refl _
  | succ n ih =>
    intro l st hs ha
    cases l with
    | nil =>
      unfold cmLoop
      split
      · exact .refl _
      · rename_i a as he
        rw [if_neg (by simpa using ha a (by rw [he]; exact List.mem_cons_self ..))]
        exact ih (st := { st with args := as }) hs (fun y hy => ha y (by rw [he]; exact List.mem_cons_of_mem _ hy))
    | cons x l =>
      have h1 := cmChar_ok hs (ch := ch) (x := x) (req := req)
      unfold cmLoop
      split
      · rename_i e; rw [e] at h1; exact h1.1
      · rename_i e; rw [e] at h1
        exact h1.1.trans (ih (hs.calm h1.1.toMild) (fun y hy => ha y (h1.2 y hy)))

theorem calm_cmFinish {st : CModeSt} (hs : Safe st.s cl) {ch : Chan} : Calm st.s (cmFinish st cl cl ch) := by
  unfold cmFinish
  have hme := hs.me
  simp only
  calm

theorem calm_channelMode (hs : Safe s cl) {ch : Chan} (hne : ∀ x ∈ req.argv.drop 2, x ≠ []) : Calm s (channelMode s cl cl ch req) := by
  unfold channelMode
  split
  · exact hs.self
  · split
    · exact calm_channelModeAnswer hs.me
    · rename_i x rest hx
      have hrest : rest = req.argv.drop 2 := by
        have : req.argv.drop 2 = (req.argv.drop 1).drop 1 := by rw [List.drop_drop]
        rw [this, hx]; rfl
      simp only
      split
      · exact hs.self
      · exact hs.next (calm_cmLoop (st := { s := s, the := _, set := _, rights := _, args := rest }) hs (by rw [hrest]; exact hne)) (fun hs => calm_cmFinish hs)

/-- MODE in the name of the client itself. -/
theorem calm_ircMODE (hs : Safe s cl) (hl : ∀ c ∈ s.clients, c.conn.isSome = true → c.ref ≠ s.this) (hself : ∀ c ∈ s.clients, s.cl c.ref = c)
    (ht : (s.cl cl).type ≠ .server) (hm : modeCl s cl req = cl) (hne : ∀ x ∈ req.argv.drop 2, x ≠ []) : Calm s (ircMODE s cl req).1 := by
  unfold ircMODE
  rw [getSender, if_neg ht]
  simp only [hm]
  split
  · rename_i d hd
    have hmem : d ∈ s.clients := by
      split at hd
      · exact List.mem_of_find?_eq_some hd
      · cases hd
    refine calm_clientMode hs (.inl rfl) (fun hc => ?_) hne
    rw [hself d hmem] at hc ⊢
    exact hs.all d hmem (hl d hmem hc)
  · split
    · exact calm_channelMode hs hne
    · exact hs.self

theorem calm_ircAWAY (hs : Safe s cl) : Calm s (ircAWAY s cl req).1 := by
  have h1 : Calm s (clientModeAdd (clientSetAway s cl (req.arg 0)) cl 'a').1 := (show Calm s (clientSetAway s cl (req.arg 0)) from Calm.upd (fun _ => rfl) (fun _ => rfl)).trans calm_clientModeAdd
  have h2 : Calm s (clientModeDel s cl 'a').1 := calm_clientModeDel
  unfold ircAWAY
  simp only
  split
  · exact hs.next h1 (fun hs => Calm.write (hs.me.way rfl) (Calm.writeServers (.refl _)))
  · exact hs.next h2 (fun hs => Calm.write (hs.me.way rfl) (Calm.writeServers (.refl _)))

theorem calm_ircOPER (hs : Safe s cl) : Calm s (ircOPER s cl req).1 := by
  have h1 : Calm s (clientModeAdd s cl 'o').1 := calm_clientModeAdd
  unfold ircOPER
  split
  · exact hs.self
  · split
    · exact hs.self
    · split
      · exact hs.self
      · simp only
        split
        · refine hs.next h1 (fun hs => ?_)
          exact Calm.write (hs.me.way rfl) (Calm.writeServers hs.self)
        · exact hs.self

end Ngircd
