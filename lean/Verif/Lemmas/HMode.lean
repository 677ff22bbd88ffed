import Verif.Lemmas.HBase

/-!
# MODE and AWAY as runs of guarded actions
-/

set_option linter.unusedSimpArgs false

namespace Ngircd

variable {x : Ctx} {s t u : Srv}

/-! ## User modes -/

theorem umode_core (s : Srv) (r : Nat) (m : Char) (set : Bool) :
    (if set then clientModeAdd s r m else clientModeDel s r m).1 = (Act.umode r m set).run s := by
  simp only [Act.run]; cases set <;> rfl

theorem umode_type (s : Srv) (r r' : Nat) (m : Char) (set : Bool) :
    (((Act.umode r m set).run s).cl r').type = (s.cl r').type := by
  simp only [Act.run]
  split
  · exact cl_updCl_field Client.type s r r' _ (fun _ => rfl) (fun _ => rfl)
  · exact cl_updCl_field Client.type s r r' _ (fun _ => rfl) (fun _ => rfl)

theorem umode_id (s : Srv) (r r' : Nat) (m : Char) (set : Bool) :
    (((Act.umode r m set).run s).cl r').id = (s.cl r').id := by
  simp only [Act.run]
  split
  · exact cl_updCl_field Client.id s r r' _ (fun _ => rfl) (fun _ => rfl)
  · exact cl_updCl_field Client.id s r r' _ (fun _ => rfl) (fun _ => rfl)

/-- Who may run `Client_Mode` on whom, letter by letter. -/
structure UModeOk (x : Ctx) (s : Srv) (cl origin target : Nat) (letters : Str) : Prop where
  ok : x.peer ∨ ((s.cl cl).type = .user ∧ origin = cl ∧ target = cl ∧ x.cl = cl) ∨
    (x.fresh ∧ (∀ m ∈ letters, m ∈ s.conf.defaultUserModes) ∧
      (clientSearch s (s.cl x.cl).ID).map Client.ref = some target)

/-- Same types, names, configuration. -/
def SameId (s t : Srv) : Prop :=
  t.conf = s.conf ∧ (∀ r, (t.cl r).type = (s.cl r).type ∧ (t.cl r).id = (s.cl r).id) ∧
  ∀ n, (clientSearch t n).map Client.ref = (clientSearch s n).map Client.ref

theorem SameId.rfl' : SameId s s := ⟨rfl, fun _ => ⟨rfl, rfl⟩, fun _ => rfl⟩
theorem SameId.trans (h : SameId s t) (h' : SameId t u) : SameId s u :=
  ⟨h'.1.trans h.1, fun r => ⟨(h'.2.1 r).1.trans (h.2.1 r).1, (h'.2.1 r).2.trans (h.2.1 r).2⟩,
    fun n => (h'.2.2 n).trans (h.2.2 n)⟩
theorem SameId.of_core (h : t.core = s.core) : SameId s t :=
  ⟨core_conf h, fun r => by rw [core_cl h]; exact ⟨rfl, rfl⟩, fun n => by rw [core_clientSearch h]⟩

/-- Lookups find the same client after an update that keeps names. -/
theorem clientSearch_upd (s : Srv) (r : Nat) (f : Client → Client)
    (hf : ∀ c, (f c).ref = c.ref ∧ (f c).id = c.id ∧ (f c).hash = c.hash) (n : Str) :
    clientSearch (s.updCl r f) n = (clientSearch s n).map (fun c => if c.ref = r then f c else c) := by
  simp only [clientSearch, Srv.updCl, List.find?_map]
  congr 1
  congr 1
  funext c
  simp only [Function.comp_apply]
  split
  · rw [(hf c).2.1, (hf c).2.2]
  · rfl

theorem clientSearch_upd_ref (s : Srv) (r : Nat) (f : Client → Client)
    (hf : ∀ c, (f c).ref = c.ref ∧ (f c).id = c.id ∧ (f c).hash = c.hash) (n : Str) :
    (clientSearch (s.updCl r f) n).map Client.ref = (clientSearch s n).map Client.ref := by
  rw [clientSearch_upd s r f hf, Option.map_map]
  congr 1
  funext c
  simp only [Function.comp_apply]
  split
  · exact (hf c).1
  · rfl

theorem UModeOk.congr {cl o r : Nat} {l : Str} (h : UModeOk x s cl o r l) (hs : SameId s t) :
    UModeOk x t cl o r l := by
  refine ⟨?_⟩
  have hID : (t.cl x.cl).ID = (s.cl x.cl).ID := by simp only [Client.ID, (hs.2.1 x.cl).2]
  rw [(hs.2.1 cl).1, hID, hs.2.2, hs.1]
  exact h.ok

theorem userModeChar_steps {st : UModeSt} {cl o r : Nat} {m : Char} {l : Str} (hm : m ∈ l)
    (h : UModeOk x st.s cl o r l) :
    Steps (Okay x) st.s (userModeChar st cl o r m).s ∧ SameId st.s (userModeChar st cl o r m).s := by
  simp only [userModeChar]
  split
  · split <;> exact ⟨.rfl', .rfl'⟩
  · split
    · exact ⟨.same rfl, .of_core rfl⟩
    · rename_i hv
      -- the away text
      generalize hs1 : (if m = 'a' then st.s.updCl o (fun c => { c with away := some (strlcpy CLIENT_AWAY_LEN "Away".toList) }) else st.s) = s1
      have hst1 : Steps (Okay x) st.s s1 := by
        rw [← hs1]; split
        · exact .soft (fun _ => ⟨rfl, rfl, rfl, rfl, rfl, rfl, rfl, rfl⟩)
        · exact .rfl'
      have hid1 : SameId st.s s1 ∧ ∀ r, (s1.cl r).modes = (st.s.cl r).modes := by
        rw [← hs1]; split
        · exact ⟨⟨rfl, fun r' => ⟨cl_updCl_field Client.type _ _ _ _ (fun _ => rfl) (fun _ => rfl),
            cl_updCl_field Client.id _ _ _ _ (fun _ => rfl) (fun _ => rfl)⟩,
            clientSearch_upd_ref _ _ _ (fun _ => ⟨rfl, rfl, rfl⟩)⟩,
            fun r' => cl_updCl_field Client.modes _ _ _ _ (fun _ => rfl) (fun _ => rfl)⟩
        · exact ⟨.rfl', fun _ => rfl⟩
      rw [umode_core]
      have hokay : Okay x s1 (.umode r m st.set) := by
        rcases (h.congr hid1.1).ok with hp | ⟨h1, h2, h3, h4⟩ | h1
        · exact .inl hp
        · refine .inr (.inr ⟨h3.trans h4.symm, ?_⟩)
          subst h2 h3
          have ht := (hid1.1.2.1 r).1
          have hmo := hid1.2 r
          rw [ht] at h1
          simp only [userModeVerdict, h1] at hv
          cases hset : st.set
          · refine .inr ⟨rfl, ?_, ?_⟩
            · rintro rfl; rw [hset] at hv; revert hv; simp
            · rintro rfl; rw [hset] at hv; revert hv; simp
          · refine .inl ⟨rfl, ?_⟩
            rw [hset] at hv
            simp only [SelfSet, Client.hasMode, hmo]
            by_cases hb : m ∈ "bBCiIrswx".toList
            · exact .inl hb
            · refine .inr (.inl ?_)
              by_cases hcq : m ∈ "cqF".toList
              · refine ⟨hcq, ?_⟩
                have : m = 'c' ∨ m = 'q' ∨ m = 'F' := by
                  simpa using hcq
                rcases this with rfl | rfl | rfl <;> revert hv <;> simp [Client.hasMode]
              · exfalso
                have e : ∀ c, c ∈ "bBCiIrswxcqF".toList → m ≠ c := by
                  rintro c hc rfl
                  simp at hc hb hcq
                  rcases hc with rfl | rfl | rfl | rfl | rfl | rfl | rfl | rfl | rfl | rfl | rfl | rfl <;> simp at hb hcq
                have e1 := e 'b' (by decide)
                have e2 := e 'B' (by decide)
                have e3 := e 'C' (by decide)
                have e4 := e 'i' (by decide)
                have e5 := e 'I' (by decide)
                have e6 := e 'r' (by decide)
                have e7 := e 's' (by decide)
                have e8 := e 'w' (by decide)
                have e9 := e 'x' (by decide)
                have e10 := e 'c' (by decide)
                have e11 := e 'q' (by decide)
                have e12 := e 'F' (by decide)
                revert hv
                simp [e1, e2, e3, e4, e5, e6, e7, e8, e9, e10, e11, e12]
                (repeat' split) <;> first | trivial | (intro hv; cases hv) | simp
        · exact .inr (.inl ⟨h1.1, h1.2.1 m hm, h1.2.2⟩)
      refine ⟨hst1.trans (.one _ hokay rfl), hid1.1.trans ⟨?_, fun r' => ⟨umode_type _ _ _ _ _, umode_id _ _ _ _ _⟩, ?_⟩⟩
      · simp only [Act.run]; split <;> rfl
      · intro n
        simp only [Act.run]; split
        · exact (clientSearch_upd_ref s1 r (fun c => { c with modes := (modeAdd c.modes m).1 })
            (fun _ => ⟨rfl, rfl, rfl⟩) n)
        · exact (clientSearch_upd_ref s1 r (fun c => { c with modes := (modeDel c.modes m).1 })
            (fun _ => ⟨rfl, rfl, rfl⟩) n)

theorem userModeFold_steps {cl o r : Nat} {l : Str} (cs : Str) (st : UModeSt) (hm : ∀ m ∈ cs, m ∈ l)
    (h : UModeOk x st.s cl o r l) :
    Steps (Okay x) st.s (cs.foldl (fun st m => userModeChar st cl o r m) st).s ∧
    SameId st.s (cs.foldl (fun st m => userModeChar st cl o r m) st).s := by
  induction cs generalizing st with
  | nil => exact ⟨.rfl', .rfl'⟩
  | cons c cs ih =>
    have h1 := userModeChar_steps (hm c List.mem_cons_self) h
    have h2 := ih (userModeChar st cl o r c) (fun m hm' => hm m (List.mem_cons_of_mem _ hm')) (h.congr h1.2)
    exact ⟨h1.1.trans h2.1, h1.2.trans h2.2⟩

theorem userModeLoop_steps {cl o r : Nat} {l : Str} (as : List Str) (st : UModeSt)
    (hm : ∀ a ∈ as, ∀ m ∈ a, m ∈ l) (h : UModeOk x st.s cl o r l) :
    Steps (Okay x) st.s (userModeLoop cl o r as st).s ∧ SameId st.s (userModeLoop cl o r as st).s := by
  induction as generalizing st with
  | nil => exact ⟨.rfl', .rfl'⟩
  | cons a as ih =>
    simp only [userModeLoop]
    split
    · exact ⟨.same rfl, .of_core rfl⟩
    · have h1 := userModeFold_steps a st (hm a List.mem_cons_self) h
      have h2 := ih _ (fun a ha => hm a (List.mem_cons_of_mem _ ha)) (h.congr h1.2)
      exact ⟨h1.1.trans h2.1, h1.2.trans h2.2⟩

theorem clientMode_steps {cl o r : Nat} {req : Request} {l : Str}
    (hl : ∀ m ∈ (req.argv.drop 1).flatten.drop 1, m ∈ l)
    (h : ((s.cl cl).type = .user → r = cl) → UModeOk x s cl o r l) :
    Steps (Okay x) s (clientMode s cl o r req) ∧ SameId s (clientMode s cl o r req) := by
  simp only [clientMode]
  split
  · exact ⟨.same rfl, .of_core rfl⟩
  · rename_i hn
    replace h := h (by
      intro ht
      simp only [ht, Bool.and_eq_true, decide_eq_true_eq, true_and, ne_eq, Decidable.not_not] at hn
      simpa using hn)
    split
    · exact ⟨.same rfl, .of_core rfl⟩
    · rename_i a rest hd
      rw [hd] at hl
      split
      · exact ⟨.same rfl, .of_core rfl⟩
      · rename_i c cs
        split
        · generalize hst : ({ s := s, the := [c], set := c == '+' } : UModeSt) = st
          have hs : st.s = s := by rw [← hst]
          rw [← hs] at h
          have h1 := userModeFold_steps cs st (fun m hm => by
            refine hl m ?_
            simp only [List.flatten_cons, List.cons_append, List.drop_one, List.tail_cons, List.mem_append]
            exact .inl hm) h
          have h2 := userModeLoop_steps rest _ (fun a ha m hm => by
            refine hl m ?_
            simp only [List.flatten_cons, List.cons_append, List.drop_one, List.tail_cons, List.mem_append,
              List.mem_flatten]
            exact .inr ⟨a, ha, hm⟩) (h.congr h1.2)
          rw [hs] at h1
          refine ⟨(h1.1.trans h2.1).congr_right (by simp), (h1.2.trans h2.2).trans (.of_core (by simp))⟩
        · exact ⟨.same rfl, .of_core rfl⟩

/-! ## Channel modes -/

/-- The members of the channel stay. -/
def SameMem (s t : Srv) (ch : Nat) : Prop := membersOf t ch = membersOf s ch ∧ t.clients = s.clients ∧
  t.conf = s.conf ∧ t.this = s.this

theorem SameMem.rfl' {ch : Nat} : SameMem s s ch := ⟨rfl, rfl, rfl, rfl⟩
theorem SameMem.trans {ch : Nat} (h : SameMem s t ch) (h' : SameMem t u ch) : SameMem s u ch :=
  ⟨h'.1.trans h.1, h'.2.1.trans h.2.1, h'.2.2.1.trans h.2.2.1, h'.2.2.2.trans h.2.2.2⟩
theorem SameMem.of_core {ch : Nat} (h : t.core = s.core) : SameMem s t ch :=
  ⟨by simp only [membersOf, core_cl2 h], core_clients h, core_conf h, core_this h⟩

/-- Steps that keep the members of a channel. -/
def CSteps (x : Ctx) (ch : Nat) (s t : Srv) : Prop := Steps (Okay x) s t ∧ SameMem s t ch

theorem CSteps.rfl' {ch : Nat} : CSteps x ch s s := ⟨.rfl', .rfl'⟩
theorem CSteps.same {ch : Nat} (h : t.core = s.core) : CSteps x ch s t := ⟨.same h, .of_core h⟩
theorem CSteps.trans {ch : Nat} (h : CSteps x ch s t) (h' : CSteps x ch t u) : CSteps x ch s u :=
  ⟨h.1.trans h'.1, h.2.trans h'.2⟩
theorem CSteps.chSoft {ch c : Nat} {f : Chan → Chan} (hf : SoftCh x f) :
    CSteps x ch s (s.updChan c f) := ⟨.chSoft hf, ⟨rfl, rfl, rfl, rfl⟩⟩

theorem SoftCh.edit {f : Chan → Chan} (hx : x.edits) (h1 : KeepsCh f) (h2 : ∀ c, (f c).modes = c.modes)
    (h3 : ∀ c, Once c → Once (f c)) (h4 : ∀ c, (f c).topic = c.topic) : SoftCh x f :=
  ⟨h1, h2, h3, .inl hx, .inl hx, .inr h4⟩

theorem listsAdd_once {h : MaskList} {m : Str} {v : Nat} {r : Option Str}
    (hh : ∀ e ∈ h, e.onlyonce = false) : ∀ e ∈ (listsAdd true h m v r false).1, e.onlyonce = false := by
  intro e he
  simp only [listsAdd] at he
  split at he
  · rename_i hd
    clear hd
    revert e
    simp only
    induction h with
    | nil => intro e he; cases he
    | cons a l ih =>
      intro e he
      simp only [listsUpdate] at he
      split at he
      · rcases List.mem_cons.1 he with rfl | he
        · exact hh a List.mem_cons_self
        · exact hh e (List.mem_cons_of_mem _ he)
      · rcases List.mem_cons.1 he with rfl | he
        · exact hh _ List.mem_cons_self
        · exact ih (fun e he => hh e (List.mem_cons_of_mem _ he)) e he
  · rw [if_pos trivial] at he
    rcases List.mem_cons.1 he with rfl | he
    · rfl
    · exact hh e he

theorem listsDel_mem {h : MaskList} {m : Str} {e : ListElem} (he : e ∈ listsDel h m) : e ∈ h := by
  induction h with
  | nil => cases he
  | cons a l ih =>
    simp only [listsDel] at he
    split at he
    · exact List.mem_cons_of_mem _ (ih he)
    · rcases List.mem_cons.1 he with rfl | he
      · exact List.mem_cons_self
      · exact List.mem_cons_of_mem _ (ih he)

/-- Looking something up removes nothing from a list without one-shot entries. -/
theorem listsCheckReason_once {h : MaskList} (m : ClientMasks) (hh : ∀ e ∈ h, e.onlyonce = false) :
    (listsCheckReason h m).1 = h := by
  induction h with
  | nil => rfl
  | cons a l ih =>
    simp only [listsCheckReason]
    split
    · rw [if_neg (by rw [hh a List.mem_cons_self]; simp)]
    · simp only [ih (fun e he => hh e (List.mem_cons_of_mem _ he))]

theorem listsCheck_once {h : MaskList} (m : ClientMasks) (hh : ∀ e ∈ h, e.onlyonce = false) :
    (listsCheck h m).1 = h := listsCheckReason_once m hh

theorem Once.consume {c d : Chan} (h : Once c) {m : ClientMasks} 
    (hb : d.bans = c.bans ∨ d.bans = (listsCheck c.bans m).1)
    (he : d.excepts = c.excepts ∨ d.excepts = (listsCheck c.excepts m).1) :
    d.bans = c.bans ∧ d.excepts = c.excepts := by
  rw [listsCheck_once m (fun e he => h e (.inl he))] at hb
  rw [listsCheck_once m (fun e he => h e (.inr he))] at he
  exact ⟨hb.elim id id, he.elim id id⟩

theorem Once.congr {c d : Chan} (h : Once c) (hd : d.bans = c.bans ∧ d.excepts = c.excepts) : Once d := by
  intro e he; rw [hd.1, hd.2] at he; exact h e he

/-- The guard of the removal of mode `P`. -/
def LoseP (x : Ctx) (s : Srv) (ch : Nat) (letters : Str) : Prop :=
  x.loose ∨ membersOf s ch ≠ [] ∨ 'P' ∉ letters

theorem LoseP.congr {ch : Nat} {l : Str} (h : LoseP x s ch l) (hs : SameMem s t ch) : LoseP x t ch l := by
  rcases h with h | h | h
  · exact .inl h
  · exact .inr (.inl (by rw [hs.1]; exact h))
  · exact .inr (.inr h)

theorem CSteps.chMode {ch : Nat} {m : Char} {set : Bool} {l : Str} (hx : x.edits) (hm : m ∈ l) (h : LoseP x s ch l) :
    CSteps x ch s (if set then channelModeAdd s ch m else channelModeDel s ch m).1 := by
  have e : (if set then channelModeAdd s ch m else channelModeDel s ch m).1 = (Act.chMode ch m set).run s := by
    simp only [Act.run]; cases set <;> rfl
  refine ⟨.one (.chMode ch m set) ⟨?_, hx⟩ (congrArg _ e), ?_⟩
  · intro hP _
    subst hP
    rcases h with h | h | h
    · exact .inr h
    · exact .inl h
    · exact absurd hm h
  · cases set <;> exact ⟨rfl, rfl, rfl, rfl⟩

theorem membersOf_map (s : Srv) (f : Cl2Chan → Cl2Chan) (hf : ∀ m, (f m).chan = m.chan ∧ (f m).client = m.client)
    (ch : Nat) : membersOf { s with cl2 := s.cl2.map f } ch = membersOf s ch := by
  simp only [membersOf, List.filter_map, List.map_map]
  have h1 : ((fun m : Cl2Chan => m.chan == ch) ∘ f) = (fun m : Cl2Chan => m.chan == ch) :=
    funext (fun m => by simp [hf m])
  have h2 : ((fun m : Cl2Chan => m.client) ∘ f) = (fun m : Cl2Chan => m.client) :=
    funext (fun m => by simp [hf m])
  rw [h1, h2]

theorem CSteps.mmode {ch c r : Nat} {m : Char} {set : Bool} (hx : x.edits) :
    CSteps x ch s (if set then userModeAdd s c r m else userModeDel s c r m).1 := by
  have e : (if set then userModeAdd s c r m else userModeDel s c r m).1 = (Act.mmode c r m set).run s := by
    simp only [Act.run]; cases set <;> rfl
  refine ⟨.one (.mmode c r m set) hx (congrArg _ e), ?_⟩
  cases set
  · exact ⟨membersOf_map s _ (fun m => by split <;> exact ⟨rfl, rfl⟩) ch, rfl, rfl, rfl⟩
  · exact ⟨membersOf_map s _ (fun m => by split <;> exact ⟨rfl, rfl⟩) ch, rfl, rfl, rfl⟩

theorem addToList_steps (hx : x.edits) (l : CList) (p c : Client) (ch : Chan) (pat : Str) (k : Nat) :
    CSteps x k s (addToList s l p c ch pat) := by
  simp only [addToList]
  split
  · exact .rfl'
  · split
    · exact .same rfl
    · refine CSteps.trans (.chSoft (c := ch.ref) ?_) (.same (core_sendListChange _ _ _ _ _ _ _))
      cases l
      · exact .edit hx (fun _ => ⟨rfl, rfl, rfl⟩) (fun _ => rfl) (fun _ h => h) (fun _ => rfl)
      · exact .edit hx (fun _ => ⟨rfl, rfl, rfl⟩) (fun _ => rfl) (fun _ h e he => he.elim
          (fun he => listsAdd_once (fun e he => h e (.inl he)) e he) (fun he => h e (.inr he))) (fun _ => rfl)
      · exact .edit hx (fun _ => ⟨rfl, rfl, rfl⟩) (fun _ => rfl) (fun _ h e he => he.elim
          (fun he => h e (.inl he)) (fun he => listsAdd_once (fun e he => h e (.inr he)) e he)) (fun _ => rfl)

theorem delFromList_steps (hx : x.edits) (l : CList) (p c : Client) (ch : Chan) (pat : Str) (k : Nat) :
    CSteps x k s (delFromList s l p c ch pat) := by
  simp only [delFromList]
  split
  · exact .rfl'
  · refine CSteps.trans (.chSoft (c := ch.ref) ?_) (.same (core_sendListChange _ _ _ _ _ _ _))
    cases l
    · exact .edit hx (fun _ => ⟨rfl, rfl, rfl⟩) (fun _ => rfl) (fun _ h => h) (fun _ => rfl)
    · exact .edit hx (fun _ => ⟨rfl, rfl, rfl⟩) (fun _ => rfl) (fun _ h e he => he.elim
        (fun he => h e (.inl (listsDel_mem he))) (fun he => h e (.inr he))) (fun _ => rfl)
    · exact .edit hx (fun _ => ⟨rfl, rfl, rfl⟩) (fun _ => rfl) (fun _ h e he => he.elim
        (fun he => h e (.inl he)) (fun he => h e (.inr (listsDel_mem he)))) (fun _ => rfl)

/-- Steps of the loop, and the arguments still to come are among those given. -/
def CS (x : Ctx) (ch : Nat) (st st' : CModeSt) : Prop :=
  CSteps x ch st.s st'.s ∧ (st'.args = st.args ∨ st'.args = st.args.drop 1)

theorem CS.same {ch : Nat} {st st' : CModeSt} (h : st'.s.core = st.s.core) (ha : st'.args = st.args) :
    CS x ch st st' := ⟨.same h, .inl ha⟩

theorem CS.same1 {ch : Nat} {st st' : CModeSt} (h : st'.s.core = st.s.core)
    (ha : st'.args = st.args.drop 1) : CS x ch st st' := ⟨.same h, .inr ha⟩

theorem cmArgMode_steps {st : CModeSt} {cl o : Nat} {ch : Chan} {m : Char} {req : Request} {l : Str}
    (hx : x.edits) (hm : m ∈ l) (h : LoseP x st.s ch.ref l) : CS x ch.ref st (cmArgMode st cl o ch m req).1 := by
  simp only [cmArgMode]
  split
  · exact .same rfl rfl
  split
  · split
    · split
      · exact .same1 rfl rfl
      · exact .same rfl rfl
    · exact .same rfl rfl
  · split
    · split
      · exact .same rfl rfl
      · exact .same rfl rfl
    · rename_i a as hargs
      have h1 : CSteps x ch.ref st.s (channelModeDel st.s ch.ref m).1 := CSteps.chMode (set := false) hx hm h
      have hd : as = st.args.drop 1 := by rw [hargs]; rfl
      generalize (if m = 'k' then !a.isEmpty && !hasChar a ' '
        else decide (0 < atoi a) && decide (atoi a < 0xFFFF)) = valid
      cases valid
      · simp only [Bool.not_false, if_true]
        split
        · exact .same rfl rfl
        · exact .same rfl rfl
      · simp only [Bool.not_true, Bool.false_eq_true, if_false]
        cases st.rights.half
        · simp only [Bool.false_eq_true, if_false]
          exact .same1 rfl hd
        · simp only [if_true]
          refine ⟨h1.trans ?_, .inr hd⟩
          show CSteps x ch.ref _ (if m = 'k' then channelSetKey (channelModeDel st.s ch.ref m).fst ch.ref a
            else channelSetMaxUsers (channelModeDel st.s ch.ref m).fst ch.ref (atoi a).toNat)
          split
          · exact .chSoft (.edit hx (fun _ => ⟨rfl, rfl, rfl⟩) (fun _ => rfl) (fun _ h => h) (fun _ => rfl))
          · exact .chSoft (.edit hx (fun _ => ⟨rfl, rfl, rfl⟩) (fun _ => rfl) (fun _ h => h) (fun _ => rfl))

theorem cmMemberMode_steps {st : CModeSt} {o : Nat} {ch : Chan} {m : Char} :
    CS x ch.ref st (cmMemberMode st o ch m).1 := by
  simp only [cmMemberMode]
  split
  · exact .same rfl rfl
  · split
    · exact .same rfl rfl
    · rename_i a as hargs
      have hd : as = st.args.drop 1 := by rw [hargs]; rfl
      split
      · split
        · exact .same1 rfl hd
        · exact .same1 rfl hd
      · exact .same1 rfl hd

theorem cmListMode_steps {st : CModeSt} {cl o : Nat} {ch : Chan} {k : CList} (hx : x.edits) :
    CS x ch.ref st (cmListMode st cl o ch k).1 := by
  simp only [cmListMode]
  split
  · exact .same rfl rfl
  · split
    · exact .same (by simp) rfl
    · rename_i a as hargs
      have hd : as = st.args.drop 1 := by rw [hargs]; rfl
      split
      · refine ⟨?_, .inr hd⟩
        simp only
        split
        · exact addToList_steps hx _ _ _ _ _ _
        · exact delFromList_steps hx _ _ _ _ _ _
      · exact .same1 rfl hd

theorem cmSwitch_steps {st : CModeSt} {cl o : Nat} {ch : Chan} {m : Char} {req : Request} {l : Str}
    (hx : x.edits) (hm : m ∈ l) (h : LoseP x st.s ch.ref l) : CS x ch.ref st (cmSwitch st cl o ch m req).1 := by
  simp only [cmSwitch]
  split
  · exact .same rfl rfl
  split
  · split
    · exact .same rfl rfl
    · exact .same rfl rfl
  split
  · exact cmArgMode_steps hx hm h
  split
  · split
    · split
      · exact .same rfl rfl
      · exact .same rfl rfl
    · split
      · exact .same rfl rfl
      · exact .same rfl rfl
  split
  · exact cmMemberMode_steps
  split
  · exact cmListMode_steps hx
  split
  · exact cmListMode_steps hx
  split
  · exact cmListMode_steps hx
  split
  · exact .same rfl rfl
  · exact .same rfl rfl

theorem cmApply_steps {st : CModeSt} {o : Nat} {ch : Chan} {m : Char} {l : Str} (hx : x.edits) (hm : m ∈ l)
    (h : LoseP x st.s ch.ref l) (a : CAct) :
    CSteps x ch.ref st.s (cmApply st o ch m a).s ∧ (cmApply st o ch m a).args = st.args := by
  cases a with
  | exit => exact ⟨.rfl', rfl⟩
  | skip => exact ⟨.rfl', rfl⟩
  | chanMode add => exact ⟨.chMode hx hm h, rfl⟩
  | memberMode c =>
    simp only [cmApply]
    split
    · exact ⟨.same rfl, rfl⟩
    · generalize hr : (if st.set = true then userModeAdd st.s ch.ref c m
        else userModeDel st.s ch.ref c m) = r
      have := CSteps.mmode (x := x) (s := st.s) (ch := ch.ref) (c := ch.ref) (r := c) (m := m) (set := st.set) hx
      rw [hr] at this
      split
      · exact ⟨this, rfl⟩
      · exact ⟨this, rfl⟩

theorem cmChar_steps {st : CModeSt} {cl o : Nat} {ch : Chan} {m : Char} {req : Request} {l : Str}
    (hx : x.edits) (hm : m ∈ l) (h : LoseP x st.s ch.ref l) : CS x ch.ref st (cmChar st cl o ch m req).1 := by
  simp only [cmChar]
  split
  · split <;> exact .same rfl rfl
  · have h1 : CS x ch.ref st (cmSwitch { st with rights := collectRights st.s st.rights ch.ref cl } cl o ch m req).1 :=
      cmSwitch_steps (st := { st with rights := collectRights st.s st.rights ch.ref cl }) hx hm h
    generalize cmSwitch { st with rights := collectRights st.s st.rights ch.ref cl } cl o ch m req = r at h1
    obtain ⟨st', a⟩ := r
    have h2 := cmApply_steps (x := x) (o := o) hx hm (h.congr h1.1.2) a
    have h3 : CS x ch.ref st (cmApply st' o ch m a) := ⟨h1.1.trans h2.1, by rw [h2.2]; exact h1.2⟩
    cases a with
    | exit => exact h1
    | skip => exact h3
    | chanMode add => exact h3
    | memberMode c => exact h3

theorem cmLoop_steps {cl o : Nat} {ch : Chan} {req : Request} {l : Str} (n : Nat) (ptr : Str) (st : CModeSt)
    (hx : x.edits) (hp : ∀ m ∈ ptr, m ∈ l) (ha : ∀ a ∈ st.args, ∀ m ∈ a, m ∈ l) (h : LoseP x st.s ch.ref l) :
    CSteps x ch.ref st.s (cmLoop cl o ch req n ptr st).s := by
  induction n generalizing ptr st with
  | zero => cases ptr <;> exact .rfl'
  | succ n ih =>
    cases ptr with
    | nil =>
      simp only [cmLoop]
      split
      · exact .rfl'
      · rename_i a as hargs
        split
        · exact .same rfl
        · exact ih a { st with args := as } (ha a (by rw [hargs]; exact List.mem_cons_self))
            (fun b hb => ha b (by rw [hargs]; exact List.mem_cons_of_mem _ hb)) h
    | cons m ms =>
      have h1 := cmChar_steps (x := x) (st := st) (cl := cl) (o := o) (ch := ch) (req := req) hx (hp m List.mem_cons_self) h
      simp only [cmLoop]
      generalize cmChar st cl o ch m req = r at h1
      obtain ⟨st', b⟩ := r
      obtain ⟨h1, h2⟩ := h1
      cases b with
      | false => exact h1
      | true =>
        refine h1.trans (ih ms st' (fun m hm => hp m (List.mem_cons_of_mem _ hm)) ?_ (h.congr h1.2))
        intro a hmem
        rcases h2 with h2 | h2
        · rw [h2] at hmem; exact ha a hmem
        · rw [h2] at hmem; exact ha a (List.mem_of_mem_drop hmem)

theorem channelMode_steps {cl o : Nat} {ch : Chan} {req : Request}
    (hx : x.edits) (h : LoseP x s ch.ref (req.argv.drop 1).flatten) :
    CSteps x ch.ref s (channelMode s cl o ch req) := by
  simp only [channelMode]
  split
  · exact .same rfl
  · split
    · exact .same rfl
    · rename_i a rest hd
      rw [hd] at h
      split
      · exact .same rfl
      · refine CSteps.trans (cmLoop_steps (x := x) (l := (a :: rest).flatten) (ch := ch) _ _ { s := s, the := [if a.head? != some '-' then '+' else '-'], set := a.head? != some '-', rights := _, args := rest } hx ?_ ?_ h) (.same (core_cmFinish _ _ _ _))
        · intro m hm
          simp only [List.flatten_cons, List.mem_append]
          left
          split at hm
          · exact List.mem_of_mem_drop hm
          · exact hm
        · intro b hb m hm
          simp only [List.flatten_cons, List.mem_append, List.mem_flatten]
          exact .inr ⟨b, hb, hm⟩

end Ngircd
