import Verif.Lemmas.HChan
import Verif.Props.Hash

/-!
# Registration as runs of guarded actions
-/

set_option linter.unusedSimpArgs false

namespace Ngircd

variable {x : Ctx} {s t u : Srv}

/-! ## Small updates -/

theorem keeps_setUserC (conf : Conf) (u : Str) (b : Bool) : KeepsCl (fun c => setUserC conf c u b) := by
  intro c
  simp only [setUserC]
  repeat' split
  all_goals exact ⟨rfl, rfl, rfl, rfl, rfl, rfl, rfl, rfl⟩

theorem keeps_setInfoC (conf : Conf) (u : Str) : KeepsCl (fun c => setInfoC conf c u) := by
  intro c
  simp only [setInfoC]
  repeat' split
  all_goals exact ⟨rfl, rfl, rfl, rfl, rfl, rfl, rfl, rfl⟩

theorem keeps_setHostC (conf : Conf) (u : Str) : KeepsCl (fun c => setHostC conf c u) := by
  intro c
  simp only [setHostC]
  repeat' split
  all_goals exact ⟨rfl, rfl, rfl, rfl, rfl, rfl, rfl, rfl⟩

theorem setUserC_caps (conf : Conf) (c : Client) (u : Str) (b : Bool) : (setUserC conf c u b).caps = c.caps := by
  simp only [setUserC]; repeat' split
  all_goals rfl
theorem setInfoC_caps (conf : Conf) (c : Client) (u : Str) : (setInfoC conf c u).caps = c.caps := by
  simp only [setInfoC]; repeat' split
  all_goals rfl
theorem setHostC_caps (conf : Conf) (c : Client) (u : Str) : (setHostC conf c u).caps = c.caps := by
  simp only [setHostC]; repeat' split
  all_goals rfl

theorem Steps.setUser (r : Nat) (u : Str) (b : Bool) (h : (s.cl r).type ≠ .user ∨ x.peer) :
    Steps (Okay x) s (clientSetUser s r u b) :=
  .softCl ⟨keeps_setUserC _ _ _, .inl (fun _ => setUserC_caps _ _ _ _), .inr h⟩
theorem Steps.setInfo (r : Nat) (u : Str) (h : (s.cl r).type ≠ .user ∨ x.peer) : Steps (Okay x) s (clientSetInfo s r u) :=
  .softCl ⟨keeps_setInfoC _ _, .inl (fun _ => setInfoC_caps _ _ _), .inr h⟩
theorem Steps.setHost (r : Nat) (u : Str) (h : (s.cl r).type ≠ .user ∨ x.peer) : Steps (Okay x) s (clientSetHostname s r u) :=
  .softCl ⟨keeps_setHostC _ _, .inl (fun _ => setHostC_caps _ _ _), .inr h⟩

/-- A field no update of kind `KeepsCl` changes. -/
theorem keeps_cl {r : Nat} {f : Client → Client} (hf : KeepsCl f) (r' : Nat) :
    ((s.updCl r f).cl r').ref = (s.cl r').ref ∧ ((s.updCl r f).cl r').id = (s.cl r').id ∧
    ((s.updCl r f).cl r').type = (s.cl r').type ∧ ((s.updCl r f).cl r').conn = (s.cl r').conn :=
  ⟨cl_updCl_field Client.ref s r r' f (fun c => (hf c).1) (fun c => (hf c).1),
   cl_updCl_field Client.id s r r' f (fun c => (hf c).1) (fun c => (hf c).2.1),
   cl_updCl_field Client.type s r r' f (fun c => (hf c).1) (fun c => (hf c).2.2.2.1),
   cl_updCl_field Client.conn s r r' f (fun c => (hf c).1) (fun c => (hf c).2.2.2.2.1)⟩

theorem Steps.updConnOf {c : Client} {f : Conn → Conn}
    (hf : ∀ i, c.conn = some i → ConnOk x s i f) :
    Steps (Okay x) s (updConnOf s c f) := by
  simp only [Ngircd.updConnOf]
  split
  · rename_i i hi; exact .one (.conn _ f) (hf i hi) rfl
  · exact .rfl'

theorem updConnOf_clients (c : Client) (f : Conn → Conn) : (updConnOf s c f).clients = s.clients := by
  simp only [Ngircd.updConnOf]
  split <;> rfl

theorem cl_congr (h : t.clients = s.clients) (r : Nat) : t.cl r = s.cl r := by
  simp only [Srv.cl, Srv.cl?, h]

/-- `this` never changes. -/
theorem act_this (a : Act) (s : Srv) : (a.run s).this = s.this := by
  have hadj : ∀ (s : Srv) c, (adjustCounters s c).this = s.this := by
    intro s c; obtain ⟨_, _, h⟩ := adjustCounters_eq s c; rw [h]
  cases a <;> simp only [Act.run]
  case umode => split <;> rfl
  case setType => simp only [clientSetType]; rw [hadj]; rfl
  case newCl => simp only [initNewClient]; rw [hadj]
  case newLocal => simp only [initNewClient]; rw [hadj]
  case destroy => simp only [dropConn]; exact (destroySelf_fields _ _ _ _).2.2.2.2.1
  case whowas c => obtain ⟨_, _, h⟩ := registerWhowas_eq s c; rw [h]
  case remove => simp only [deleteIfEmpty]; split <;> rfl
  case chMode => split <;> rfl
  case mmode => split <;> rfl
  all_goals rfl

theorem Steps.this_eq {P : Srv → Act → Prop} (h : Steps P s t) : t.this = s.this :=
  h.inv (I := fun t => t.this = s.this) (fun _ _ hc hi => (core_this hc).trans hi)
    (fun _ a hi _ => (act_this a _).trans hi) rfl

/-! ## Types -/

theorem setType_cl (r : Nat) (ty : CType) (r' : Nat) :
    ((clientSetType s r ty).cl r').id = (s.cl r').id ∧ ((clientSetType s r ty).cl r').conn = (s.cl r').conn ∧
    ((clientSetType s r ty).cl r').ref = (s.cl r').ref := by
  have h : (clientSetType s r ty).clients = (s.updCl r (fun c =>
    if ty = .server then { c with type := ty, mytoken := genMyToken s } else { c with type := ty })).clients := by
    simp only [clientSetType, adjustCounters_clients]
  rw [cl_congr h]
  exact ⟨cl_updCl_field Client.id s r r' _ (fun c => by split <;> rfl) (fun c => by split <;> rfl),
    cl_updCl_field Client.conn s r r' _ (fun c => by split <;> rfl) (fun c => by split <;> rfl),
    cl_updCl_field Client.ref s r r' _ (fun c => by split <;> rfl) (fun c => by split <;> rfl)⟩

theorem setType_type {r : Nat} (ty : CType) (h : (s.cl? r).isSome = true) :
    ((clientSetType s r ty).cl r).type = ty := by
  have h' : (clientSetType s r ty).clients = (s.updCl r (fun c =>
    if ty = .server then { c with type := ty, mytoken := genMyToken s } else { c with type := ty })).clients := by
    simp only [clientSetType, adjustCounters_clients]
  rw [cl_congr h', cl_updCl s r r _ (fun c => by split <;> rfl) (fun _ => h), if_pos rfl]
  split <;> rfl

theorem cl?_isSome_of_conn {r : Nat} (h : (s.cl r).conn.isSome = true) : (s.cl? r).isSome = true := by
  cases hf : s.cl? r with
  | none => simp [Srv.cl, hf, noClient] at h
  | some c => rfl

/-- The conditions under which a local client may change its type. -/
theorem Steps.setLocal {r : Nat} {ty : CType} (hb : Base s) (hc : (s.cl r).conn.isSome = true)
    (hty : ty ≠ .service) (h : (r = x.cl ∧ LocalType x s r ty) ∨ x.bad) :
    Steps (Okay x) s (clientSetType s r ty) :=
  .one (.setType r ty) ⟨hb.ne_this hc, fun _ => ⟨hty, h⟩, fun hn => by rw [hn] at hc; simp at hc⟩ rfl

theorem Steps.setRemote {r : Nat} {ty : CType} (hne : r ≠ s.this) (hc : (s.cl r).conn = none)
    (hp : x.peer)
    (h : ((ty = .user ∨ ty = .service ∨ (ty = .gotNick ∧ ∀ m ∈ s.cl2, m.client ≠ r)) ∧
          (s.cl r).type ≠ .server) ∨ x.bad) :
    Steps (Okay x) s (clientSetType s r ty) :=
  .one (.setType r ty) ⟨hne, fun hs => by rw [hc] at hs; simp at hs, fun _ => ⟨hp, h⟩⟩ rfl

/-- A remote user or service is introduced to the others. -/
theorem clientIntroduce_remote {f r : Nat} {ty : CType} (hne : r ≠ s.this)
    (hc : (s.cl r).conn = none) (hm : (s.cl? r).isSome = true) (hp : x.peer)
    (hty : ty = .user ∨ ty = .service) (hns : (s.cl r).type ≠ .server ∨ x.bad) :
    Steps (Okay x) s (clientIntroduce s (some f) r ty) := by
  simp only [clientIntroduce]
  have h1 : Steps (Okay x) s (clientSetType s r ty) := by
    refine .setRemote hne hc hp ?_
    rcases hns with h | h
    · exact .inl ⟨hty.elim .inl (fun h => .inr (.inl h)), h⟩
    · exact .inr h
  have hty' := setType_type (s := s) ty hm
  have hcl := setType_cl (s := s) r ty r
  have hth := h1.this_eq
  generalize clientSetType s r ty = s1 at *
  split
  · refine h1.trans ?_
    refine Steps.congr_right (t := clientSetType s1 r .service) ?_ rfl
    refine .setRemote (by rw [hth]; exact hne) (hcl.2.1.trans hc) hp (.inl ⟨.inr (.inl rfl), ?_⟩)
    rw [hty']; rcases hty with h | h <;> rw [h] <;> decide
  · exact h1.congr_right rfl

/-! ## Logging in -/

theorem listsCheckReason_none {l : MaskList} {m : ClientMasks} (h : (listsCheckReason l m).2 = none) :
    (listsCheckReason l m).1 = l := by
  induction l with
  | nil => rfl
  | cons e l ih =>
    simp only [listsCheckReason] at h ⊢
    split at h
    · cases h
    · rename_i hm
      rw [if_neg hm]
      simp only
      rw [ih h]

theorem handleServerBans_true {r : Nat} {s' : Srv} (h : handleServerBans s r = (s', true)) :
    s' = s ∧ NotBanned s r := by
  simp only [handleServerBans] at h
  split at h
  · cases h
  · rename_i h1
    split at h
    · cases h
    · rename_i h2
      injection h with h _
      rw [listsCheckReason_none h1, listsCheckReason_none h2] at h
      exact ⟨h.symm, h1, h2⟩

theorem autojoinLoop_steps {cl : Nat} (l : List ConfChannel) (s : Srv) (hb : Base s)
    (hj : Joiner x s cl) (hu : (s.cl cl).type = .user) : KSteps x s (autojoinLoop cl l s) := by
  induction l generalizing s with
  | nil => exact .rfl'
  | cons ch l ih =>
    simp only [autojoinLoop]
    generalize hs1 : (if ch.autojoin && (channelSearch s ch.name).isSome then
      (ircJOIN s cl ⟨some (s.cl s.this).ID, "JOIN".toList, [ch.name]⟩).1 else s) = s1
    have h1 : KSteps x s s1 := by
      rw [← hs1]
      split
      · refine ircJOIN_steps hb ?_ (.inl (fun hs => by rw [hu] at hs; cases hs))
        intro r hr
        rcases getSender_ok hr with ⟨_, rfl⟩ | ⟨h2, _⟩
        · exact hj
        · rw [hu] at h2; cases h2
      · exact .rfl'
    exact h1.trans (ih s1 (h1.1.base hb) (hj.congr h1.2.1) (by rw [h1.cl]; exact hu))

theorem mem_strlcpy {n : Nat} {a : Str} {c : Char} (h : c ∈ strlcpy n a) : c ∈ a :=
  List.mem_of_mem_take h

theorem loginPostAuth_steps {cl : Nat} (hb : Base s) (hc : (s.cl cl).conn.isSome = true)
    (hx : x.cl = cl) (hfrom : LoginFrom x (s.cl cl).type (s.cl cl).id)
    (hap : s.conf.authPing = true → authPingOf s (s.cl cl) = 0)
    (hcap : (s.cl cl).caps.pending = false) (hpw : passwordOf s (s.cl cl) = s.conf.serverPwd)
    (hdef : x.loose ∨ 'P' ∉ s.conf.defaultUserModes) (hfr : x.fresh) (hnp : ¬ x.peer) :
    Steps (Okay x) s (loginPostAuth s cl).1 := by
  simp only [loginPostAuth]
  have hbans := Steps.handleServerBans (x := x) hb cl (self_may hx)
  generalize hr : handleServerBans s cl = r at hbans
  obtain ⟨s0, b⟩ := r
  cases b with
  | false => exact hbans
  | true =>
    obtain ⟨rfl, hban⟩ := handleServerBans_true hr
    simp only
    -- the type
    have h1 : Steps (Okay x) s0 (clientIntroduce s0 none cl .user) := by
      simp only [clientIntroduce]
      exact (Steps.setLocal (ty := .user) (x := x) hb hc (by decide) (.inl ⟨hx.symm, hfrom, ⟨hap, hcap, hpw, hban⟩, hfr, hnp⟩)).congr_right rfl
    have hkeep : ∀ r', ((clientIntroduce s0 none cl .user).cl r') = (clientSetType s0 cl .user).cl r' :=
      fun r' => rfl
    have hconf : (clientIntroduce s0 none cl .user).conf = s0.conf := by
      show (clientSetType s0 cl .user).conf = _
      simp only [clientSetType]
      obtain ⟨_, _, h⟩ := adjustCounters_eq (s0.updCl cl fun c =>
        if CType.user = .server then { c with type := .user, mytoken := genMyToken s0 } else { c with type := .user })
        ((s0.updCl cl fun c => if CType.user = .server then { c with type := .user, mytoken := genMyToken s0 }
          else { c with type := .user }).cl cl)
      rw [h]; rfl
    have hty : ((clientIntroduce s0 none cl .user).cl cl).type = .user := by
      rw [hkeep]; exact setType_type _ (cl?_isSome_of_conn hc)
    have hcn : ((clientIntroduce s0 none cl .user).cl cl).conn.isSome = true := by
      rw [hkeep, (setType_cl cl .user cl).2.1]; exact hc
    generalize clientIntroduce s0 none cl .user = s1 at *
    have hw : (welcome s1 (s1.cl cl)).core = s1.core := core_welcome _ _
    have h2 : Steps (Okay x) s0 (welcome s1 (s1.cl cl)) := h1.congr_right hw
    have hb2 := h2.base hb
    have hconf2 : (welcome s1 (s1.cl cl)).conf = s0.conf := (core_conf hw).trans hconf
    have hty2 : ((welcome s1 (s1.cl cl)).cl cl).type = .user := by rw [core_cl hw]; exact hty
    have hcn2 : ((welcome s1 (s1.cl cl)).cl cl).conn.isSome = true := by rw [core_cl hw]; exact hcn
    generalize welcome s1 (s1.cl cl) = s2 at *
    -- the default modes
    generalize hs3 : (if s2.conf.defaultUserModes.isEmpty then s2
      else (ircMODE s2 cl ⟨some (s2.cl s2.this).ID, "MODE".toList,
        [(s2.cl cl).ID, strlcpy 22 ('+' :: s2.conf.defaultUserModes)]⟩).1) = s3
    have h3 : Steps (Okay x) s2 s3 ∧ SameId s2 s3 := by
      rw [← hs3]
      split
      · exact ⟨.rfl', .rfl'⟩
      · refine ircMODE_gen (l := s2.conf.defaultUserModes) ?_ ?_ (fun _ _ _ => .inr (.inr (.inr (.inl hfr)))) ?_
        · intro m hm
          simp only [List.drop_succ_cons, List.drop_zero, List.flatten_cons, List.flatten_nil,
            List.append_nil] at hm
          have : m ∈ ('+' :: s2.conf.defaultUserModes).drop 1 := by
            simp only [strlcpy] at hm
            rw [List.drop_take] at hm
            exact List.mem_of_mem_take hm
          exact this
        · intro cl' o t _ _ _ hts _
          refine ⟨.inr (.inr ⟨hfr, fun m hm => hm, ?_⟩)⟩
          rw [hx]
          have : clientSearch s2 (s2.cl cl).ID = some t := hts
          rw [this]; rfl
        · intro ch _
          rw [hconf2]
          rcases hdef with h | h
          · exact .inl h
          · refine .inr (.inr ?_)
            simp only [List.drop_succ_cons, List.drop_zero, List.flatten_cons, List.flatten_nil,
              List.append_nil]
            intro hm
            rcases List.mem_cons.1 (mem_strlcpy hm) with h' | h'
            · revert h'; decide
            · exact h h'
    have hb3 := h3.1.base hb2
    have hty3 : (s3.cl cl).type = .user := by rw [(h3.2.2.1 cl).1]; exact hty2
    have hm3 := mem_of_type (s := s3) (r := cl) (by rw [hty3]; decide)
    refine h2.trans (h3.1.trans ?_)
    exact (autojoinLoop_steps _ s3 hb3 ⟨⟨_, hm3.1, hm3.2⟩, hm3.2, .inl (.inl hty3), .inr ⟨hx.symm, .inr hfr⟩⟩ hty3).1

theorem loginUser_steps {cl : Nat} (hb : Base s) (hc : (s.cl cl).conn.isSome = true)
    (hx : x.cl = cl) (hfrom : LoginFrom x (s.cl cl).type (s.cl cl).id)
    (hdef : x.loose ∨ 'P' ∉ s.conf.defaultUserModes) (hfr : x.fresh) (hnp : ¬ x.peer) :
    Steps (Okay x) s (loginUser s cl).1 := by
  simp only [loginUser]
  split
  · exact .setLocal hb hc (by decide) (.inl ⟨hx.symm, hfrom⟩)
  · rename_i h1
    split
    · exact .setLocal hb hc (by decide) (.inl ⟨hx.symm, hfrom⟩)
    · rename_i h2
      split
      · exact .clientReject hb _ (self_may hx) _ _
      · rename_i h3
        refine loginPostAuth_steps hb hc hx hfrom ?_ (by simpa using h2) (by simpa using h3) hdef hfr hnp
        intro ha
        simpa [ha] using h1

end Ngircd
