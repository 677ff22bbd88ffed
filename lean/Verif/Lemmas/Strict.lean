import Verif.Lemmas.Step

/-!
# Invariants of all reachable states: names, tokens, modes, introducers
-/

set_option linter.unusedSimpArgs false

namespace Ngircd

variable {x : Ctx} {s t u : Srv}

/-- Only one action changes the configuration. -/
theorem run_conf (t : Srv) {a : Act} (hc : ¬ ∃ c, a = .conf c) : (a.run t).conf = t.conf := by
  cases a with
  | conf c => exact absurd ⟨c, rfl⟩ hc
  | umode r m set => simp only [Act.run]; split <;> rfl
  | setType r ty =>
    simp only [Act.run, clientSetType]
    generalize hu : (t.updCl r fun c => if ty = .server then { c with type := ty, mytoken := genMyToken t } else { c with type := ty }) = u
    obtain ⟨_, _, h⟩ := adjustCounters_eq u (u.cl r)
    rw [h, ← hu]; rfl
  | newCl c =>
    simp only [Act.run, initNewClient]
    obtain ⟨_, _, h⟩ := adjustCounters_eq { t with clients := c :: t.clients, nextRef := t.nextRef + 1 } c
    rw [h]
  | newLocal c k =>
    simp only [Act.run, initNewClient]
    obtain ⟨_, _, h⟩ := adjustCounters_eq { t with clients := c :: t.clients, nextRef := t.nextRef + 1 } c
    rw [h]
  | destroy c =>
    have := destroySelf_core t c none false
    show (destroySelf t c none false).conf = _
    rw [core_conf this]
    split
    · obtain ⟨a, b, h1⟩ := quitAll_eq (dropCl t c.ref) c.ref t.chans
      obtain ⟨a', b', h2⟩ := registerWhowas_eq (quitAll (dropCl t c.ref) c.ref t.chans) c
      rw [h2, h1]; rfl
    · rfl
  | whowas c =>
    obtain ⟨a', b', h2⟩ := registerWhowas_eq t c
    simp only [Act.run]; rw [h2]
  | remove ch r => simp only [Act.run, deleteIfEmpty]; split <;> rfl
  | chMode ch m set => simp only [Act.run]; split <;> rfl
  | mmode ch r m set => simp only [Act.run]; split <;> rfl
  | _ => rfl

theorem destroy_conf (t : Srv) (c : Client) : ((Act.destroy c).run t).conf = t.conf := run_conf t (by simp)

/-- To show that something holds in all reachable states, look at the actions. -/
theorem reach_inv {C : Conf → Prop} {P : Srv → Event → Prop} {I : Srv → Prop} {bad loose : Prop}
    (hpol : ∀ s e, P s e → bad ∨ Spec.PoliteEvent s e)
    (htidy : loose ∨ ((∀ s e, P s e → Spec.TidyEvent s e) ∧ ∀ c, C c → Spec.TidyConf c))
    (hcore : ∀ s t : Srv, t.core = s.core → I s → I t)
    (hact : ∀ x t a, (x.bad → bad) → (x.loose → loose) → Base t → I t → Okay x t a → I (a.run t))
    (hinit : ∀ conf host now, C conf → I (clientInit conf host now))
    (h : Spec.ReachableWith C P s) : I s := by
  have key : ∀ x : Ctx, (x.bad → bad) → (x.loose → loose) → ∀ s t, Base s →
      Steps (Okay x) s t → I s ∧ (loose ∨ Spec.TidyConf s.conf) → I t ∧ (loose ∨ Spec.TidyConf t.conf) := by
    intro x hb hl s t hbase hst hI
    have := (hst.and_inv (I := Base) (fun _ _ hc hi => hi.of_core hc) (fun _ _ hi hp => hi.act hp) hbase).1
    refine this.inv (I := fun t => I t ∧ (loose ∨ Spec.TidyConf t.conf)) ?_ ?_ hI
    · intro s t hc hi
      refine ⟨hcore s t hc hi.1, ?_⟩
      rw [core_conf hc]; exact hi.2
    · intro t a hi hp
      refine ⟨hact x t a hb hl hp.1 hi.1 hp.2, ?_⟩
      have hconf : ∀ c, a = .conf c → loose ∨ Spec.TidyConf (a.run t).conf := by
        rintro c rfl
        rcases hp.2.2.2.2 with h | h | h
        · exact .inr h
        · exact .inl (hl h)
        · rcases hi.2 with h' | h'
          · exact .inl h'
          · refine .inr ?_
            show Spec.TidyConf c
            unfold Spec.TidyConf
            rw [h.1, h.2]; exact h'
      by_cases hc : ∃ c, a = .conf c
      · obtain ⟨c, hc⟩ := hc; exact hconf c hc
      · have : (a.run t).conf = t.conf := by
          exact run_conf t hc
        rw [this]; exact hi.2
  have main : I s ∧ (loose ∨ Spec.TidyConf s.conf) := by
    induction h with
    | init conf host now hC =>
      have hb := clientInit_base conf host now
      have ht : loose ∨ Spec.TidyConf conf := htidy.imp id (fun h => h.2 conf hC)
      refine key { bad := bad, loose := loose, newConf := some conf } id id _ _ hb
        (channelInitPredefined_steps rfl hb (ht.imp id (fun h => h.2))) ⟨hinit _ _ _ hC, ht⟩
    | step e hs hf hP ih =>
      have hb := (hs.reachable).base
      refine key (evCtx _ e bad loose) ?_ ?_ _ _ hb (step_steps hb (hpol _ _ hP)
        (htidy.imp id (fun h => h.1 _ _ hP)) (ih.2.imp id (fun h => h.1))) ih
      · intro h
        cases e with
        | line i rnd l =>
          simp only [evCtx] at h; split at h <;> exact h
        | _ => exact h
      · intro h
        cases e with
        | line i rnd l =>
          simp only [evCtx] at h; split at h <;> exact h
        | _ => exact h
  exact main.1

theorem Reachable.with (h : Reachable s) : Spec.ReachableWith (fun _ => True) (fun _ _ => True) s := by
  induction h with
  | init conf host now => exact .init conf host now trivial
  | step e _ hf ih => exact .step e ih hf trivial

/-- Invariants that hold whatever the peers do. -/
theorem reach_inv_all {I : Srv → Prop}
    (hcore : ∀ s t : Srv, t.core = s.core → I s → I t)
    (hact : ∀ x t a, Base t → I t → Okay x t a → I (a.run t))
    (hinit : ∀ conf host now, I (clientInit conf host now))
    (h : Reachable s) : I s :=
  reach_inv (bad := True) (loose := True) (fun _ _ _ => .inl trivial) (.inl trivial) hcore
    (fun x t a _ _ hb hi hp => hact x t a hb hi hp) (fun c h n _ => hinit c h n) h.with

/-! ## How the actions change the tables -/

/-- The action changes the list of clients. -/
def Act.onClients : Act → Bool
  | .soft _ _ | .umode _ _ _ | .setId _ _ | .setType _ _ | .setIntro _ _ | .newCl _ | .newLocal _ _
  | .destroy _ => true
  | _ => false

theorem run_clients {a : Act} (h : a.onClients = false) (t : Srv) : (a.run t).clients = t.clients := by
  cases a with
  | remove ch r => simp only [Act.run, deleteIfEmpty]; split <;> rfl
  | whowas c =>
    obtain ⟨a', b', h2⟩ := registerWhowas_eq t c
    simp only [Act.run]; rw [h2]
  | chMode ch m set => simp only [Act.run]; split <;> rfl
  | mmode ch r m set => simp only [Act.run]; split <;> rfl
  | soft | umode | setId | setType | setIntro | newCl | newLocal | destroy => cases h
  | _ => rfl

/-- A change of a user mode. -/
def umodeC (m : Char) (set : Bool) (c : Client) : Client :=
  { c with modes := if set then (modeAdd c.modes m).1 else (modeDel c.modes m).1 }

/-- A change of the type. -/
def typeC (t : Srv) (ty : CType) (c : Client) : Client :=
  if ty = .server then { c with type := ty, mytoken := genMyToken t } else { c with type := ty }

theorem umode_clients (t : Srv) (r : Nat) (m : Char) (set : Bool) :
    ((Act.umode r m set).run t).clients = (t.updCl r (umodeC m set)).clients := by
  simp only [Act.run]
  cases set <;> rfl

theorem setType_clients (t : Srv) (r : Nat) (ty : CType) :
    ((Act.setType r ty).run t).clients = (t.updCl r (typeC t ty)).clients := by
  simp only [Act.run, clientSetType]
  exact adjustCounters_clients _ _

theorem newCl_clients (t : Srv) (c : Client) : ((Act.newCl c).run t).clients = c :: t.clients := by
  simp only [Act.run, initNewClient]
  exact adjustCounters_clients _ _

theorem newLocal_clients (t : Srv) (c : Client) (k : Conn) :
    ((Act.newLocal c k).run t).clients = c :: t.clients := by
  simp only [Act.run, initNewClient]
  exact adjustCounters_clients _ _

theorem cl?_map_of_ref {l : List Client} {f : Client → Client} (hf : ∀ c, (f c).ref = c.ref) (r : Nat) :
    (l.map f).find? (fun c => c.ref == r) = (l.find? (fun c => c.ref == r)).map f := by
  rw [List.find?_map]
  congr 1
  congr 1
  funext c
  simp [hf]

/-! ## Names -/

/-- The parts of the configuration that matter for names. -/
def Conf.names (c : Conf) : Nat × List ConfServer := (c.maxNickLength, c.servers)

/-- All names are proper and different. -/
structure NameInv (s : Srv) : Prop where
  good : ∀ c ∈ s.clients, c.id = [] ∨ GoodName c.id
  hash : ∀ c ∈ s.clients, c.id = [] → c.hash = 0
  uniq : s.clients.Pairwise (fun a b => a.id ≠ [] → caseEq a.id b.id = false)
  nick : s.conf.names.1 ≤ CLIENT_NICK_LEN ∧ ∀ cs ∈ s.conf.names.2, GoodName cs.name

theorem caseEq_symm_false {a b : Str} (h : caseEq a b = false) : caseEq b a = false := by
  cases hb : caseEq b a with
  | false => rfl
  | true => rw [caseEq_comm] at hb; rw [hb] at h; cases h

theorem isValidNick_good {n : Nat} {id : Str} (hn : n ≤ CLIENT_NICK_LEN) (h : isValidNick n id = true) :
    GoodName id := by
  cases id with
  | nil => simp [isValidNick] at h
  | cons c l =>
    simp only [isValidNick, Bool.and_eq_true] at h
    obtain ⟨⟨_, h2⟩, h3⟩ := h
    refine ⟨by simp, ?_, ?_⟩
    · intro hm
      have := List.all_eq_true.1 h3 _ hm
      revert this; decide
    · have := of_decide_eq_true h2
      simp only [CLIENT_NICK_LEN, CLIENT_ID_LEN] at *
      omega

theorem GoodName.recase {a b : Str} (h : GoodName a) (he : caseEq a b = true) (hb : b ≠ []) : GoodName b := by
  have hl := (caseEq_iff a b).1 he
  refine ⟨hb, ?_, ?_⟩
  · intro hm
    apply h.2.1
    have : toLower '!' ∈ lowerStr b := List.mem_map_of_mem hm
    rw [← hl] at this
    obtain ⟨c, hc, hc'⟩ := List.mem_map.1 this
    have : c = '!' := by
      have h2 : toLower '!' = '!' := by decide
      rw [h2] at hc'
      apply Char.toNat_inj.1
      have h3 := toLower_toNat c
      rw [hc'] at h3
      have h4 : ('!' : Char).toNat = 33 := rfl
      rw [h4] at h3 ⊢
      split at h3 <;> omega
    rwa [this] at hc
  · have : (lowerStr a).length = (lowerStr b).length := by rw [hl]
    simp only [lowerStr, List.length_map] at this
    rw [← this]; exact h.2.2


theorem NameInv.of_eq (hi : NameInv s) (h1 : t.clients = s.clients)
    (h2 : t.conf.names = s.conf.names) : NameInv t := by
  obtain ⟨a, b, c, d⟩ := hi
  constructor <;> simp only [h1, h2] <;> assumption

theorem NameInv.keep {r : Nat} {f : Client → Client} (hi : NameInv s)
    (hf : ∀ c, (f c).id = c.id ∧ (f c).hash = c.hash)
    (h1 : t.clients = (s.updCl r f).clients) (h2 : t.conf.names = s.conf.names) : NameInv t := by
  have hid : ∀ c : Client, (if c.ref = r then f c else c).id = c.id := by
    intro c; split
    · exact (hf c).1
    · rfl
  have hha : ∀ c : Client, (if c.ref = r then f c else c).hash = c.hash := by
    intro c; split
    · exact (hf c).2
    · rfl
  refine ⟨?_, ?_, ?_, by rw [h2]; exact hi.nick⟩
  · rw [h1]; intro c hc
    obtain ⟨d, hd, rfl⟩ := mem_updCl.1 hc
    rw [hid]; exact hi.good d hd
  · rw [h1]; intro c hc
    obtain ⟨d, hd, rfl⟩ := mem_updCl.1 hc
    rw [hid, hha]; exact hi.hash d hd
  · rw [h1]
    refine List.pairwise_map.2 (hi.uniq.imp ?_)
    intro a b hab
    rw [hid, hid]; exact hab

theorem NameInv.cons {c : Client} (hi : NameInv s) (hg : GoodName c.id ∧ NameFree s c.id ∨ c.id = [] ∧ c.hash = 0)
    (h1 : t.clients = c :: s.clients) (h2 : t.conf.names = s.conf.names) : NameInv t := by
  refine ⟨?_, ?_, ?_, by rw [h2]; exact hi.nick⟩
  · rw [h1]; intro d hd
    rcases List.mem_cons.1 hd with rfl | hd
    · exact hg.elim (fun h => .inr h.1) (fun h => .inl h.1)
    · exact hi.good d hd
  · rw [h1]; intro d hd
    rcases List.mem_cons.1 hd with rfl | hd
    · exact fun he => hg.elim (fun h => absurd he h.1.1) (fun h => h.2)
    · exact hi.hash d hd
  · rw [h1]
    refine List.pairwise_cons.2 ⟨fun d hd hne => ?_, hi.uniq⟩
    rcases hg with h | h
    · exact caseEq_symm_false (h.2 d hd)
    · exact absurd h.1 hne

theorem caseEq_nil_left {b : Str} (hb : b ≠ []) : caseEq [] b = false := by
  cases h : caseEq [] b with
  | false => rfl
  | true =>
    have := (caseEq_iff [] b).1 h
    exact absurd (by simpa [lowerStr] using this.symm) hb

theorem caseEq_refl' (a : Str) : caseEq a a = true := (caseEq_iff a a).2 rfl

theorem caseEq_trans_false {a b c : Str} (h : caseEq a b = true) (hc : caseEq a c = false) : caseEq b c = false := by
  cases hb : caseEq b c with
  | false => rfl
  | true =>
    have := (caseEq_iff a c).2 (((caseEq_iff a b).1 h).trans ((caseEq_iff b c).1 hb))
    rw [hc] at this; cases this

/-- Two clients with the same name are the same. -/
theorem NameInv.inj (hi : NameInv s) {a b : Client} (ha : a ∈ s.clients) (hb : b ∈ s.clients)
    (hne : a.id ≠ []) (he : caseEq a.id b.id = true) : a = b := by
  have hbn : b.id ≠ [] := by
    intro h
    rw [h, caseEq_comm, caseEq_nil_left hne] at he
    cases he
  have h := hi.uniq
  generalize s.clients = l at ha hb h
  induction l with
  | nil => cases ha
  | cons x l ih =>
    obtain ⟨h1, h2⟩ := List.pairwise_cons.1 h
    rcases List.mem_cons.1 ha with rfl | ha'
    · rcases List.mem_cons.1 hb with rfl | hb'
      · rfl
      · rw [h1 b hb' hne] at he; cases he
    · rcases List.mem_cons.1 hb with rfl | hb'
      · rw [caseEq_symm_false (h1 a ha' hbn)] at he; cases he
      · exact ih ha' hb' h2

theorem NameInv.rename {r : Nat} {id : Str} (hb : Base s) (hi : NameInv s) (hg : GoodName id)
    (hfree : ∀ c ∈ s.clients, c.ref ≠ r → caseEq c.id id = false) : NameInv (clientSetID s r id) := by
  have hcp : strlcpy CLIENT_ID_LEN id = id := strlcpy_of_lt hg.2.2
  refine ⟨?_, ?_, ?_, hi.nick⟩
  · intro c hc
    obtain ⟨d, hd, rfl⟩ := mem_updCl.1 hc
    split
    · rw [setIdC_id, hcp]; exact .inr hg
    · exact hi.good d hd
  · intro c hc
    obtain ⟨d, hd, rfl⟩ := mem_updCl.1 hc
    split
    · rw [setIdC_id, hcp]; exact fun h => absurd h hg.1
    · exact hi.hash d hd
  · refine List.pairwise_map.2 ((hi.uniq.and hb.cl.ord).imp_of_mem ?_)
    rintro a b ha hb' ⟨hab, hlt⟩
    by_cases h1 : a.ref = r
    · rw [if_pos h1, if_neg (by omega), setIdC_id, hcp]
      intro _
      exact caseEq_symm_false (hfree b hb' (by omega))
    · rw [if_neg h1]
      by_cases h2 : b.ref = r
      · rw [if_pos h2, setIdC_id, hcp]
        exact fun _ => hfree a ha h1
      · rw [if_neg h2]; exact hab

theorem NameInv.act {a : Act} (hbad : ¬ x.bad) (hb : Base t) (hi : NameInv t) (hp : Okay x t a) :
    NameInv (a.run t) := by
  cases a with
  | soft r f => exact hi.keep (fun c => ⟨(hp.keeps c).2.1, (hp.keeps c).2.2.1⟩) rfl rfl
  | umode r m set =>
    exact hi.keep (f := umodeC m set) (fun c => ⟨rfl, rfl⟩) (umode_clients t r m set) (by simp only [Act.run]; split <;> rfl)
  | setId r id =>
    obtain ⟨hne, h, _⟩ := hp
    rcases h with h | h | h | h
    · have hg := isValidNick_good hi.nick.1 h.1
      exact hi.rename hb hg (fun c hc _ => nameFree_of_search hb hg h.2 c hc)
    · by_cases hm : (∃ c ∈ t.clients, c.ref = r)
      · obtain ⟨c, hc, hr⟩ := hm
        have hcl := cl_of_mem' hb.cl.ord hc hr
        rw [hcl] at h
        have hcn : c.id ≠ [] := by
          intro he; rw [he, caseEq_nil_left h.2] at h; cases h.1
        have hg := ((hi.good c hc).resolve_left hcn).recase h.1 h.2
        refine hi.rename hb hg (fun d hd hdr => ?_)
        cases hde : caseEq d.id id with
        | false => rfl
        | true =>
          exfalso; apply hdr
          have : caseEq c.id d.id = true := (caseEq_iff _ _).2 (((caseEq_iff _ _).1 h.1).trans ((caseEq_iff _ _).1 hde).symm)
          rw [← hi.inj hc hd hcn this]; exact hr
      · have : (Act.setId r id).run t = t := by
          show t.updCl r _ = t
          unfold Srv.updCl
          have : t.clients.map (fun c => if c.ref = r then setIdC t.conf c id else c) = t.clients := by
            conv => rhs; rw [← List.map_id t.clients]
            refine List.map_congr_left (fun c hc => ?_)
            rw [if_neg (fun h => hm ⟨c, hc, h⟩)]; rfl
          rw [this]
        rw [this]; exact hi
    · refine hi.rename hb ?_ (fun c hc _ => h.2.1 c hc)
      obtain ⟨cs, hcs, he⟩ := h.1
      have hg := hi.nick.2 cs hcs
      refine hg.recase (by rw [caseEq_comm]; exact he) ?_
      rintro rfl
      rw [caseEq_nil_left hg.1] at he; cases he
    · exact absurd h hbad
  | setType r ty =>
    refine hi.keep (f := typeC t ty) (fun c => ?_) (setType_clients t r ty) ?_
    · unfold typeC; split <;> exact ⟨rfl, rfl⟩
    · simp only [Act.run, clientSetType]
      generalize hu : (t.updCl r fun c => if ty = .server then { c with type := ty, mytoken := genMyToken t } else { c with type := ty }) = u
      obtain ⟨_, _, h⟩ := adjustCounters_eq u (u.cl r)
      rw [h, ← hu]; rfl
  | setIntro r tok =>
    exact hi.keep (r := r) (f := fun c => { c with introducer := r, token := tok }) (fun c => ⟨rfl, rfl⟩) rfl rfl
  | newCl c =>
    have hn := hp.2.2.2.2.2.2.2.1.resolve_right hbad
    refine hi.cons (.inl ⟨hn.1, hn.2.1⟩) (newCl_clients t c) ?_
    simp only [Act.run, initNewClient]
    obtain ⟨_, _, h⟩ := adjustCounters_eq { t with clients := c :: t.clients, nextRef := t.nextRef + 1 } c
    rw [h]
  | newLocal c k =>
    refine hi.cons (.inr ⟨hp.2.1, hp.2.2.1⟩) (newLocal_clients t c k) ?_
    simp only [Act.run, initNewClient]
    obtain ⟨_, _, h⟩ := adjustCounters_eq { t with clients := c :: t.clients, nextRef := t.nextRef + 1 } c
    rw [h]
  | destroy c =>
    have h1 := destroy_run_clients t c
    have h2 : ((Act.destroy c).run t).conf = t.conf := destroy_conf t c
    refine ⟨?_, ?_, ?_, by rw [h2]; exact hi.nick⟩
    · rw [h1]; exact fun d hd => hi.good d (List.mem_filter.1 hd).1
    · rw [h1]; exact fun d hd => hi.hash d (List.mem_filter.1 hd).1
    · rw [h1]; exact hi.uniq.filter _
  | conf c => 
    refine ⟨hi.good, hi.hash, hi.uniq, ?_, ?_⟩
    · show c.maxNickLength ≤ _
      rw [hp.1]; exact hi.nick.1
    · intro cs hcs
      rcases hp.2.2.1 cs hcs with h | h | h
      · exact hi.nick.2 cs h
      · exact h
      · exact absurd h hbad
  | whowas c => exact hi.of_eq (run_clients rfl t) (by rw [run_conf t (by simp)])
  | remove ch r => exact hi.of_eq (run_clients rfl t) (by rw [run_conf t (by simp)])
  | chMode ch r m => exact hi.of_eq (run_clients rfl t) (by rw [run_conf t (by simp)])
  | mmode ch r m set => exact hi.of_eq (run_clients rfl t) (by rw [run_conf t (by simp)])
  | _ => exact hi.of_eq rfl rfl

end Ngircd
