import Verif.Lemmas.TraceReg
import Verif.Lemmas.Reply
import Verif.Lemmas.Hidden
import Verif.Props.UserModes
import Verif.Props.Registration
import Verif.Props.Messages
import Verif.Spec.Messages
import Verif.Spec.SamplePolite

/-!
# Counters

The numbers LUSERS reports (C33).
-/

namespace Ngircd

open Spec

set_option linter.unusedSimpArgs false

variable {s t u : Srv} {x : Ctx} {i cl : Nat} {l : Str} {req : Request} {e : Event}

/-! ## Specification -/

/-- The number of users in the network. -/
def Spec.users (s : Srv) : Nat := (s.clients.filter (fun c => c.type = .user)).length

/-- The number of users connected to this server (on connections this server has not opened itself). -/
def Spec.localUsers (s : Srv) : Nat :=
  (s.clients.filter (fun c => c.type = .user && c.conn.isSome && c.introducer != c.ref)).length

/-- The number of IRC operators in the network. -/
def Spec.operators (s : Srv) : Nat := (s.clients.filter (fun c => c.type = .user && c.modes.contains 'o')).length

/-- The number of clients which are not registered yet. -/
def Spec.unregistered (s : Srv) : Nat :=
  (s.clients.filter (fun c => !(c.type = .user || c.type = .server || c.type = .service))).length

/-- The number of channels client `r` may know about: those that are not secret, and its own. -/
def Spec.knownChannels (s : Srv) (r : Nat) : Nat :=
  (s.chans.filter (fun ch => !ch.modes.contains 's' || s.cl2.any (fun m => m.chan == ch.ref && m.client == r))).length

/-- The number of clients of type `t`. -/
def Spec.ofType (s : Srv) (t : CType) : Nat := (s.clients.filter (fun c => c.type = t)).length

/-- How a client is addressed in a numeric reply. -/
def Spec.shown (c : Client) : Str := if c.id = [] then "*".toList else c.id

/-- What LUSERS has to report to client `c`, in this order. -/
def Spec.lusers (s : Srv) (c : Client) : List Msg :=
  let n (k : Nat) : Str := (toString (k : Int)).toList
  [⟨"RPL_LUSERCLIENT_MSG", [shown c, n (users s), n (ofType s .service), n (ofType s .server)]⟩] ++
  (if operators s = 0 then [] else [⟨"RPL_LUSEROP_MSG", [shown c, n (operators s)]⟩]) ++
  (if unregistered s = 0 then [] else [⟨"RPL_LUSERUNKNOWN_MSG", [shown c, n (unregistered s)]⟩]) ++
  [⟨"RPL_LUSERCHANNELS_MSG", [shown c, n (knownChannels s c.ref)]⟩,
   ⟨"RPL_LUSERME_MSG", [shown c, n (localUsers s), n 0,
      n (s.clients.filter (fun c => c.type = .server && c.hops = 1)).length]⟩,
   ⟨"RPL_LOCALUSERS_MSG", [shown c, n (localUsers s), n s.myMaxUsers]⟩,
   ⟨"RPL_NETUSERS_MSG", [shown c, n (users s), n s.maxUsers]⟩]

/-! ## The maxima -/

theorem mem_len_le {l l' : List Nat} (hn : l.Nodup) (h : ∀ a ∈ l, a ∈ l') : l.length ≤ l'.length := by
  induction l generalizing l' with
  | nil => exact Nat.zero_le _
  | cons a l ih =>
    have hn' := List.nodup_cons.1 hn
    have ha := h a (List.mem_cons_self ..)
    have := ih (l' := l'.erase a) hn'.2 (fun b hb => by
      have hne : b ≠ a := fun e => hn'.1 (e ▸ hb)
      exact (List.mem_erase_of_ne hne).2 (h b (List.mem_cons_of_mem _ hb)))
    rw [List.length_erase_of_mem ha] at this
    have hpos : 0 < l'.length := List.length_pos_of_mem ha
    simp only [List.length_cons]; omega

theorem core_maxUsers (h : t.core = s.core) : t.maxUsers = s.maxUsers :=
  (congrArg Srv.maxUsers h : t.core.maxUsers = s.core.maxUsers)
theorem core_myMaxUsers (h : t.core = s.core) : t.myMaxUsers = s.myMaxUsers :=
  (congrArg Srv.myMaxUsers h : t.core.myMaxUsers = s.core.myMaxUsers)

/-- The counters are adjusted by these actions only. -/
def Act.counts : Act → Bool
  | .setType _ _ | .newCl _ | .newLocal _ _ => true
  | _ => false

theorem run_max (t : Srv) {a : Act} (hc : a.counts = false) :
    (a.run t).maxUsers = t.maxUsers ∧ (a.run t).myMaxUsers = t.myMaxUsers := by
  cases a with
  | setType | newCl | newLocal => cases hc
  | umode r m set => simp only [Act.run]; split <;> exact ⟨rfl, rfl⟩
  | destroy c =>
    have := destroySelf_core t c none false
    show (destroySelf t c none false).maxUsers = _ ∧ (destroySelf t c none false).myMaxUsers = _
    rw [core_maxUsers this, core_myMaxUsers this]
    split
    · obtain ⟨a, b, h1⟩ := quitAll_eq (dropCl t c.ref) c.ref t.chans
      obtain ⟨a', b', h2⟩ := registerWhowas_eq (quitAll (dropCl t c.ref) c.ref t.chans) c
      rw [h2, h1]; exact ⟨rfl, rfl⟩
    · exact ⟨rfl, rfl⟩
  | whowas c =>
    obtain ⟨a', b', h2⟩ := registerWhowas_eq t c
    simp only [Act.run]; rw [h2]; exact ⟨rfl, rfl⟩
  | remove ch r => simp only [Act.run, deleteIfEmpty]; split <;> exact ⟨rfl, rfl⟩
  | chMode ch m set => simp only [Act.run]; split <;> exact ⟨rfl, rfl⟩
  | mmode ch r m set => simp only [Act.run]; split <;> exact ⟨rfl, rfl⟩
  | _ => exact ⟨rfl, rfl⟩

/-- Both maxima are at least the present numbers. -/
def MaxInv (s : Srv) : Prop := countType s .user ≤ s.maxUsers ∧ myCountType s .user ≤ s.myMaxUsers

theorem filter_map_le {α β : Type} {p : β → Bool} {q : α → Bool} {g : α → β} (l : List α)
    (h : ∀ c ∈ l, p (g c) = true → q c = true) : ((l.map g).filter p).length ≤ (l.filter q).length := by
  induction l with
  | nil => exact Nat.le_refl _
  | cons a l ih =>
    have ih := ih (fun c hc => h c (List.mem_cons_of_mem _ hc))
    have ha := h a (List.mem_cons_self ..)
    simp only [List.map_cons, List.filter_cons]
    split
    · rename_i hp
      rw [if_pos (ha hp)]; simp only [List.length_cons]; omega
    · split
      · simp only [List.length_cons]; omega
      · exact ih

theorem MaxInv.of_le (hi : MaxInv s) (h1 : countType t .user ≤ countType s .user)
    (h2 : myCountType t .user ≤ myCountType s .user) (h3 : t.maxUsers = s.maxUsers ∧ t.myMaxUsers = s.myMaxUsers) :
    MaxInv t := by
  unfold MaxInv at *
  rw [h3.1, h3.2]; omega

/-- An update that makes no client a user. -/
theorem MaxInv.upd (hi : MaxInv s) {r : Nat} {f : Client → Client}
    (hc : t.clients = (s.updCl r f).clients) (ht : t.this = s.this)
    (hf : ∀ c ∈ s.clients, c.ref = r → (f c).type = .user → c.type = .user ∧ ((f c).introducer = s.this → c.introducer = s.this))
    (h3 : t.maxUsers = s.maxUsers ∧ t.myMaxUsers = s.myMaxUsers) : MaxInv t := by
  refine hi.of_le ?_ ?_ h3
  · unfold countType
    rw [hc]
    refine filter_map_le _ ?_
    intro c hm hp
    split at hp
    · rename_i hr
      simpa using (hf c hm hr (by simpa using hp)).1
    · exact hp
  · unfold myCountType
    rw [hc, ht]
    refine filter_map_le _ ?_
    intro c hm hp
    split at hp
    · rename_i hr
      have hp : (f c).introducer = s.this ∧ (f c).type = .user := by simpa using hp
      have := hf c hm hr hp.2
      simpa using And.intro (this.2 hp.1) this.1
    · exact hp

theorem adjust_max {u : Srv} {c : Client} (h1 : c.type ≠ .user → MaxInv u)
    (h2 : c.type = .user → c.conn = none → myCountType u .user ≤ u.myMaxUsers) : MaxInv (adjustCounters u c) := by
  simp only [adjustCounters]
  split
  · rename_i h; exact h1 h
  · rename_i h
    have h : c.type = .user := by simpa using h
    split
    · exact ⟨Nat.le_max_right _ _, Nat.le_max_right _ _⟩
    · rename_i hc
      exact ⟨Nat.le_max_right _ _, h2 h (by simpa using hc)⟩

theorem run_maxInv (hb : Base t) (hi : MaxInv t) {a : Act} (hp : Okay x t a) : MaxInv (a.run t) := by
  cases a with
  | soft r f =>
    refine hi.upd (t := (Act.soft r f).run t) rfl rfl ?_ ⟨rfl, rfl⟩
    intro c _ _ hu
    obtain ⟨h1, h2, h3, h4, h5, h6, h7, h8⟩ := hp.keeps c
    exact ⟨h4 ▸ hu, fun h => h6 ▸ h⟩
  | umode r m set =>
    exact hi.upd (umode_clients t r m set) (run_this _ _) (fun c _ _ hu => ⟨hu, id⟩) (run_max t rfl)
  | setId r id =>
    refine hi.upd (t := (Act.setId r id).run t) (f := fun c => setIdC t.conf c id) rfl (run_this _ _) ?_ (run_max t rfl)
    intro c _ _ hu
    rw [setIdC_type] at hu
    refine ⟨hu, fun h => ?_⟩
    revert h; simp only [setIdC]; split <;> exact fun h => h
  | setType r ty =>
    have e : (Act.setType r ty).run t = adjustCounters (t.updCl r (typeC t ty)) ((t.updCl r (typeC t ty)).cl r) := rfl
    rw [e]
    by_cases hex : ∃ c ∈ t.clients, c.ref = r
    · obtain ⟨c, hc, hr⟩ := hex
      have hcl : t.cl r = c := cl_of_mem' hb.cl.ord hc hr
      have hcl2 : (t.updCl r (typeC t ty)).cl r = typeC t ty c := by
        have := cl_updCl t r r (typeC t ty) (fun c => by unfold typeC; split <;> rfl)
          (fun _ => List.find?_isSome.2 ⟨c, hc, by simp [hr]⟩)
        rw [this, if_pos rfl, hcl]
      rw [hcl2]
      have hty : (typeC t ty c).type = ty := by unfold typeC; split <;> rfl
      refine adjust_max ?_ ?_
      · intro hne
        refine hi.upd (t := t.updCl r (typeC t ty)) rfl rfl ?_ ⟨rfl, rfl⟩
        intro d _ _ hu
        have : (typeC t ty d).type = ty := by unfold typeC; split <;> rfl
        exact absurd (hty.trans (this.symm.trans hu)) hne
      · intro _ hcn
        have hcn : c.conn = none := by rw [← hcn]; unfold typeC; split <;> rfl
        refine Nat.le_trans ?_ hi.2
        refine filter_map_le _ ?_
        intro d hd hpd
        split at hpd
        · rename_i hdr
          have hdc : d = c := hb.cl.ord.eq_of_ref hd hc (hdr.trans hr.symm)
          subst hdc
          have := (hb.cl.rem d hd hcn (by rw [hr]; exact hp.1)).2
          have hpd : (typeC t ty d).introducer = t.this ∧ (typeC t ty d).type = .user := by simpa [Srv.updCl] using hpd
          have h2 : (typeC t ty d).introducer = d.introducer := by unfold typeC; split <;> rfl
          exact absurd (h2 ▸ hpd.1) this
        · exact hpd
    · have hu : MaxInv (t.updCl r (typeC t ty)) :=
        hi.upd (r := r) (f := typeC t ty) rfl rfl (fun c hc hr => absurd ⟨c, hc, hr⟩ hex) ⟨rfl, rfl⟩
      exact adjust_max (fun _ => hu) (fun _ _ => hu.2)
  | setIntro r tok =>
    refine hi.upd (t := (Act.setIntro r tok).run t) rfl rfl ?_ ⟨rfl, rfl⟩
    intro c hc hr hu
    refine ⟨hu, fun h => ?_⟩
    exact absurd (show r = t.this from h) (hb.ne_this hp)
  | newCl c =>
    show MaxInv (adjustCounters { t with clients := c :: t.clients, nextRef := t.nextRef + 1 } c)
    obtain ⟨_, h1, h2, _, ⟨p, hp1, hp2, hp3, hp4⟩, _⟩ := hp
    have hmy : myCountType { t with clients := c :: t.clients, nextRef := t.nextRef + 1 } .user = myCountType t .user := by
      simp only [myCountType]
      rw [List.filter_cons_of_neg]
      have : c.introducer ≠ t.this := fun h => hp4 (hp2.trans h)
      simp [this]
    refine adjust_max ?_ ?_
    · intro hne
      refine ⟨?_, by rw [hmy]; exact hi.2⟩
      simp only [countType]
      rw [List.filter_cons_of_neg (by simpa using hne)]
      exact hi.1
    · intro _ _; rw [hmy]; exact hi.2
  | newLocal c k =>
    have hne : c.type ≠ .user := by rcases hp.2.2.2.2.1 with h | h <;> rw [h] <;> decide
    have : MaxInv (adjustCounters { t with clients := c :: t.clients, nextRef := t.nextRef + 1 } c) := by
      refine adjust_max (fun _ => ?_) (fun h => absurd h hne)
      refine ⟨?_, ?_⟩
      · simp only [countType]
        rw [List.filter_cons_of_neg (by simpa using hne)]
        exact hi.1
      · simp only [myCountType]
        rw [List.filter_cons_of_neg (by simp [hne])]
        exact hi.2
    exact this
  | destroy c =>
    have hthis := run_this t (.destroy c)
    refine hi.of_le ?_ ?_ (run_max t rfl)
    · simp only [countType]
      rw [destroy_run_clients]
      exact (List.Sublist.filter _ List.filter_sublist).length_le
    · simp only [myCountType]
      rw [destroy_run_clients, hthis]
      exact (List.Sublist.filter _ List.filter_sublist).length_le
  | _ => 
    exact hi.upd (r := 0) (f := id) (by rw [run_clients rfl t]; simp [Srv.updCl]) (run_this _ _) (fun c _ _ hu => ⟨hu, id⟩) (run_max t rfl)

/-- The local users are those this server has introduced. -/
theorem localUsers_eq (hb : Base s) : localUsers s = myCountType s .user := by
  unfold localUsers myCountType
  congr 1
  refine List.filter_congr ?_
  intro c hc
  by_cases hu : c.type = .user
  · have hne : c.ref ≠ s.this := by
      obtain ⟨d, hd, hd1, hd2, _⟩ := hb.cl.self
      intro h
      have := hb.cl.ord.eq_of_ref hd hc (hd1.trans h.symm)
      rw [this, hu] at hd2; cases hd2
    cases hcn : c.conn with
    | none =>
      have := (hb.cl.rem c hc hcn hne).2
      simp [hu, this]
    | some i =>
      rcases hb.cl.loc c hc (by rw [hcn]; rfl) with h | h
      · simp [hu, h, hne]
      · have : c.introducer ≠ c.ref := fun h' => hne (h'.symm.trans h)
        simp [hu, h]
        exact fun h' => hne h'.symm
  · simp [hu]

theorem myServices_eq (hb : Base s) : myCountType s .service = 0 := by
  unfold myCountType
  rw [List.length_eq_zero_iff, List.filter_eq_nil_iff]
  intro c hc h
  have h : c.introducer = s.this ∧ c.type = .service := by simpa using h
  have hne : c.ref ≠ s.this := by
    obtain ⟨d, hd, hd1, hd2, _⟩ := hb.cl.self
    intro h'
    have := hb.cl.ord.eq_of_ref hd hc (hd1.trans h'.symm)
    rw [this, h.2] at hd2; cases hd2
  cases hcn : c.conn with
  | none => exact (hb.cl.rem c hc hcn hne).2 h.1
  | some i => exact hb.cl.locSvc c hc (by rw [hcn]; rfl) h.2

/-- **C33** The maxima are never below the present numbers of users. -/
theorem C33_max (h : Reachable s) : users s ≤ s.maxUsers ∧ localUsers s ≤ s.myMaxUsers := by
  have := reach_inv_all (I := MaxInv)
    (fun s t hc hi => by
      refine hi.of_le ?_ ?_ ⟨core_maxUsers hc, core_myMaxUsers hc⟩
      · unfold countType; rw [core_clients hc]; exact Nat.le_refl _
      · unfold myCountType; rw [core_clients hc, core_this hc]; exact Nat.le_refl _)
    (fun x t a hb hi hp => run_maxInv hb hi hp) (fun conf host now => by
      refine ⟨?_, ?_⟩
      · simp [countType, clientInit, thisServerC, setInfoC, setIdC]; split <;> simp
      · simp [myCountType, clientInit, thisServerC, setInfoC, setIdC]; split <;> simp) h
  rw [localUsers_eq h.base]
  exact this

example : Reachable Sample.s5 ∧ users Sample.s5 = 3 ∧ localUsers Sample.s5 = 2 ∧ Sample.s5.maxUsers = 3 :=
  ⟨Sample.reach_s5, by decide +kernel, by decide +kernel, by decide +kernel⟩

/-- A maximum rises by an event of a client only if that many users are (or become) connected. -/
theorem steps_max_bound (h : Steps (Okay x) s t) (hb : Base s) (hx : ¬ x.peer) (hbad : ¬ x.bad) :
    (∀ d ∈ t.clients, d.type = .user → d.ref = x.cl ∨ ∃ c ∈ s.clients, c.type = .user ∧ c.ref = d.ref) ∧
    t.maxUsers ≤ max s.maxUsers (users s + 1) := by
  induction h with
  | refl hc =>
    rw [core_clients hc, core_maxUsers hc]
    exact ⟨fun d hd hu => .inr ⟨d, hd, hu, rfl⟩, Nat.le_max_left _ _⟩
  | @tail t s' a hst hp hcore ih =>
    have hbt := hst.base hb
    have hbt' : Base (a.run t) := (Steps.one a hp rfl).base hbt
    rw [core_clients hcore, core_maxUsers hcore]
    have h1 : ∀ d ∈ (a.run t).clients, d.type = .user → d.ref = x.cl ∨ ∃ c ∈ s.clients, c.type = .user ∧ c.ref = d.ref := by
      intro d hd hu
      rcases run_mem hp hd with ⟨c, hc, hk⟩ | ⟨_, ⟨h, _⟩ | ⟨_, _, h, _⟩⟩
      · rcases hk.type with he | ⟨ty, rfl, he⟩
        · rw [hk.ref]; exact ih.1 c hc (he ▸ hu)
        · rw [hk.ref]
          cases hcn : (t.cl c.ref).conn with
          | none => exact absurd (hp.2.2 hcn).1 hx
          | some j =>
            rcases (hp.2.1 (by rw [hcn]; rfl)).2 with h | h
            · exact .inl h.1
            · exact absurd h hbad
      · exact absurd h hx
      · rcases h with h | h <;> rw [h] at hu <;> cases hu
    refine ⟨h1, ?_⟩
    have hcount : countType (a.run t) .user ≤ users s + 1 := by
      have := mem_len_le (l := ((a.run t).clients.filter (fun c => c.type = .user)).map Client.ref)
        (l' := x.cl :: (s.clients.filter (fun c => c.type = .user)).map Client.ref) ?_ ?_
      · simpa [countType, users] using this
      · refine List.Nodup.sublist (List.Sublist.map _ List.filter_sublist) ?_
        exact (List.pairwise_map.2 (hbt'.cl.ord.imp (fun h => Nat.ne_of_gt h)))
      · intro r hr
        obtain ⟨d, hd, rfl⟩ := List.mem_map.1 hr
        obtain ⟨hd1, hd2⟩ := List.mem_filter.1 hd
        rcases h1 d hd1 (by simpa using hd2) with h | ⟨c, hc, hu, he⟩
        · rw [h]; exact List.mem_cons_self ..
        · exact List.mem_cons_of_mem _ (List.mem_map.2 ⟨c, List.mem_filter.2 ⟨hc, by simpa using hu⟩, he⟩)
    have hadj : ∀ (u : Srv) (c : Client), u.maxUsers = t.maxUsers →
        (adjustCounters u c).maxUsers ≤ max t.maxUsers (countType (adjustCounters u c) .user) := by
      intro u c he
      have : countType (adjustCounters u c) .user = countType u .user := by
        unfold countType; rw [adjustCounters_clients]
      rw [this, ← he]
      simp only [adjustCounters]
      split
      · exact Nat.le_max_left _ _
      · split <;> exact Nat.le_refl _
    have hle : (a.run t).maxUsers ≤ max t.maxUsers (countType (a.run t) .user) := by
      cases a with
      | setType r ty => exact hadj _ _ rfl
      | newCl c => exact hadj _ _ rfl
      | newLocal c k => exact hadj { t with clients := c :: t.clients, nextRef := t.nextRef + 1 } c rfl
      | _ => rw [(run_max t rfl).1]; exact Nat.le_max_left _ _
    have := ih.2
    omega

/-- **C33** The maximum rises only to a number of users there really was: by an event that is not a
line of another server it rises to at most the number of users before the event, plus the client
that registers by it. -/
theorem C33_max_reached (h : Reachable s) (hp : PoliteEvent s e)
    (hx : ∀ r, SentBy s e r → (s.cl r).type ≠ .server) :
    (step s e).maxUsers ≤ max s.maxUsers (users s + 1) := by
  obtain ⟨f1, f3, f4, f5, f6⟩ := evCtx_polite s e
  exact (steps_max_bound (step_steps_polite h.base hp) h.base
    (fun hpe => by
      obtain ⟨r, h1, h2⟩ := f1 hpe
      exact hx r h1 h2) f6).2

example : Reachable Sample.s1 ∧ Sample.s1.maxUsers = 0 ∧ users Sample.s2 = 1 ∧ Sample.s2.maxUsers = 1 :=
  ⟨Sample.reach_s1, by decide +kernel, by decide +kernel, by decide +kernel⟩

theorem adjust_mono (u : Srv) (c : Client) :
    u.maxUsers ≤ (adjustCounters u c).maxUsers ∧ u.myMaxUsers ≤ (adjustCounters u c).myMaxUsers := by
  simp only [adjustCounters]
  split
  · exact ⟨Nat.le_refl _, Nat.le_refl _⟩
  · split
    · exact ⟨Nat.le_max_left _ _, Nat.le_max_left _ _⟩
    · exact ⟨Nat.le_max_left _ _, Nat.le_refl _⟩

/-- **C33** The maxima never fall. -/
theorem C33_max_monotone (h : Reachable s) (e : Event) :
    s.maxUsers ≤ (step s e).maxUsers ∧ s.myMaxUsers ≤ (step s e).myMaxUsers := by
  refine (step_steps_any h.base e).inv (I := fun t => s.maxUsers ≤ t.maxUsers ∧ s.myMaxUsers ≤ t.myMaxUsers)
    ?_ ?_ ⟨Nat.le_refl _, Nat.le_refl _⟩
  · intro t u hc hi; rw [core_maxUsers hc, core_myMaxUsers hc]; exact hi
  · intro t a hi _
    cases a with
    | setType r ty =>
      have := adjust_mono (t.updCl r (typeC t ty)) ((t.updCl r (typeC t ty)).cl r)
      exact ⟨Nat.le_trans hi.1 this.1, Nat.le_trans hi.2 this.2⟩
    | newCl c =>
      have := adjust_mono { t with clients := c :: t.clients, nextRef := t.nextRef + 1 } c
      exact ⟨Nat.le_trans hi.1 this.1, Nat.le_trans hi.2 this.2⟩
    | newLocal c k =>
      have := adjust_mono { t with clients := c :: t.clients, nextRef := t.nextRef + 1 } c
      exact ⟨Nat.le_trans hi.1 this.1, Nat.le_trans hi.2 this.2⟩
    | _ => rw [(run_max t rfl).1, (run_max t rfl).2]; exact hi

example : Reachable Sample.s5 ∧ Sample.s5.maxUsers = 3 ∧ (step Sample.s5 (.lost 5 none false)).maxUsers = 3 ∧
    users (step Sample.s5 (.lost 5 none false)) = 2 :=
  ⟨Sample.reach_s5, by decide +kernel, by decide +kernel, by decide +kernel⟩

/-- The lines of a reply to a local client. -/
theorem writes_local {c : Client} (hc : c.introducer = c.ref ∨ c.introducer = s.this) (hi : c.conn = some i) (m : Msg)
    {u : Srv} {ms : List Msg}
    (h : u = { s with out := (ms.map (fun m => (⟨i, some (getPrefix s c (s.cl s.this)), m⟩ : Sent))).reverse ++ s.out }) :
    write u c m = { s with out := ((ms ++ [m]).map (fun m => (⟨i, some (getPrefix s c (s.cl s.this)), m⟩ : Sent))).reverse ++ s.out } := by
  subst h
  rw [write_local (by exact hc) hi]
  simp only [List.map_append, List.map_cons, List.map_nil, List.reverse_append, List.reverse_cons, List.reverse_nil,
    List.nil_append, List.cons_append]
  rfl

/-- The lines of `sendLUSERS`. -/
def lusersM (s : Srv) (c : Client) : List Msg :=
  let n (k : Nat) : Str := intStr k
  ((([] ++ [⟨"RPL_LUSERCLIENT_MSG", [c.ID, n (countType s .user), n (countType s .service), n (countType s .server)]⟩]) ++
  (if operCount s > 0 then [⟨"RPL_LUSEROP_MSG", [c.ID, n (operCount s)]⟩] else [])) ++
  (if unknownCount s > 0 then [⟨"RPL_LUSERUNKNOWN_MSG", [c.ID, n (unknownCount s)]⟩] else [])) ++
  [⟨"RPL_LUSERCHANNELS_MSG", [c.ID, n (countVisible s (some c.ref))]⟩] ++
  [⟨"RPL_LUSERME_MSG", [c.ID, n (myCountType s .user), n (myCountType s .service), n (myServerCount s)]⟩] ++
  [⟨"RPL_LOCALUSERS_MSG", [c.ID, n (myCountType s .user), n s.myMaxUsers]⟩] ++
  [⟨"RPL_NETUSERS_MSG", [c.ID, n (countType s .user), n s.maxUsers]⟩]

theorem sendLUSERS_out {c : Client} (hc : c.introducer = c.ref ∨ c.introducer = s.this) (hi : c.conn = some i) :
    sendLUSERS s c = { s with out := ((lusersM s c).map (fun m => (⟨i, some (getPrefix s c (s.cl s.this)), m⟩ : Sent))).reverse ++ s.out } := by
  unfold sendLUSERS lusersM
  extract_lets n s1 s2 s3 s4 s5 s6
  have h1 := writes_local (u := s) (ms := []) hc hi ⟨"RPL_LUSERCLIENT_MSG", [c.ID, n (countType s .user), n (countType s .service), n (countType s .server)]⟩ rfl
  have h2 : s2 = { s with out := ((([] ++ [(⟨"RPL_LUSERCLIENT_MSG", [c.ID, n (countType s .user), n (countType s .service), n (countType s .server)]⟩ : Msg)]) ++
      (if operCount s > 0 then [(⟨"RPL_LUSEROP_MSG", [c.ID, n (operCount s)]⟩ : Msg)] else [])).map (fun m => (⟨i, some (getPrefix s c (s.cl s.this)), m⟩ : Sent))).reverse ++ s.out } := by
    have hs1 : s1 = _ := h1
    simp only [s2, hs1]
    by_cases ho : operCount s > 0
    · rw [if_pos (by exact ho), if_pos ho]
      exact writes_local hc hi _ rfl
    · rw [if_neg (by exact ho), if_neg ho, List.append_nil]
  have h3 : s3 = { s with out := ((([] ++ [(⟨"RPL_LUSERCLIENT_MSG", [c.ID, n (countType s .user), n (countType s .service), n (countType s .server)]⟩ : Msg)]) ++
      (if operCount s > 0 then [(⟨"RPL_LUSEROP_MSG", [c.ID, n (operCount s)]⟩ : Msg)] else []) ++
      (if unknownCount s > 0 then [(⟨"RPL_LUSERUNKNOWN_MSG", [c.ID, n (unknownCount s)]⟩ : Msg)] else [])).map
        (fun m => (⟨i, some (getPrefix s c (s.cl s.this)), m⟩ : Sent))).reverse ++ s.out } := by
    simp only [s3, h2]
    by_cases ho : unknownCount s > 0
    · rw [if_pos (by exact ho), if_pos ho]
      exact writes_local hc hi _ rfl
    · rw [if_neg (by exact ho), if_neg ho, List.append_nil]
  have h4 : s4 = _ := (congrArg (fun u => write u c ⟨"RPL_LUSERCHANNELS_MSG", [c.ID, n (countVisible u (some c.ref))]⟩) h3).trans (writes_local hc hi _ rfl)
  have h5 : s5 = _ := (congrArg (fun u => write u c ⟨"RPL_LUSERME_MSG",
    [c.ID, n (myCountType u .user), n (myCountType u .service), n (myServerCount u)]⟩) h4).trans (writes_local hc hi _ rfl)
  have h6 : s6 = _ := (congrArg (fun u => write u c ⟨"RPL_LOCALUSERS_MSG", [c.ID, n (myCountType u .user), n u.myMaxUsers]⟩) h5).trans (writes_local hc hi _ rfl)
  exact (congrArg (fun u => write u c ⟨"RPL_NETUSERS_MSG", [c.ID, n (countType u .user), n u.maxUsers]⟩) h6).trans (writes_local hc hi _ rfl)

/-- **C33** LUSERS reports the true numbers: users, services and servers of the network, IRC
operators, connections that are not registered yet, the channels the client may know of, and the
local users and links; and the two maxima. -/
theorem C33_lusers (h : Reachable s) (hr : Received s i l cl req) (his : Is req "LUSERS") (hargs : req.argv = [])
    (hu : (s.cl cl).type = .user) (rnd : Int) :
    Emitted s (step s (.line i rnd l))
      ((lusers s (s.cl cl)).map (fun m => ⟨i, some (shownAs s (s.cl s.this) i), m⟩)).reverse := by
  have hb := h.base
  obtain ⟨ho1, ho2, ho3, ho4⟩ := hr.owner hb
  have hgo : step s (.line i rnd l) = (ircLUSERS (s.roll rnd) cl req).1 := by
    rw [step_do hr rnd his rfl (by rw [hu]; rfl) (by simp only [Command.argcOk, Request.argc, hargs]; decide)]
  rw [hgo]
  simp only [ircLUSERS, answerHere]
  rw [getSender_user (by exact hu)]
  simp only [getTarget, Request.argc, hargs, List.length_nil]
  rw [if_neg (by decide)]
  simp only [ne_eq, not_true_eq_false, if_false]
  have hc : (s.cl cl).introducer = (s.cl cl).ref ∨ (s.cl cl).introducer = s.this :=
    hb.cl.loc _ ho1 (by rw [ho3]; rfl)
  have := sendLUSERS_out (s := s.roll rnd) (c := s.cl cl) hc ho3
  refine ⟨rnd, ?_⟩
  refine this.trans ?_
  have e1 : getPrefix (s.roll rnd) (s.cl cl) ((s.roll rnd).cl (s.roll rnd).this) = shownAs s (s.cl s.this) i := by
    have hl : isLink s i = false := by
      cases hl : isLink s i with
      | false => rfl
      | true => rw [isLink_iff hb ho1 ho3, hu] at hl; cases hl
    simp only [shownAs, getPrefix, hl, hu]
    rfl
  rw [e1]
  have e2 : lusersM (s.roll rnd) (s.cl cl) = lusers s (s.cl cl) := by
    have e3 : (s.cl cl).ID = shown (s.cl cl) := by
      simp only [Client.ID, shown]
      cases (s.cl cl).id <;> simp
    have e4 : operCount (s.roll rnd) = operators s := rfl
    have e5 : unknownCount (s.roll rnd) = unregistered s := by
      simp only [unknownCount, unregistered, roll_clients]
      congr 1
      refine List.filter_congr ?_
      intro c _
      cases c.type <;> rfl
    have e6 : countVisible (s.roll rnd) (some (s.cl cl).ref) = knownChannels s (s.cl cl).ref := by
      simp only [countVisible, knownChannels]
      congr 1
      refine List.filter_congr ?_
      intro c _
      simp only [isMemberOf, getCl2Chan, roll_cl2, Chan.hasMode, hasChar]
      congr 1
      rw [Bool.eq_iff_iff, List.find?_isSome, List.any_eq_true]
    have e7 : myCountType (s.roll rnd) .user = localUsers s := (localUsers_eq hb).symm
    have e8 : myCountType (s.roll rnd) .service = 0 := myServices_eq (Base.of_core (s := s) rfl hb)
    have e9 : ∀ (p : Nat) (a : List Msg), (if p > 0 then a else []) = if p = 0 then [] else a := by
      intro p a
      cases p <;> rfl
    simp only [lusersM, lusers, e3, e4, e5, e6, e7, e8, e9]
    simp only [List.nil_append, List.append_assoc, List.cons_append]
    rfl
  rw [e2]
  rfl

example : ∃ req, Reachable Sample.s5 ∧ Received Sample.s5 5 "LUSERS".toList 3 req ∧ Is req "LUSERS" ∧ req.argv = [] ∧
    (Sample.s5.cl 3).type = .user ∧ users Sample.s5 = 3 ∧ ofType Sample.s5 .server = 2 :=
  ⟨⟨none, "LUSERS".toList, []⟩, Sample.reach_s5, recv_sound (by decide +kernel), by simp only [Is]; decide, rfl,
    by decide +kernel, by decide +kernel, by decide +kernel⟩

end Ngircd
