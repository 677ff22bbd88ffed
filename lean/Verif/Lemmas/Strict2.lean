import Verif.Lemmas.Strict

/-!
# Invariants of all reachable states: introducers, members, tokens
-/

set_option linter.unusedSimpArgs false

namespace Ngircd

variable {x : Ctx} {s t u : Srv}

/-! ## Memberships -/

theorem eraseP_eq_filter (l : List Cl2Chan) (h : (l.map (fun m => (m.chan, m.client))).Nodup) (ch r : Nat) :
    l.eraseP (fun m => m.chan == ch && m.client == r) = l.filter (fun m => !(m.chan == ch && m.client == r)) := by
  induction l with
  | nil => rfl
  | cons m l ih =>
    simp only [List.map_cons, List.nodup_cons] at h
    by_cases hm : (m.chan == ch && m.client == r) = true
    · rw [List.eraseP_cons_of_pos (p := fun m : Cl2Chan => m.chan == ch && m.client == r) hm,
        List.filter_cons_of_neg (by simp [hm])]
      symm
      rw [List.filter_eq_self]
      intro m' hm'
      cases h2 : (m'.chan == ch && m'.client == r) with
      | false => rfl
      | true =>
        exfalso
        apply h.1
        simp only [Bool.and_eq_true, beq_iff_eq] at hm h2
        rw [hm.1, hm.2, ← h2.1, ← h2.2]
        exact List.mem_map_of_mem (f := fun m : Cl2Chan => (m.chan, m.client)) hm'
    · rw [List.eraseP_cons_of_neg (p := fun m : Cl2Chan => m.chan == ch && m.client == r) hm,
        List.filter_cons_of_pos (by simp only [Bool.not_eq_true] at hm; simp [hm]), ih h.2]

theorem deleteIfEmpty_cl2 (s : Srv) (ch : Nat) : (deleteIfEmpty s ch).cl2 = s.cl2 := by
  simp only [deleteIfEmpty]; split <;> rfl

theorem dropMember_cl2 (hi : ChInv s) (ch r : Nat) :
    (dropMember s ch r).cl2 = s.cl2.filter (fun m => !(m.chan == ch && m.client == r)) := by
  simp only [dropMember]
  split
  · rw [deleteIfEmpty_cl2]
    exact eraseP_eq_filter _ hi.pairs ch r
  · rename_i h
    rw [Bool.not_eq_true, isMemberOf_false] at h
    symm
    rw [List.filter_eq_self]
    intro m hm
    cases h2 : (m.chan == ch && m.client == r) with
    | false => rfl
    | true =>
      simp only [Bool.and_eq_true, beq_iff_eq] at h2
      exact absurd h2.2 (h m hm h2.1)

theorem quitAll_cl2 (hi : ChInv s) (r : Nat) (l : List Chan) :
    (quitAll s r l).cl2 = s.cl2.filter (fun m => !(m.client == r && l.any (fun c => c.ref == m.chan))) := by
  induction l generalizing s with
  | nil =>
    show s.cl2 = _
    symm
    rw [List.filter_eq_self]
    intro m _; simp
  | cons c l ih =>
    show (quitAll (dropMember s c.ref r) r l).cl2 = _
    rw [ih (hi.drop c.ref r), dropMember_cl2 hi, List.filter_filter]
    congr 1
    funext m
    simp only [List.any_cons]
    by_cases h1 : m.client = r
    · by_cases h2 : m.chan = c.ref
      · simp [h1, h2]
      · have : ¬ c.ref = m.chan := fun h => h2 h.symm
        have e1 : (m.chan == c.ref) = false := by simpa using h2
        have e2 : (c.ref == m.chan) = false := by simpa using this
        rw [e1, e2]; simp
    · have e1 : (m.client == r) = false := by simpa using h1
      rw [e1]; simp

theorem quitAll_cl2_all (hi : ChInv s) (r : Nat) :
    (quitAll s r s.chans).cl2 = s.cl2.filter (fun m => m.client != r) := by
  rw [quitAll_cl2 hi]
  refine List.filter_congr (fun m hm => ?_)
  obtain ⟨c, hc, he⟩ := hi.chan m hm
  have : s.chans.any (fun c => c.ref == m.chan) = true := List.any_eq_true.2 ⟨c, hc, by simp [he]⟩
  rw [this]
  simp only [Bool.and_true]
  rfl

theorem destroy_cl2 (hi : ChInv t) (c : Client) : ((Act.destroy c).run t).cl2 =
    if c.type = .user ∨ c.type = .service then t.cl2.filter (fun m => m.client != c.ref) else t.cl2 := by
  show (destroySelf t c none false).cl2 = _
  rw [core_cl2 (destroySelf_core t c none false)]
  have h0 : ChInv (dropCl t c.ref) := hi.of_eq rfl rfl (Nat.le_refl _)
  split
  · obtain ⟨a', b', h2⟩ := registerWhowas_eq (quitAll (dropCl t c.ref) c.ref t.chans) c
    rw [h2]
    show (quitAll (dropCl t c.ref) c.ref (dropCl t c.ref).chans).cl2 = _
    rw [quitAll_cl2_all h0]; rfl
  · rfl

/-! ## Introducers and members -/

theorem find_desc {l : List Client} (h : Desc l) {p : Client → Bool} {c d : Client}
    (hf : l.find? p = some c) (hd : d ∈ l) (hp : p d = true) : d.ref ≤ c.ref := by
  induction l with
  | nil => cases hd
  | cons y l ih =>
    obtain ⟨h1, h2⟩ := List.pairwise_cons.1 h
    rw [List.find?_cons] at hf
    split at hf
    · injection hf with hf; subst hf
      rcases List.mem_cons.1 hd with rfl | hd
      · exact Nat.le_refl _
      · exact Nat.le_of_lt (h1 d hd)
    · rename_i hn
      rcases List.mem_cons.1 hd with rfl | hd
      · rw [hp] at hn; cases hn
      · exact ih h2 hf hd

/-- Remote clients are introduced by servers; members are users or services. -/
structure KindInv (s : Srv) : Prop where
  intro : ∀ c ∈ s.clients, c.conn = none → ∃ p ∈ s.clients, p.ref = c.introducer ∧ p.type = .server
  members : ∀ m ∈ s.cl2, ∃ c ∈ s.clients, c.ref = m.client ∧ (c.type = .user ∨ c.type = .service)

theorem KindInv.of_eq (hi : KindInv s) (h1 : t.clients = s.clients) (h2 : ∀ m ∈ t.cl2, ∃ m' ∈ s.cl2, m'.client = m.client) :
    KindInv t := by
  refine ⟨by rw [h1]; exact hi.intro, fun m hm => ?_⟩
  obtain ⟨m', hm', he⟩ := h2 m hm
  rw [h1, ← he]; exact hi.members m' hm'

/-- Updates that keep what matters here. -/
theorem KindInv.upd {r : Nat} {f : Client → Client} (hi : KindInv s)
    (hf : ∀ c ∈ s.clients, c.ref = r → (f c).ref = c.ref ∧ (f c).conn = c.conn ∧
      (c.conn = none → (f c).introducer = c.introducer) ∧
      (c.type = .server → (f c).type = .server) ∧
      ((∃ m ∈ s.cl2, m.client = r) → (c.type = .user ∨ c.type = .service) →
        ((f c).type = .user ∨ (f c).type = .service)))
    (h1 : t.clients = (s.updCl r f).clients) (h2 : t.cl2 = s.cl2) : KindInv t := by
  constructor
  · rw [h1]
    intro c hc hco
    obtain ⟨d, hd, rfl⟩ := mem_updCl.1 hc
    have hkey : d.conn = none ∧ (if d.ref = r then f d else d).introducer = d.introducer := by
      split at hco
      · rename_i hr
        obtain ⟨g1, g2, g3, g4, g5⟩ := hf d hd hr
        have : d.conn = none := g2.symm.trans hco
        exact ⟨this, by rw [if_pos hr]; exact g3 this⟩
      · rename_i hr
        exact ⟨hco, by rw [if_neg hr]⟩
    obtain ⟨p, hp, e1, e2⟩ := hi.intro d hd hkey.1
    refine ⟨_, mem_updCl.2 ⟨p, hp, rfl⟩, ?_, ?_⟩
    · rw [hkey.2, ← e1]
      split
      · exact (hf p hp ‹_›).1
      · rfl
    · split
      · exact (hf p hp ‹_›).2.2.2.1 e2
      · exact e2
  · rw [h1, h2]
    intro m hm
    obtain ⟨c, hc, e1, e2⟩ := hi.members m hm
    refine ⟨_, mem_updCl.2 ⟨c, hc, rfl⟩, ?_, ?_⟩
    · rw [← e1]
      split
      · exact (hf c hc ‹_›).1
      · rfl
    · split
      · rename_i hr
        exact (hf c hc hr).2.2.2.2 ⟨m, hm, e1.symm.trans hr⟩ e2
      · exact e2

theorem KindInv.cons {c : Client} (hi : KindInv s)
    (hc : c.conn = none → ∃ p ∈ s.clients, p.ref = c.introducer ∧ p.type = .server)
    (h1 : t.clients = c :: s.clients) (h2 : t.cl2 = s.cl2) : KindInv t := by
  constructor
  · rw [h1]
    intro d hd hco
    rcases List.mem_cons.1 hd with rfl | hd
    · obtain ⟨p, hp, h⟩ := hc hco
      exact ⟨p, List.mem_cons_of_mem _ hp, h⟩
    · obtain ⟨p, hp, h⟩ := hi.intro d hd hco
      exact ⟨p, List.mem_cons_of_mem _ hp, h⟩
  · rw [h1, h2]
    intro m hm
    obtain ⟨p, hp, h⟩ := hi.members m hm
    exact ⟨p, List.mem_cons_of_mem _ hp, h⟩

theorem initNewClient_cl2 (t : Srv) (c : Client) : (initNewClient t c).cl2 = t.cl2 := by
  simp only [initNewClient]
  obtain ⟨_, _, h⟩ := adjustCounters_eq { t with clients := c :: t.clients, nextRef := t.nextRef + 1 } c
  rw [h]

theorem setType_cl2 (t : Srv) (r : Nat) (ty : CType) : (clientSetType t r ty).cl2 = t.cl2 := by
  simp only [clientSetType]
  generalize hu : (t.updCl r fun c => if ty = .server then { c with type := ty, mytoken := genMyToken t } else { c with type := ty }) = u
  obtain ⟨_, _, h⟩ := adjustCounters_eq u (u.cl r)
  rw [h, ← hu]; rfl

theorem KindInv.act {a : Act} (hbad : ¬ x.bad) (hb : Base t) (hi : KindInv t) (hp : Okay x t a) :
    KindInv (a.run t) := by
  cases a with
  | soft r f =>
    refine hi.upd (r := r) (f := f) (fun c _ _ => ?_) rfl rfl
    obtain ⟨h1, h2, h3, h4, h5, h6, h7, h8⟩ := hp.keeps c
    exact ⟨h1, h5, fun _ => h6, fun h => h4.trans h, fun _ h => by rw [h4]; exact h⟩
  | umode r m set =>
    refine hi.upd (r := r) (f := umodeC m set) (fun c _ _ => ?_) (umode_clients t r m set) (by simp only [Act.run]; split <;> rfl)
    exact ⟨rfl, rfl, fun _ => rfl, id, fun _ h => h⟩
  | setId r id =>
    refine hi.upd (r := r) (f := fun c => setIdC t.conf c id) (fun c _ _ => ?_) rfl rfl
    refine ⟨setIdC_ref _ _ _, setIdC_conn _ _ _, fun _ => setIdC_intro _ _ _, ?_, ?_⟩
    · rw [setIdC_type]; exact fun h => h
    · rw [setIdC_type]; exact fun _ h => h
  | setType r ty =>
    refine hi.upd (r := r) (f := typeC t ty) (fun c hc hr => ?_) (setType_clients t r ty) (setType_cl2 t r ty)
    have hcl := cl_of_mem' hb.cl.ord hc hr
    obtain ⟨_, h1, h2⟩ := hp
    rw [hcl] at h1 h2
    have hty : (typeC t ty c).type = ty := by unfold typeC; split <;> rfl
    refine ⟨?_, ?_, ?_, ?_, ?_⟩
    · unfold typeC; split <;> rfl
    · unfold typeC; split <;> rfl
    · intro _; unfold typeC; split <;> rfl
    · rw [hty]
      intro hs
      cases hco : c.conn with
      | none =>
        have := (h2 hco).2.resolve_right hbad
        exact absurd hs this.2
      | some i =>
        have := ((h1 (by rw [hco]; rfl)).2.resolve_right hbad).2
        rw [← hcl] at hs
        unfold LocalType at this
        revert this
        split
        all_goals first
          | (intro h; rfl)
          | (intro h; exact h.elim)
          | (simp only [hs, LoginFrom]; simp)
    · rw [hty]
      rintro ⟨m, hm, hmr⟩ hu
      cases hco : c.conn with
      | none =>
        have := (h2 hco).2.resolve_right hbad
        rcases this.1 with h | h | h
        · exact .inl h
        · exact .inr h
        · exact absurd hmr (h.2 m hm)
      | some i =>
        have hs := hb.cl.locSvc c hc (by rw [hco]; rfl)
        have hu := hu.resolve_right hs
        have := ((h1 (by rw [hco]; rfl)).2.resolve_right hbad).2
        rw [← hcl] at hu
        unfold LocalType at this
        revert this
        split
        all_goals first
          | (intro h; exact h.elim)
          | (simp only [hu, LoginFrom]; simp; done)
          | skip
  | setIntro r tok =>
    refine hi.upd (r := r) (f := fun c => { c with introducer := r, token := tok }) (fun c hc hr => ?_) rfl rfl
    refine ⟨rfl, rfl, fun hco => ?_, id, fun _ h => h⟩
    have h1 : (t.cl r).conn.isSome = true := hp
    rw [cl_of_mem' hb.cl.ord hc hr, hco] at h1
    cases h1
  | newCl c =>
    refine hi.cons (fun _ => ?_) (newCl_clients t c) (initNewClient_cl2 t c)
    obtain ⟨p, h1, h2, h3, h4⟩ := hp.2.2.2.2.1
    exact ⟨p, h1, h2, h3⟩
  | newLocal c k =>
    refine hi.cons (fun h => ?_) (newLocal_clients t c k) (initNewClient_cl2 t c)
    rw [hp.2.2.2.2.2.1] at h; cases h
  | destroy c =>
    have hmem := List.mem_of_find?_eq_some hp.2.1
    constructor
    · rw [destroy_run_clients]
      intro d hd hco
      obtain ⟨hd', hne⟩ := List.mem_filter.1 hd
      obtain ⟨p, hpm, h1, h2⟩ := hi.intro d hd' hco
      refine ⟨p, List.mem_filter.2 ⟨hpm, ?_⟩, h1, h2⟩
      simp only [bne_iff_ne, ne_eq] at hne ⊢
      intro hpc
      have hpe : p = c := hb.cl.ord.eq_of_ref hpm hmem hpc
      subst hpe
      have hhit : destroyHit t p.ref d = true := by
        simp only [destroyHit, Bool.or_eq_true, Bool.and_eq_true, decide_eq_true_eq, beq_iff_eq, bne_iff_ne]
        left
        refine ⟨⟨?_, h1.symm⟩, hne⟩
        rw [cl_of_mem hb.cl.ord hpm]; exact h2
      have := find_desc hb.cl.ord hp.2.1 hd' hhit
      have := hb.cl.intro d hd'
      omega
    · rw [destroy_run_clients, destroy_cl2 hb.ch]
      intro m hm
      have key : m ∈ t.cl2 ∧ m.client ≠ c.ref := by
        split at hm
        · obtain ⟨h1, h2⟩ := List.mem_filter.1 hm
          exact ⟨h1, by simpa using h2⟩
        · rename_i hn
          refine ⟨hm, fun he => ?_⟩
          obtain ⟨d, hd, e1, e2⟩ := hi.members m hm
          have : d = c := hb.cl.ord.eq_of_ref hd hmem (e1.trans he)
          subst this
          exact hn e2
      obtain ⟨d, hd, e1, e2⟩ := hi.members m key.1
      exact ⟨d, List.mem_filter.2 ⟨hd, by simp [e1, key.2]⟩, e1, e2⟩
  | createJoin name r =>
    obtain ⟨_, _, _, ⟨c, hc, hr⟩, hty, -⟩ := hp
    refine ⟨hi.intro, fun m hm => ?_⟩
    rcases List.mem_cons.1 hm with rfl | hm
    · refine ⟨c, hc, hr, ?_⟩
      have := hty.resolve_right hbad
      rwa [cl_of_mem' hb.cl.ord hc hr] at this
    · exact hi.members m hm
  | join ch r =>
    obtain ⟨_, _, ⟨c, hc, hr⟩, hty, -⟩ := hp
    refine ⟨hi.intro, fun m hm => ?_⟩
    rcases List.mem_cons.1 hm with rfl | hm
    · refine ⟨c, hc, hr, ?_⟩
      have := hty.resolve_right hbad
      rwa [cl_of_mem' hb.cl.ord hc hr] at this
    · exact hi.members m hm
  | whowas c =>
    refine hi.of_eq (run_clients rfl t) ?_
    obtain ⟨a', b', h2⟩ := registerWhowas_eq t c
    simp only [Act.run]; rw [h2]
    exact fun m hm => ⟨m, hm, rfl⟩
  | remove ch r =>
    refine hi.of_eq (run_clients rfl t) ?_
    simp only [Act.run]; rw [deleteIfEmpty_cl2]
    exact fun m hm => ⟨m, List.mem_of_mem_eraseP hm, rfl⟩
  | chMode ch r m =>
    refine hi.of_eq (run_clients rfl t) ?_
    simp only [Act.run]
    split <;> exact fun m hm => ⟨m, hm, rfl⟩
  | mmode ch r m set =>
    refine hi.of_eq (run_clients rfl t) ?_
    simp only [Act.run]
    split
    · intro m' hm'
      obtain ⟨n, hn, rfl⟩ := List.mem_map.1 hm'
      refine ⟨n, hn, ?_⟩
      split <;> rfl
    · intro m' hm'
      obtain ⟨n, hn, rfl⟩ := List.mem_map.1 hm'
      refine ⟨n, hn, ?_⟩
      split <;> rfl
  | conf c => exact hi.of_eq rfl (fun m hm => ⟨m, hm, rfl⟩)
  | _ => exact hi.of_eq rfl (fun m hm => ⟨m, hm, rfl⟩)

end Ngircd
