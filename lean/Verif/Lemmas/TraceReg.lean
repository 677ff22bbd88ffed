import Verif.Lemmas.TraceCh

/-!
# What one event does to connections, capabilities and identities
-/

set_option linter.unusedSimpArgs false

namespace Ngircd

variable {x : Ctx} {s t u : Srv}

/-- Where the connections after an action come from. -/
theorem run_conn {a : Act} {k : Conn} (hk : k ∈ (a.run t).conns) :
    k ∈ t.conns ∨ (∃ i f k0, a = .conn i f ∧ k0 ∈ t.conns ∧ k0.idx = i ∧ k = f k0) ∨ ∃ c, a = .newLocal c k := by
  cases a with
  | umode r m set => simp only [Act.run] at hk; split at hk <;> exact .inl hk
  | setType r ty =>
    simp only [Act.run, clientSetType] at hk
    generalize hu : (t.updCl r fun c => if ty = .server then { c with type := ty, mytoken := genMyToken t } else { c with type := ty }) = u at hk
    obtain ⟨_, _, h⟩ := adjustCounters_eq u (u.cl r)
    rw [h, ← hu] at hk; exact .inl hk
  | newCl c =>
    simp only [Act.run, initNewClient] at hk
    obtain ⟨_, _, h⟩ := adjustCounters_eq { t with clients := c :: t.clients, nextRef := t.nextRef + 1 } c
    rw [h] at hk; exact .inl hk
  | newLocal c k' =>
    rcases List.mem_cons.1 hk with rfl | hk
    · exact .inr (.inr ⟨c, rfl⟩)
    · exact .inl hk
  | destroy c =>
    simp only [Act.run, dropConn, (destroySelf_fields t c none false).2.1] at hk
    exact .inl (List.mem_filter.1 hk).1
  | whowas c =>
    obtain ⟨a', b', h2⟩ := registerWhowas_eq t c
    simp only [Act.run] at hk; rw [h2] at hk; exact .inl hk
  | conn i f =>
    simp only [Act.run, Srv.updConn] at hk
    obtain ⟨k0, h0, rfl⟩ := List.mem_map.1 hk
    split
    · rename_i he; exact .inr (.inl ⟨i, f, k0, rfl, h0, he, rfl⟩)
    · exact .inl h0
  | remove ch r => simp only [Act.run, deleteIfEmpty] at hk; split at hk <;> exact .inl hk
  | chMode ch m set => simp only [Act.run] at hk; split at hk <;> exact .inl hk
  | mmode ch r m set => simp only [Act.run] at hk; split at hk <;> exact .inl hk
  | _ => exact .inl hk

/-- Connections are told apart by their sockets. -/
theorem conn_eq_of_idx (hb : Base t) {k k' : Conn} (hk : k ∈ t.conns) (hk' : k' ∈ t.conns) (h : k.idx = k'.idx) :
    k = k' := by
  have hinj : ∀ l : List Conn, (l.map Conn.idx).Nodup → ∀ a ∈ l, ∀ b ∈ l, a.idx = b.idx → a = b := by
    intro l
    induction l with
    | nil => intro _ a ha; cases ha
    | cons c l ih =>
      intro hn a ha b hb hab
      simp only [List.map_cons, List.nodup_cons, List.mem_map, not_exists, not_and] at hn
      rcases List.mem_cons.1 ha with h1 | h1 <;> rcases List.mem_cons.1 hb with h2 | h2
      · rw [h1, h2]
      · exact absurd (h1 ▸ hab.symm) (hn.1 b h2)
      · exact absurd (h2 ▸ hab) (hn.1 a h1)
      · exact ih hn.2 a h1 b h2 hab
  exact hinj _ hb.cl.idx _ hk _ hk' h

/-- The owner of a connection. -/
theorem conn_client (hb : Base t) {r i : Nat} {k : Conn} (hk : k ∈ t.conns) (hi : k.idx = i)
    (hc : (t.cl r).conn = some i) : k.client = r := by
  obtain ⟨h1, h2⟩ := mem_of_conn (s := t) (r := r) (by rw [hc]; rfl)
  obtain ⟨k', hk', e1, e2⟩ := hb.cl.clConn _ h1 i hc
  have : k = k' := conn_eq_of_idx hb hk hk' (hi.trans e1.symm)
  rw [this, e2, h2]

/-- What an action does to capabilities and identity of a client that was there before. -/
structure Kept2 (x : Ctx) (c d : Client) : Prop where
  ref : d.ref = c.ref
  conn : d.conn = c.conn
  caps : d.caps = c.caps ∨ (c.ref = x.cl ∧ CapOk x c.type c.caps d.caps)
  ident : (d.user = c.user ∧ d.host = c.host ∧ d.info = c.info ∧ d.id = c.id) ∨ c.type ≠ .user ∨ x.peer ∨
    (c.ref = x.cl ∧ x.is "NICK" ∧ ¬ x.fresh ∧ d.host = c.host)

theorem Kept2.same (c : Client) : Kept2 x c c := ⟨rfl, rfl, .inl rfl, .inl ⟨rfl, rfl, rfl, rfl⟩⟩

theorem setIdC_conn' (conf : Conf) (c : Client) (u : Str) : (setIdC conf c u).conn = c.conn := by
  simp only [setIdC]; split <;> rfl
theorem setIdC_host (conf : Conf) (c : Client) (u : Str) : (setIdC conf c u).host = c.host := by
  simp only [setIdC]; split <;> rfl

/-- Where the clients after an action come from. -/
theorem run_mem2 (hb : Base t) {a : Act} (hp : Okay x t a) {d : Client} (hd : d ∈ (a.run t).clients) :
    (∃ c ∈ t.clients, Kept2 x c d) ∨ (d.ref = t.nextRef ∧ d.caps = {} ∧ (d.conn.isSome = true → d.type ≠ .user)) := by
  cases a with
  | soft r f =>
    obtain ⟨c, hc, rfl⟩ := mem_updCl.1 hd
    left
    refine ⟨c, hc, ?_⟩
    split
    · rename_i hr
      have hcl := cl_of_mem' hb.cl.ord hc hr
      obtain ⟨h1, h2, h3⟩ := hp
      rw [hcl, ← hr] at h2
      rw [hcl] at h3
      refine ⟨(h1 c).1, (h1 c).2.2.2.2.1, h2.imp_left (fun h => h c), ?_⟩
      rcases h3 with h3 | h3 | h3
      · exact .inl ⟨(h3 c).1, (h3 c).2.1, (h3 c).2.2, (h1 c).2.1⟩
      · exact .inr (.inl h3)
      · exact .inr (.inr (.inl h3))
    · exact .same c
  | umode r m set =>
    rw [umode_clients] at hd
    obtain ⟨c, hc, rfl⟩ := mem_updCl.1 hd
    left
    refine ⟨c, hc, ?_⟩
    split
    · exact ⟨rfl, rfl, .inl rfl, .inl ⟨rfl, rfl, rfl, rfl⟩⟩
    · exact .same c
  | setId r id =>
    obtain ⟨c, hc, rfl⟩ := mem_updCl.1 hd
    left
    refine ⟨c, hc, ?_⟩
    split
    · rename_i hr
      have hcl := cl_of_mem' hb.cl.ord hc hr
      refine ⟨setIdC_ref _ _ _, setIdC_conn' _ _ _, .inl (setIdC_caps _ _ _), ?_⟩
      rcases hp.2.2 with h | ⟨h1, h2⟩
      · exact .inr (.inr (.inl h))
      · by_cases hu : c.type = .user
        · have := h2 (by rw [hcl]; exact hu)
          exact .inr (.inr (.inr ⟨hr.trans h1, this.1, this.2, setIdC_host _ _ _⟩))
        · exact .inr (.inl hu)
    · exact .same c
  | setType r ty =>
    rw [setType_clients] at hd
    obtain ⟨c, hc, rfl⟩ := mem_updCl.1 hd
    left
    refine ⟨c, hc, ?_⟩
    split
    · refine ⟨?_, ?_, .inl ?_, .inl ⟨?_, ?_, ?_, ?_⟩⟩ <;> (unfold typeC; split <;> rfl)
    · exact .same c
  | setIntro r tok =>
    obtain ⟨c, hc, rfl⟩ := mem_updCl.1 hd
    left
    refine ⟨c, hc, ?_⟩
    split
    · exact ⟨rfl, rfl, .inl rfl, .inl ⟨rfl, rfl, rfl, rfl⟩⟩
    · exact .same c
  | newCl c =>
    rw [newCl_clients] at hd
    rcases List.mem_cons.1 hd with rfl | hd
    · refine .inr ⟨hp.2.1, hp.2.2.2.2.2.2.2.2, fun h => ?_⟩
      rw [hp.2.2.1] at h; cases h
    · exact .inl ⟨d, hd, .same d⟩
  | newLocal c k =>
    rw [newLocal_clients] at hd
    rcases List.mem_cons.1 hd with rfl | hd
    · obtain ⟨h1, h2, h3, h4, h5, h6, h7, h8, h9, h10, h11, h12, _⟩ := hp
      refine .inr ⟨h1, h12, fun _ => ?_⟩
      rcases h5 with h | h <;> rw [h] <;> decide
    · exact .inl ⟨d, hd, .same d⟩
  | destroy c =>
    rw [destroy_run_clients] at hd
    exact .inl ⟨d, (List.mem_filter.1 hd).1, .same d⟩
  | _ =>
    rw [run_clients rfl t] at hd
    exact .inl ⟨d, hd, .same d⟩

/-! ## Capabilities -/

/-- How the capabilities of a client came about in this event. -/
def CapFrom (x : Ctx) (s : Srv) (d : Client) : Prop :=
  (∃ c ∈ s.clients, c.ref = d.ref ∧
    (d.caps.multiPrefix = true → c.caps.multiPrefix = true ∨ (d.ref = x.cl ∧ x.is "CAP" ∧ x.asksCap)) ∧
    (c.caps.pending = true → d.caps.pending = true ∨
      (d.ref = x.cl ∧ x.is "CAP" ∧ caseEq (x.argv.getD 0 []) "END".toList = true))) ∨
  (s.nextRef ≤ d.ref ∧ (d.caps.multiPrefix = true → d.ref = x.cl ∧ x.is "CAP" ∧ x.asksCap))

theorem steps_nextRef (h : Steps (Okay x) s t) : s.nextRef ≤ t.nextRef := by
  refine h.inv (I := fun t => s.nextRef ≤ t.nextRef) ?_ ?_ (Nat.le_refl _)
  · intro s t hc hi; rw [core_nextRef hc]; exact hi
  · intro t a hi _; exact Nat.le_trans hi (run_nextRef t a)

theorem steps_caps (h : Steps (Okay x) s t) (hb : Base s) : ∀ d ∈ t.clients, CapFrom x s d := by
  induction h with
  | refl hc =>
    intro d hd
    rw [core_clients hc] at hd
    exact .inl ⟨d, hd, rfl, .inl, .inl⟩
  | @tail t s' a hst hp hcore ih =>
    intro d hd
    rw [core_clients hcore] at hd
    have hbt := hst.base hb
    rcases run_mem2 hbt hp hd with ⟨c, hc, hk⟩ | ⟨h1, h2, -⟩
    · rcases hk.caps with he | ⟨h1, h2⟩
      · have := ih c hc
        simp only [CapFrom, he, hk.ref] at this ⊢
        exact this
      · have := ih c hc
        simp only [CapFrom, hk.ref] at this ⊢
        refine this.imp ?_ ?_
        · rintro ⟨c0, h0, g1, g2, g3⟩
          refine ⟨c0, h0, g1, fun hm => ?_, fun hp => ?_⟩
          · rcases h2.on hm with hm | hm
            · exact g2 hm
            · exact .inr ⟨h1, h2.cap, hm⟩
          · rcases g3 hp with g | g
            · cases hd' : d.caps.pending with
              | true => exact .inl rfl
              | false => exact .inr ⟨h1, h2.cap, h2.pending g hd'⟩
            · exact .inr g
        · rintro ⟨g1, g2⟩
          refine ⟨g1, fun hm => ?_⟩
          rcases h2.on hm with hm | hm
          · exact g2 hm
          · exact ⟨h1, h2.cap, hm⟩
    · refine .inr ⟨by rw [h1]; exact steps_nextRef hst, fun hm => ?_⟩
      rw [h2] at hm; cases hm

/-! ## Identity -/

/-- A user stays a user. -/
theorem run_user (hb : Base t) (hbad : ¬ x.bad) (hpeer : ¬ x.peer) {a : Act} (hp : Okay x t a) {c d : Client}
    (hc : c ∈ t.clients) (hk : Kept a c d) (hu : c.type = .user) : d.type = .user := by
  rcases hk.type with h | ⟨ty, rfl, h⟩
  · exact h.trans hu
  · exfalso
    obtain ⟨h1, h2, h3⟩ := hp
    have hcl := cl_of_mem' hb.cl.ord hc rfl
    rw [hcl] at h2 h3
    cases hco : c.conn with
    | none => exact hpeer (h3 hco).1
    | some i =>
      have := ((h2 (by rw [hco]; rfl)).2.resolve_right hbad).2
      cases ty <;> simp [LocalType, LoginFrom, hcl, hu] at this

/-- A client that was there before. -/
theorem run_old (hb : Base t) {a : Act} (hp : Okay x t a) {d : Client} (hd : d ∈ (a.run t).clients) :
    (∃ c ∈ t.clients, Kept a c d ∧ Kept2 x c d) ∨
    (d.ref = t.nextRef ∧ d.caps = {} ∧ (d.conn.isSome = true → d.type ≠ .user) ∧
      (d.conn.isSome = true → d.type = .unknown ∨ d.type = .unknownServer)) := by
  rcases run_mem hp hd with ⟨c, hc, hk⟩ | ⟨h1, h2⟩
  · rcases run_mem2 hb hp hd with ⟨c', hc', hk'⟩ | ⟨h, -⟩
    · have : c = c' := by
        rw [← cl_of_mem' hb.cl.ord hc rfl, ← cl_of_mem' hb.cl.ord hc' rfl, ← hk.ref, ← hk'.ref]
      subst this
      exact .inl ⟨c, hc, hk, hk'⟩
    · have := hb.cl.lt c hc
      rw [← hk.ref, h] at this
      omega
  · rcases run_mem2 hb hp hd with ⟨c', hc', hk'⟩ | ⟨h, g1, g2⟩
    · have := hb.cl.lt c' hc'
      rw [← hk'.ref, h1] at this
      omega
    · refine .inr ⟨h, g1, g2, fun hc => ?_⟩
      rcases h2 with ⟨_, h2⟩ | ⟨_, _, h2, _⟩
      · rw [h2] at hc; cases hc
      · exact h2

/-- A user keeps its names, unless a server link or its own NICK changes them. -/
theorem steps_ident (h : Steps (Okay x) s t) (hb : Base s) (hbad : ¬ x.bad) (hpeer : ¬ x.peer) :
    ∀ d ∈ t.clients, (∃ c ∈ s.clients, c.ref = d.ref ∧ (c.type = .user → d.type = .user ∧ d.host = c.host ∧
      ((d.user = c.user ∧ d.info = c.info ∧ d.id = c.id) ∨ (c.ref = x.cl ∧ x.is "NICK")))) ∨ s.nextRef ≤ d.ref := by
  induction h with
  | refl hc =>
    intro d hd
    rw [core_clients hc] at hd
    exact .inl ⟨d, hd, rfl, fun h => ⟨h, rfl, .inl ⟨rfl, rfl, rfl⟩⟩⟩
  | @tail t s' a hst hp hcore ih =>
    intro d hd
    rw [core_clients hcore] at hd
    have hbt := hst.base hb
    rcases run_old hbt hp hd with ⟨c, hc, hk, hk2⟩ | ⟨h1, -⟩
    · rcases ih c hc with ⟨c0, h0, g1, g2⟩ | g
      · refine .inl ⟨c0, h0, g1.trans hk.ref.symm, fun hu => ?_⟩
        obtain ⟨k1, k2, k3⟩ := g2 hu
        refine ⟨run_user hbt hbad hpeer hp hc hk k1, ?_, ?_⟩
        · rcases hk2.ident with h | h | h | h
          · exact h.2.1.trans k2
          · exact absurd k1 h
          · exact absurd h hpeer
          · exact h.2.2.2.trans k2
        · rcases hk2.ident with h | h | h | h
          · exact k3.imp_left (fun k => ⟨h.1.trans k.1, h.2.2.1.trans k.2.1, h.2.2.2.trans k.2.2⟩)
          · exact absurd k1 h
          · exact absurd h hpeer
          · exact .inr ⟨g1.trans h.1, h.2.1⟩
      · exact .inr (by rw [hk.ref]; exact g)
    · exact .inr (by rw [h1]; exact steps_nextRef hst)

/-! ## Registration -/

/-- Commands the local clients have sent so far, as their types show. -/
def TypeInv (N U : Nat → Prop) (t : Srv) : Prop :=
  ∀ c ∈ t.clients, c.conn.isSome = true →
    (c.type = .gotNick → N c.ref) ∧ (c.type = .gotUser → U c.ref) ∧
    (c.type = .waitAuthPing ∨ c.type = .waitCapEnd ∨ c.type = .user → N c.ref ∧ U c.ref)

theorem TypeInv.steps {N U : Nat → Prop} (h : Steps (Okay x) s t) (hb : Base s) (hbad : ¬ x.bad)
    (hN : x.is "NICK" → N x.cl) (hU : x.is "USER" → U x.cl) (hi : TypeInv N U s) : TypeInv N U t := by
  induction h with
  | refl hc =>
    intro d hd
    rw [core_clients hc] at hd
    exact hi d hd
  | @tail t s' a hst hp hcore ih =>
    intro d hd hco
    rw [core_clients hcore] at hd
    have hbt := hst.base hb
    rcases run_old hbt hp hd with ⟨c, hc, hk, -⟩ | ⟨-, -, -, h⟩
    · rw [hk.conn] at hco
      have ih := ih c hc hco
      rw [hk.ref]
      rcases hk.type with h | ⟨ty, rfl, h⟩
      · rw [h]; exact ih
      · rw [h]
        have hcl := cl_of_mem' hbt.cl.ord hc rfl
        have hp2 := hp.2.1
        rw [hcl] at hp2
        obtain ⟨e, hl⟩ := (hp2 hco).2.resolve_right hbad
        rw [← e] at hN hU
        have hfrom : LoginFrom x c.type c.id → N c.ref ∧ U c.ref := by
          rintro (⟨h1, h2, -⟩ | ⟨h1, h2⟩ | h1 | h1)
          · exact ⟨hN h2, ih.2.1 h1⟩
          · exact ⟨ih.1 h1, hU h2⟩
          · exact ih.2.2 (.inl h1)
          · exact ih.2.2 (.inr (.inl h1))
        refine ⟨?_, ?_, ?_⟩
        · rintro rfl; exact hN hl.1
        · rintro rfl; exact hU hl.1
        · rintro (rfl | rfl | rfl)
          · simp only [LocalType, hcl] at hl; exact hfrom hl
          · simp only [LocalType, hcl] at hl; exact hfrom hl
          · simp only [LocalType, hcl] at hl; exact hfrom hl.1
    · have := h hco
      refine ⟨fun e => ?_, fun e => ?_, fun e => ?_⟩
      · rw [e] at this; simp at this
      · rw [e] at this; simp at this
      · rcases e with e | e | e <;> rw [e] at this <;> simp at this

/-- The passwords of the connections have been sent. -/
def PwdInv (W : Nat → Str → Prop) (t : Srv) : Prop := ∀ k ∈ t.conns, k.pwd = [] ∨ W k.client k.pwd

theorem PwdInv.steps {W : Nat → Str → Prop} (h : Steps (Okay x) s t) (hb : Base s)
    (hW : x.is "PASS" → W x.cl (strlcpy 65 (x.argv.getD 0 []))) (hi : PwdInv W s) : PwdInv W t := by
  induction h with
  | refl hc =>
    intro k hk
    rw [core_conns hc] at hk
    exact hi k hk
  | @tail t s' a hst hp hcore ih =>
    intro k hk
    rw [core_conns hcore] at hk
    have hbt := hst.base hb
    rcases run_conn hk with hk | ⟨i, f, k0, rfl, h0, h1, rfl⟩ | ⟨c, rfl⟩
    · exact ih k hk
    · rcases hp.pwd with g | ⟨g1, g2, g3⟩
      · rw [g, (hp.keeps k0).2.1]; exact ih k0 h0
      · rw [g3, (hp.keeps k0).2.1, conn_client hbt h0 h1 g1]
        exact .inr (hW g2)
    · obtain ⟨h1, h2, h3, h4, h5, h6, h7, h8, h9, h10, h11, h12, h13, _⟩ := hp
      exact .inl h13

/-- Nothing of the configuration but the servers changes unless a new one is read. -/
theorem steps_conf (h : Steps (Okay x) s t) (hn : x.newConf = none) :
    ∃ sv, t.conf = { s.conf with servers := sv } := by
  refine h.inv (I := fun t => ∃ sv, t.conf = { s.conf with servers := sv }) ?_ ?_ ⟨_, rfl⟩
  · intro s t hc hi; rw [core_conf hc]; exact hi
  · rintro t a ⟨sv, hi⟩ hp
    by_cases hc : ∃ c, a = .conf c
    · obtain ⟨c, rfl⟩ := hc
      rcases hp.2.2.2.2.2 with h | ⟨sv', h⟩
      · rw [hn] at h; cases h
      · exact ⟨sv', by show c = _; rw [h, hi]⟩
    · exact ⟨sv, by rw [run_conf t hc]; exact hi⟩

theorem core_glines (h : t.core = s.core) : t.glines = s.glines :=
  (congrArg Srv.glines h : t.core.glines = s.core.glines)
theorem core_klines (h : t.core = s.core) : t.klines = s.klines :=
  (congrArg Srv.klines h : t.core.klines = s.core.klines)

/-- Only one action changes the G- and K-lines. -/
theorem run_lines (t : Srv) {a : Act} (hc : ¬ ∃ g k, a = .lines g k) :
    (a.run t).glines = t.glines ∧ (a.run t).klines = t.klines := by
  cases a with
  | lines g k => exact absurd ⟨g, k, rfl⟩ hc
  | umode r m set => simp only [Act.run]; split <;> exact ⟨rfl, rfl⟩
  | setType r ty =>
    simp only [Act.run, clientSetType]
    generalize hu : (t.updCl r fun c => if ty = .server then { c with type := ty, mytoken := genMyToken t } else { c with type := ty }) = u
    obtain ⟨_, _, h⟩ := adjustCounters_eq u (u.cl r)
    rw [h, ← hu]; exact ⟨rfl, rfl⟩
  | newCl c =>
    simp only [Act.run, initNewClient]
    obtain ⟨_, _, h⟩ := adjustCounters_eq { t with clients := c :: t.clients, nextRef := t.nextRef + 1 } c
    rw [h]; exact ⟨rfl, rfl⟩
  | newLocal c k =>
    simp only [Act.run, initNewClient]
    obtain ⟨_, _, h⟩ := adjustCounters_eq { t with clients := c :: t.clients, nextRef := t.nextRef + 1 } c
    rw [h]; exact ⟨rfl, rfl⟩
  | destroy c =>
    have := destroySelf_core t c none false
    show (destroySelf t c none false).glines = _ ∧ (destroySelf t c none false).klines = _
    rw [core_glines this, core_klines this]
    split
    · obtain ⟨a, b, h1⟩ := quitAll_eq (dropCl t c.ref) c.ref t.chans
      obtain ⟨a', b', h2⟩ := registerWhowas_eq (quitAll (dropCl t c.ref) c.ref t.chans) c
      rw [h2, h1]; exact ⟨rfl, rfl⟩
    · exact ⟨rfl, rfl⟩
  | whowas c =>
    obtain ⟨a', b', h2⟩ := registerWhowas_eq t c
    simp only [Act.run]; rw [h2]; exact ⟨rfl, rfl⟩
  | remove ch r => simp only [Act.run, deleteIfEmpty]; split <;> exact ⟨rfl, rfl⟩
  | chMode ch m set => simp only [Act.run]; split <;> exact ⟨rfl, rfl⟩
  | mmode ch r m set => simp only [Act.run]; split <;> exact ⟨rfl, rfl⟩
  | _ => exact ⟨rfl, rfl⟩

/-- The lasting entries of the G- and K-lines stay while a client registers. -/
theorem steps_lines (h : Steps (Okay x) s t) (hf : x.fresh) (hp : ¬ x.peer) :
    (∀ e ∈ s.glines, e.onlyonce = false → e ∈ t.glines) ∧ (∀ e ∈ s.klines, e.onlyonce = false → e ∈ t.klines) := by
  refine h.inv (I := fun t => (∀ e ∈ s.glines, e.onlyonce = false → e ∈ t.glines) ∧
    (∀ e ∈ s.klines, e.onlyonce = false → e ∈ t.klines)) ?_ ?_ ⟨fun _ h _ => h, fun _ h _ => h⟩
  · intro s t hc hi; rw [core_glines hc, core_klines hc]; exact hi
  · intro t a hi hok
    by_cases hc : ∃ g k, a = .lines g k
    · obtain ⟨g, k, rfl⟩ := hc
      rcases hok.2.2 with h | h | ⟨h1, h2⟩
      · exact absurd h hp
      · exact absurd hf h
      · refine ⟨fun e he ho => ?_, fun e he ho => ?_⟩
        · exact (h1 e (hi.1 e he ho)).resolve_right (by rw [ho]; decide)
        · exact (h2 e (hi.2 e he ho)).resolve_right (by rw [ho]; decide)
    · have := run_lines t hc
      rw [this.1, this.2]; exact hi

/-- No G- or K-line is removed by its first match. -/
theorem Reachable.lasting (h : Reachable s) : Lasting s.glines ∧ Lasting s.klines :=
  reach_inv_all (I := fun s => Lasting s.glines ∧ Lasting s.klines)
    (fun s t hc hi => by rw [core_glines hc, core_klines hc]; exact hi)
    (fun x t a _ hi hp => by
      by_cases hc : ∃ g k, a = .lines g k
      · obtain ⟨g, k, rfl⟩ := hc
        exact ⟨hp.1 hi.1, hp.2.1 hi.2⟩
      · have := run_lines t hc
        rw [this.1, this.2]; exact hi)
    (fun conf host now => ⟨fun e he => (by cases he), fun e he => (by cases he)⟩) h

/-- The mask of a user. -/
def fullMask (c : Client) : Str := (c.id ++ '!' :: c.user ++ '@' :: c.host).take (GETID_LEN - 1)

theorem check_none {l : MaskList} {m : ClientMasks} (h : (listsCheckReason l m).2 = none) :
    ∀ e ∈ l, matchCaseInsensitive e.mask m.real = false := by
  induction l with
  | nil => intro e he; cases he
  | cons a l ih =>
    simp only [listsCheckReason] at h
    split at h
    · cases h
    · rename_i hm
      intro e he
      rcases List.mem_cons.1 he with rfl | he
      · simp only [elemMatches, Bool.or_eq_true, not_or, Bool.not_eq_true] at hm
        exact hm.2
      · exact ih h e he

/-- What holds of a client that has become a user. -/
structure NewUser (x : Ctx) (s : Srv) (W : Nat → Str → Prop) (t : Srv) (d : Client) : Prop where
  fresh : x.fresh
  own : ¬ x.peer
  cl : d.ref = x.cl
  pwd : s.conf.serverPwd = [] ∨ W d.ref s.conf.serverPwd
  ping : s.conf.authPing = true → ∀ k ∈ t.conns, k.client = d.ref → k.authPing = 0
  cap : d.caps.pending = false
  ban : (∀ e ∈ s.glines, e.onlyonce = false → matchCaseInsensitive e.mask (fullMask d) = false) ∧
    (∀ e ∈ s.klines, e.onlyonce = false → matchCaseInsensitive e.mask (fullMask d) = false)

theorem steps_newUser {W : Nat → Str → Prop} (h : Steps (Okay x) s t) (hb : Base s) (hbad : ¬ x.bad)
    (hn : x.newConf = none ∨ ¬ x.fresh)
    (hW : x.is "PASS" → W x.cl (strlcpy 65 (x.argv.getD 0 []))) (hi : PwdInv W s) :
    ∀ d ∈ t.clients, d.conn.isSome = true → d.type = .user →
      (∃ c ∈ s.clients, c.ref = d.ref ∧ c.conn = d.conn ∧ c.type = .user) ∨ NewUser x s W t d := by
  induction h with
  | refl hc =>
    intro d hd _ hu
    rw [core_clients hc] at hd
    exact .inl ⟨d, hd, rfl, rfl, hu⟩
  | @tail t s' a hst hp hcore ih =>
    intro d hd hco hu
    rw [core_clients hcore] at hd
    have hbt := hst.base hb
    rcases run_old hbt hp hd with ⟨c, hc, hk, hk2⟩ | ⟨-, -, h, -⟩
    · rw [hk.conn] at hco
      have hcl := cl_of_mem' hbt.cl.ord hc rfl
      by_cases hcu : c.type = .user
      · rcases ih c hc hco hcu with ⟨c0, h0, g⟩ | g
        · exact .inl ⟨c0, h0, g.1.trans hk.ref.symm, g.2.1.trans hk.conn.symm, g.2.2⟩
        · right
          have hid : d.user = c.user ∧ d.host = c.host ∧ d.id = c.id := by
            rcases hk2.ident with h | h | h | h
            · exact ⟨h.1, h.2.1, h.2.2.2⟩
            · exact absurd hcu h
            · exact absurd h g.own
            · exact absurd g.fresh h.2.2.1
          have hm : fullMask d = fullMask c := by simp only [fullMask, hid.1, hid.2.1, hid.2.2]
          refine ⟨g.fresh, g.own, hk.ref.trans g.cl, by rw [hk.ref]; exact g.pwd, fun ha k hkm he => ?_, ?_, by
            rw [hm]; exact g.ban⟩
          · rw [core_conns hcore] at hkm
            rw [hk.ref] at he
            rcases run_conn hkm with hkm | ⟨i, f, k0, rfl, h0, h1, rfl⟩ | ⟨c', rfl⟩
            · exact g.ping ha k hkm he
            · rw [(hp.keeps k0).2.1] at he
              rcases hp.ping with g' | ⟨g1, ⟨g2, g3⟩ | ⟨g2, g3, g4⟩⟩
              · rw [g']; exact g.ping ha k0 h0 he
              · rw [← g.cl, hcl] at g3
                exact absurd hcu (g3.resolve_right g.own)
              · exact g4 k0
            · obtain ⟨h1, h2, h3, h4, h5, h6, h7, h8, h9, h10, h11, h12, h13, h14⟩ := hp
              exact h14.1
          · rcases hk2.caps with h | ⟨-, h⟩
            · rw [h]; exact g.cap
            · rw [h.idle hcu]; exact g.cap
      · -- it becomes a user now
        rcases hk.type with h | ⟨ty, rfl, h⟩
        · exact absurd (h.symm.trans hu) hcu
        · rw [h] at hu
          subst hu
          have hp2 := hp.2.1
          rw [hcl] at hp2
          obtain ⟨e, hl⟩ := (hp2 hco).2.resolve_right hbad
          obtain ⟨hfrom, ⟨hl1, hl2, hl3, hl4, hl5⟩, hl6, hl7⟩ := hl
          rw [hcl] at hfrom hl1 hl2 hl3
          have hnc := hn.resolve_right (fun h => h hl6)
          obtain ⟨sv, hcf⟩ := steps_conf hst hnc
          have hW' := PwdInv.steps hst hb hW hi
          right
          have hmask : (t.cl c.ref).mask = fullMask c := by
            rw [hcl, Client.mask, if_neg, fullMask]
            intro e
            rcases hfrom with ⟨h, -⟩ | ⟨h, -⟩ | h | h <;> rw [e] at h <;> cases h
          have hd' : fullMask d = fullMask c ∧ d.caps = c.caps := by
            rw [setType_clients] at hd
            obtain ⟨c', hc', hd'⟩ := mem_updCl.1 hd
            have hrr : c' = c := by
              rw [← cl_of_mem' hbt.cl.ord hc rfl, ← cl_of_mem' hbt.cl.ord hc' rfl, ← hk.ref]
              congr 1
              rw [hd']; split
              · unfold typeC; split <;> rfl
              · rfl
            subst hrr
            rw [if_pos rfl] at hd'
            rw [hd']
            exact ⟨rfl, rfl⟩
          have hlines := steps_lines hst hl6 hl7
          refine ⟨hl6, hl7, hk.ref.trans e, ?_, fun ha k hkm he => ?_, ?_, ?_⟩
          · rw [hcf] at hl3
            simp only at hl3
            cases hci : c.conn with
            | none => rw [hci] at hco; cases hco
            | some i =>
              obtain ⟨k, hk1, hk2'⟩ := conn?_of_mem hbt.cl hc hci
              have hkm := List.mem_of_find?_eq_some hk1
              rw [passwordOf, hci] at hl3
              simp only [Option.bind, hk1] at hl3
              rw [hk.ref, ← hk2', ← hl3]
              exact hW' k hkm
          · rw [core_conns hcore] at hkm
            rcases run_conn hkm with hkm | ⟨i, f, k0, h, _⟩ | ⟨c', h⟩
            · have hz := hl1 (by rw [hcf]; exact ha)
              cases hci : c.conn with
              | none => rw [hci] at hco; cases hco
              | some i =>
                obtain ⟨k', hk1, hk2'⟩ := conn?_of_mem hbt.cl hc hci
                rw [authPingOf, hci] at hz
                simp only [Option.bind, hk1] at hz
                obtain ⟨c', hc', e1, e2⟩ := hbt.cl.connCl k hkm
                have : c' = c := by
                  rw [← cl_of_mem' hbt.cl.ord hc rfl, ← cl_of_mem' hbt.cl.ord hc' rfl, e1, he, hk.ref]
                rw [this, hci] at e2
                injection e2 with e2
                have hf : t.conn? k.idx = some k' := by rw [← e2]; exact hk1
                have hkk : k' = k := conn_eq_of_idx hbt (List.mem_of_find?_eq_some hf) hkm (by
                  simpa using List.find?_some hf)
                rw [← hkk]; exact hz
            · cases h
            · cases h
          · rw [hd'.2]; exact hl2
          · rw [hd'.1, ← hmask]
            exact ⟨fun e he ho => check_none hl4 e (hlines.1 e he ho), fun e he ho => check_none hl5 e (hlines.2 e he ho)⟩
    · exact absurd hu (h hco)

/-! ## The authentication PING -/

/-- How the number of the authentication PING of a connection changes. -/
theorem steps_ping (h : Steps (Okay x) s t) (hb : Base s) : ∀ k ∈ t.conns,
    (∃ k0 ∈ s.conns, k0.client = k.client ∧ (k.authPing = k0.authPing ∨ (k.client = x.cl ∧ x.is "NICK") ∨
      (k.client = x.cl ∧ x.is "PONG" ∧ k.authPing = 0 ∧ k0.authPing = atoi (x.argv.getD 0 [])))) ∨
    s.nextRef ≤ k.client := by
  induction h with
  | refl hc =>
    intro k hk
    rw [core_conns hc] at hk
    exact .inl ⟨k, hk, rfl, .inl rfl⟩
  | @tail t s' a hst hp hcore ih =>
    intro k hk
    rw [core_conns hcore] at hk
    have hbt := hst.base hb
    rcases run_conn hk with hk | ⟨i, f, k0, rfl, h0, h1, rfl⟩ | ⟨c, rfl⟩
    · exact ih k hk
    · rw [(hp.keeps k0).2.1]
      rcases hp.ping with g | ⟨g1, g⟩
      · rw [g]; exact ih k0 h0
      · have hx := conn_client hbt h0 h1 g1
        rcases ih k0 h0 with ⟨k1, hk1, e1, e2⟩ | h
        · refine .inl ⟨k1, hk1, e1, ?_⟩
          rcases g with ⟨g2, -⟩ | ⟨g2, g3, g4⟩
          · exact .inr (.inl ⟨hx, g2⟩)
          · rcases e2 with e2 | e2 | e2
            · refine .inr (.inr ⟨hx, g2, g4 k0, ?_⟩)
              have hz : authPingOf t (t.cl x.cl) = k0.authPing := by
                simp only [authPingOf, g1, Option.bind]
                cases hf : t.conn? i with
                | none =>
                  have := List.find?_eq_none.1 hf k0 h0
                  simp [h1] at this
                | some k' =>
                  have hm := List.mem_of_find?_eq_some hf
                  have hi : k'.idx = i := by simpa using List.find?_some hf
                  have := conn_client hbt hm hi g1
                  simp only
                  rw [conn_eq_of_idx hbt hm h0 (hi.trans h1.symm)]
              rw [← e2, ← hz, g3]
            · exact .inr (.inl e2)
            · exact .inr (.inr ⟨hx, g2, g4 k0, e2.2.2.2⟩)
        · exact .inr h
    · obtain ⟨h1, h2, h3, h4, h5, h6, h7, h8, h9, h10, h11, h12, h13, _⟩ := hp
      exact .inr (by rw [h7, h1]; exact steps_nextRef hst)

end Ngircd
