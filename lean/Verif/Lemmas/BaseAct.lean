import Verif.Lemmas.Base

/-!
# Every action keeps the structural invariants
-/

set_option linter.unusedSimpArgs false

namespace Ngircd

/-! ## Removing members -/

/-- One membership goes (and the channel, if it is empty then). -/
def dropMember (s : Srv) (ch r : Nat) : Srv :=
  if isMemberOf s ch r then deleteIfEmpty (unlinkMember s ch r) ch else s

theorem dropMember_core (s : Srv) (ch r : Nat) : (dropMember s ch r).core = dropMember s.core ch r := by
  simp only [dropMember]
  rw [core_ite, deleteIfEmpty_core]
  rfl

theorem foldl_core2 {α : Type} (f g : Srv → α → Srv) (h : ∀ s a, (f s a).core = (g s a).core)
    (hg : ∀ s a, (g s a).core = g s.core a) (l : List α) (s : Srv) :
    (l.foldl f s).core = (l.foldl g s).core ∧ (l.foldl g s).core = l.foldl g s.core := by
  induction l generalizing s with
  | nil => exact ⟨rfl, rfl⟩
  | cons a l ih =>
    simp only [List.foldl_cons]
    have h1 := ih (f s a)
    have h2 := ih (g s a)
    refine ⟨?_, ?_⟩
    · rw [h1.1, h1.2, h2.2, h]
    · rw [h2.2, hg]

/-- All memberships of a client go. -/
def quitAll (s : Srv) (r : Nat) (l : List Chan) : Srv := l.foldl (fun s c => dropMember s c.ref r) s

theorem quitAll_core (s : Srv) (r : Nat) (l : List Chan) :
    (quitAll s r l).core = quitAll s.core r l :=
  (foldl_core2 (fun s (c : Chan) => dropMember s c.ref r) _ (fun _ _ => rfl)
    (fun s (c : Chan) => dropMember_core s c.ref r) l s).2

theorem channelQuit_core (s : Srv) (c : Client) (reason : Str) :
    (channelQuit s c reason).core = (quitAll s c.ref s.chans).core := by
  simp only [channelQuit]
  rw [(foldl_core2 _ (fun s (ch : Chan) => dropMember s ch.ref c.ref) (fun s ch => ?_)
    (fun s ch => dropMember_core s ch.ref c.ref) _ _).1]
  · show (quitAll _ c.ref _).core = _
    rw [quitAll_core, quitAll_core]
    rfl
  · rw [removeClient_core]
    simp only [dropMember]
    rw [core_ite]

theorem dropMember_eq (s : Srv) (ch r : Nat) :
    ∃ a b, dropMember s ch r = { s with chans := a, cl2 := b } := by
  simp only [dropMember, deleteIfEmpty]
  split
  · split
    · exact ⟨_, _, rfl⟩
    · exact ⟨_, _, rfl⟩
  · exact ⟨_, _, rfl⟩

theorem quitAll_eq (s : Srv) (r : Nat) (l : List Chan) :
    ∃ a b, quitAll s r l = { s with chans := a, cl2 := b } := by
  induction l generalizing s with
  | nil => exact ⟨_, _, rfl⟩
  | cons c l ih =>
    obtain ⟨a, b, h⟩ := dropMember_eq s c.ref r
    obtain ⟨a', b', h'⟩ := ih (dropMember s c.ref r)
    refine ⟨a', b', ?_⟩
    show quitAll (dropMember s c.ref r) r l = _
    rw [h', h]

theorem mem_membersOf {s : Srv} {ch r : Nat} :
    r ∈ membersOf s ch ↔ ∃ m ∈ s.cl2, m.chan = ch ∧ m.client = r := by
  simp [membersOf, List.mem_filter, and_assoc]

theorem isMemberOf_iff {s : Srv} {ch r : Nat} :
    isMemberOf s ch r = true ↔ ∃ m ∈ s.cl2, m.chan = ch ∧ m.client = r := by
  simp [isMemberOf, getCl2Chan, List.find?_isSome]

theorem isMemberOf_false {s : Srv} {ch r : Nat} :
    isMemberOf s ch r = false ↔ ∀ m ∈ s.cl2, m.chan = ch → m.client ≠ r := by
  rw [← Bool.not_eq_true, isMemberOf_iff]
  constructor
  · intro h m hm h1 h2; exact h ⟨m, hm, h1, h2⟩
  · rintro h ⟨m, hm, h1, h2⟩; exact h m hm h1 h2

theorem ChInv.drop {s : Srv} (hi : ChInv s) (ch r : Nat) : ChInv (dropMember s ch r) := by
  simp only [dropMember]
  split
  · have h1 : ChInv (unlinkMember s ch r) := by
      refine ⟨hi.ord, hi.lt, ?_, ?_, ?_⟩
      · exact ((List.eraseP_sublist).map _).nodup hi.pairs
      · exact fun m hm => hi.chan m (List.mem_of_mem_eraseP hm)
      · exact fun m hm => hi.clt m (List.mem_of_mem_eraseP hm)
    simp only [deleteIfEmpty]
    split
    · rename_i hp
      simp only [Bool.and_eq_true, List.isEmpty_iff] at hp
      refine ⟨h1.ord.filter _, fun c hc => h1.lt c (List.mem_filter.1 hc).1, h1.pairs, ?_, h1.clt⟩
      intro m hm
      obtain ⟨c, hc, hr⟩ := h1.chan m hm
      refine ⟨c, List.mem_filter.2 ⟨hc, ?_⟩, hr⟩
      have : m.client ∉ membersOf (unlinkMember s ch r) ch := by rw [hp.2]; simp
      rw [mem_membersOf] at this
      simp only [bne_iff_ne, ne_eq]
      intro h
      exact this ⟨m, hm, hr.symm.trans h, rfl⟩
    · exact h1
  · exact hi

theorem ChInv.quit {s : Srv} (hi : ChInv s) (r : Nat) (l : List Chan) : ChInv (quitAll s r l) := by
  induction l generalizing s with
  | nil => exact hi
  | cons c l ih => exact ih (hi.drop c.ref r)

/-! ## Destroying a client -/

/-- The list entry of a client goes. -/
def dropCl (s : Srv) (r : Nat) : Srv := { s with clients := s.clients.filter (fun x => x.ref != r) }

/-- What `destroySelf` does to the core. -/
theorem destroySelf_core (s : Srv) (c : Client) (fwd : Option Str) (q : Bool) :
    (destroySelf s c fwd q).core =
      (if c.type = .user ∨ c.type = .service then
        registerWhowas (quitAll (dropCl s c.ref) c.ref s.chans) c else dropCl s c.ref).core := by
  have key : ∀ u : Srv, u.core = (dropCl s c.ref).core → ∀ z,
      (registerWhowas (channelQuit u c z) c).core =
      (registerWhowas (quitAll (dropCl s c.ref) c.ref s.chans) c).core := by
    intro u hu z
    rw [registerWhowas_core, registerWhowas_core, channelQuit_core, quitAll_core, quitAll_core, hu,
      core_chans hu]
    rfl
  simp only [destroySelf]
  split
  · rename_i h
    simp only [h, true_or, if_true, destroyUserOrService]
    refine key _ ?_ _
    split
    · split <;> rfl
    · rfl
  · rename_i h
    simp only [h, or_true, if_true, destroyUserOrService]
    refine key _ ?_ _
    split
    · split <;> rfl
    · rfl
  · rename_i h
    have hn : ¬ (c.type = .user ∨ c.type = .service) := by rw [h]; simp
    rw [if_neg hn]
    split <;> rfl
  · rename_i h1 h2 h3
    rw [if_neg (fun h => h.elim h1 h2)]
    rfl

theorem destroySelf_fields (s : Srv) (c : Client) (fwd : Option Str) (q : Bool) :
    (destroySelf s c fwd q).clients = (dropCl s c.ref).clients ∧
    (destroySelf s c fwd q).conns = s.conns ∧ (destroySelf s c fwd q).srvConn = s.srvConn ∧
    (destroySelf s c fwd q).numConns = s.numConns ∧ (destroySelf s c fwd q).this = s.this ∧
    (destroySelf s c fwd q).nextRef = s.nextRef := by
  have h := destroySelf_core s c fwd q
  have key : ∀ t : Srv, (destroySelf s c fwd q).core = t.core → t.clients = (dropCl s c.ref).clients →
      t.conns = s.conns → t.srvConn = s.srvConn → t.numConns = s.numConns → t.this = s.this →
      t.nextRef = s.nextRef → (destroySelf s c fwd q).clients = (dropCl s c.ref).clients ∧
    (destroySelf s c fwd q).conns = s.conns ∧ (destroySelf s c fwd q).srvConn = s.srvConn ∧
    (destroySelf s c fwd q).numConns = s.numConns ∧ (destroySelf s c fwd q).this = s.this ∧
    (destroySelf s c fwd q).nextRef = s.nextRef := by
    intro t ht h1 h2 h3 h4 h5 h6
    exact ⟨(core_clients ht).trans h1, (core_conns ht).trans h2,
      (congrArg Srv.srvConn ht : (destroySelf s c fwd q).core.srvConn = t.core.srvConn).trans h3,
      (congrArg Srv.numConns ht : (destroySelf s c fwd q).core.numConns = t.core.numConns).trans h4,
      (core_this ht).trans h5, (core_nextRef ht).trans h6⟩
  split at h
  · obtain ⟨a, b, h1⟩ := quitAll_eq (dropCl s c.ref) c.ref s.chans
    obtain ⟨a', b', h2⟩ := registerWhowas_eq (quitAll (dropCl s c.ref) c.ref s.chans) c
    refine key _ h ?_ ?_ ?_ ?_ ?_ ?_ <;> rw [h2, h1] <;> rfl
  · refine key _ h ?_ ?_ ?_ ?_ ?_ ?_ <;> rfl

theorem ChInv.destroySelf {s : Srv} (hi : ChInv s) (c : Client) (fwd : Option Str) (q : Bool) :
    ChInv (destroySelf s c fwd q) := by
  refine ChInv.of_core (destroySelf_core s c fwd q) ?_
  have h0 : ChInv (dropCl s c.ref) := hi.of_eq rfl rfl (Nat.le_refl _)
  split
  · obtain ⟨a', b', h2⟩ := registerWhowas_eq (quitAll (dropCl s c.ref) c.ref s.chans) c
    refine (h0.quit c.ref s.chans).of_eq ?_ ?_ ?_ <;> rw [h2]
    exact Nat.le_refl _
  · exact h0

/-! ## The client part -/

theorem ClInv.newCl {s : Srv} (hi : ClInv s) (c : Client) (hr : c.ref = s.nextRef)
    (hh : c.hash = Hash c.id ∨ (c.id = [] ∧ c.hash = 0)) (hp : c.conn = none)
    (hin : ∃ p ∈ s.clients, p.ref = c.introducer) (hne : c.introducer ≠ s.this) :
    ClInv { s with clients := c :: s.clients, nextRef := s.nextRef + 1 } := by
  obtain ⟨p, hp1, hp2⟩ := hin
  have hlt : c.introducer < s.nextRef := hp2 ▸ hi.lt p hp1
  obtain ⟨d, hd, g1, g2⟩ := hi.self
  have hthis : s.this < s.nextRef := g1 ▸ hi.lt d hd
  refine ⟨?_, ?_, ?_, ⟨d, List.mem_cons_of_mem _ hd, g1, g2⟩, ?_, ?_, ?_, ?_, ?_, hi.idx, ?_, ?_, hi.num⟩
  · exact List.pairwise_cons.2 ⟨fun a ha => hr ▸ hi.lt a ha, hi.ord⟩
  · intro a ha
    rcases List.mem_cons.1 ha with rfl | ha
    · simp [hr]
    · exact Nat.lt_succ_of_lt (hi.lt a ha)
  · intro a ha
    rcases List.mem_cons.1 ha with rfl | ha
    · have := hi.lt d hd; have := hi.pos d hd; omega
    · exact hi.pos a ha
  · intro a ha
    rcases List.mem_cons.1 ha with rfl | ha
    · omega
    · exact hi.intro a ha
  · intro a ha hc
    rcases List.mem_cons.1 ha with rfl | ha
    · rw [hp] at hc; simp at hc
    · exact hi.loc a ha hc
  · intro a ha hc hc'
    rcases List.mem_cons.1 ha with rfl | ha
    · exact ⟨by omega, hne⟩
    · exact hi.rem a ha hc hc'
  · intro a ha hc
    rcases List.mem_cons.1 ha with rfl | ha
    · rw [hp] at hc; simp at hc
    · exact hi.locSvc a ha hc
  · intro a ha
    rcases List.mem_cons.1 ha with rfl | ha
    · exact hh
    · exact hi.hash a ha
  · intro k hk
    obtain ⟨a, ha, h⟩ := hi.connCl k hk
    exact ⟨a, List.mem_cons_of_mem _ ha, h⟩
  · intro a ha i hc
    rcases List.mem_cons.1 ha with rfl | ha
    · rw [hp] at hc; simp at hc
    · exact hi.clConn a ha i hc

theorem ClInv.newLocal {s : Srv} (hi : ClInv s) (c : Client) (k : Conn) (hr : c.ref = s.nextRef)
    (hid : c.id = []) (hh : c.hash = 0) (hin : c.introducer = s.this) (hty : c.type ≠ .service)
    (hc : c.conn = some k.idx) (hk : k.client = c.ref) (hfresh : ∀ k' ∈ s.conns, k'.idx ≠ k.idx) :
    ClInv { s with clients := c :: s.clients, nextRef := s.nextRef + 1, conns := k :: s.conns,
                   numConns := s.numConns + 1 } := by
  obtain ⟨d, hd, g1, g2⟩ := hi.self
  have hthis : s.this < s.nextRef := g1 ▸ hi.lt d hd
  refine ⟨?_, ?_, ?_, ⟨d, List.mem_cons_of_mem _ hd, g1, g2⟩, ?_, ?_, ?_, ?_, ?_, ?_, ?_, ?_, ?_⟩
  · exact List.pairwise_cons.2 ⟨fun a ha => hr ▸ hi.lt a ha, hi.ord⟩
  · intro a ha
    rcases List.mem_cons.1 ha with rfl | ha
    · simp [hr]
    · exact Nat.lt_succ_of_lt (hi.lt a ha)
  · intro a ha
    rcases List.mem_cons.1 ha with rfl | ha
    · have := hi.lt d hd; have := hi.pos d hd; omega
    · exact hi.pos a ha
  · intro a ha
    rcases List.mem_cons.1 ha with rfl | ha
    · omega
    · exact hi.intro a ha
  · intro a ha hc
    rcases List.mem_cons.1 ha with rfl | ha
    · exact .inr hin
    · exact hi.loc a ha hc
  · intro a ha hc' hc''
    rcases List.mem_cons.1 ha with rfl | ha
    · rw [hc] at hc'; simp at hc'
    · exact hi.rem a ha hc' hc''
  · intro a ha hc
    rcases List.mem_cons.1 ha with rfl | ha
    · exact hty
    · exact hi.locSvc a ha hc
  · intro a ha
    rcases List.mem_cons.1 ha with rfl | ha
    · exact .inr ⟨hid, hh⟩
    · exact hi.hash a ha
  · simp only [List.map_cons, List.nodup_cons]
    refine ⟨?_, hi.idx⟩
    intro h
    obtain ⟨k', hk', he⟩ := List.mem_map.1 h
    exact hfresh k' hk' he
  · intro k' hk'
    rcases List.mem_cons.1 hk' with rfl | hk'
    · exact ⟨c, List.mem_cons_self, hk.symm, hc⟩
    · obtain ⟨a, ha, h⟩ := hi.connCl k' hk'
      exact ⟨a, List.mem_cons_of_mem _ ha, h⟩
  · intro a ha i hci
    rcases List.mem_cons.1 ha with rfl | ha
    · rw [hc] at hci
      exact ⟨k, List.mem_cons_self, by simpa using hci, hk⟩
    · obtain ⟨k', hk', h⟩ := hi.clConn a ha i hci
      exact ⟨k', List.mem_cons_of_mem _ hk', h⟩
  · simp [hi.num]

/-- Two clients do not share a connection. -/
theorem ClInv.conn_inj {s : Srv} (hi : ClInv s) {a b : Client} (ha : a ∈ s.clients)
    (hb : b ∈ s.clients) {i : Nat} (h1 : a.conn = some i) (h2 : b.conn = some i) : a = b := by
  obtain ⟨k, hk, e1, e2⟩ := hi.clConn a ha i h1
  obtain ⟨k', hk', e1', e2'⟩ := hi.clConn b hb i h2
  have hkk : k = k' := by
    have hn := hi.idx
    have hinj : ∀ l : List Conn, (l.map Conn.idx).Nodup → ∀ a ∈ l, ∀ b ∈ l, a.idx = b.idx → a = b := by
      intro l
      induction l with
      | nil => intro _ a ha; cases ha
      | cons x l ih =>
        intro hn a ha b hb he
        simp only [List.map_cons, List.nodup_cons] at hn
        rcases List.mem_cons.1 ha with rfl | ha'
        · rcases List.mem_cons.1 hb with rfl | hb'
          · rfl
          · exact absurd (List.mem_map.2 ⟨b, hb', he.symm⟩) hn.1
        · rcases List.mem_cons.1 hb with hbx | hb'
          · subst hbx; exact absurd (List.mem_map.2 ⟨a, ha', he⟩) hn.1
          · exact ih hn.2 a ha' b hb' he
    exact hinj _ hn k hk k' hk' (e1.trans e1'.symm)
  subst hkk
  exact hi.ord.eq_of_ref ha hb (e2.symm.trans e2')

theorem filter_length_of_nodup (l : List Conn) (h : (l.map Conn.idx).Nodup) (k : Conn) (hk : k ∈ l) :
    (l.filter (fun x => some x.idx != some k.idx)).length = l.length - 1 := by
  induction l with
  | nil => cases hk
  | cons x l ih =>
    simp only [List.map_cons, List.nodup_cons] at h
    rcases List.mem_cons.1 hk with rfl | hk
    · simp only [List.filter_cons, bne_self_eq_false, Bool.false_eq_true, if_false, List.length_cons,
        Nat.add_sub_cancel]
      have hl : l.filter (fun x => some x.idx != some k.idx) = l := by
        refine List.filter_eq_self.2 (fun a ha => ?_)
        simp only [bne_iff_ne, ne_eq, Option.some.injEq]
        intro he
        exact h.1 (List.mem_map.2 ⟨a, ha, he⟩)
      rw [hl]
    · have hne : x.idx ≠ k.idx := fun he => h.1 (List.mem_map.2 ⟨k, hk, he.symm⟩)
      have hp : 0 < l.length := List.length_pos_of_mem hk
      simp only [List.filter_cons, bne_iff_ne, ne_eq, Option.some.injEq, hne, not_false_eq_true, if_true,
        List.length_cons, ih h.2 hk]
      omega

/-- The client `c` goes with its connection. -/
theorem ClInv.drop {s : Srv} (hi : ClInv s) (c : Client) (hc : c ∈ s.clients) (hne : c.ref ≠ s.this) :
    ClInv (dropConn (dropCl s c.ref) c) := by
  have hmem : ∀ a, a ∈ (dropConn (dropCl s c.ref) c).clients ↔ a ∈ s.clients ∧ a.ref ≠ c.ref := by
    intro a
    simp [dropConn, dropCl, List.mem_filter]
  have hconn : ∀ k, k ∈ (dropConn (dropCl s c.ref) c).conns ↔ k ∈ s.conns ∧ some k.idx ≠ c.conn := by
    intro k
    simp [dropConn, dropCl, List.mem_filter]
  refine ⟨?_, ?_, ?_, ?_, ?_, ?_, ?_, ?_, ?_, ?_, ?_, ?_, ?_⟩
  · exact hi.ord.filter _
  · exact fun a ha => hi.lt a ((hmem a).1 ha).1
  · exact fun a ha => hi.pos a ((hmem a).1 ha).1
  · obtain ⟨d, hd, g1, g2⟩ := hi.self
    refine ⟨d, (hmem d).2 ⟨hd, ?_⟩, g1, g2⟩
    rw [g1]; exact fun h => hne h.symm
  · exact fun a ha => hi.intro a ((hmem a).1 ha).1
  · exact fun a ha => hi.loc a ((hmem a).1 ha).1
  · exact fun a ha => hi.rem a ((hmem a).1 ha).1
  · exact fun a ha => hi.locSvc a ((hmem a).1 ha).1
  · exact fun a ha => hi.hash a ((hmem a).1 ha).1
  · exact ((List.filter_sublist).map _).nodup hi.idx
  · intro k hk
    obtain ⟨hk, hkc⟩ := (hconn k).1 hk
    obtain ⟨a, ha, h1, h2⟩ := hi.connCl k hk
    refine ⟨a, (hmem a).2 ⟨ha, ?_⟩, h1, h2⟩
    intro he
    have := hi.ord.eq_of_ref ha hc he
    subst this
    exact hkc h2.symm
  · intro a ha i hai
    obtain ⟨ha, har⟩ := (hmem a).1 ha
    obtain ⟨k, hk, h1, h2⟩ := hi.clConn a ha i hai
    refine ⟨k, (hconn k).2 ⟨hk, ?_⟩, h1, h2⟩
    rw [h1]
    intro h
    exact har (congrArg Client.ref (hi.conn_inj ha hc hai h.symm))
  · simp only [dropConn, dropCl]
    cases hcc : c.conn with
    | none =>
      have : s.conns.filter (fun k => some k.idx != none) = s.conns :=
        List.filter_eq_self.2 (fun a _ => by simp)
      simp [this, hi.num]
    | some i =>
      obtain ⟨k, hk, h1, h2⟩ := hi.clConn c hc i hcc
      subst h1
      simp only [Option.isSome_some, if_true]
      rw [filter_length_of_nodup _ hi.idx k hk, hi.num]

theorem ClInv.setIntro {s : Srv} (hi : ClInv s) (r : Nat) (tok : Int)
    (hc : (s.cl r).conn.isSome = true) :
    ClInv (s.updCl r (fun c => { c with introducer := r, token := tok })) := by
  obtain ⟨hm, hr⟩ := mem_of_conn hc
  have huniq : ∀ d ∈ s.clients, d.ref = r → d.conn.isSome = true := by
    intro d hd hdr
    rw [hi.ord.eq_of_ref hd hm (hdr.trans hr.symm)]; exact hc
  have hm : ∀ c ∈ (s.updCl r (fun c => { c with introducer := r, token := tok })).clients,
      ∃ d ∈ s.clients, c.ref = d.ref ∧ c.conn = d.conn ∧ c.type = d.type ∧ c.id = d.id ∧
        c.hash = d.hash ∧
        (c.introducer = d.introducer ∨ (c.introducer = c.ref ∧ c.conn.isSome = true)) := by
    intro c hc
    obtain ⟨d, hd, rfl⟩ := mem_updCl.1 hc
    refine ⟨d, hd, ?_⟩
    split
    · rename_i he
      exact ⟨rfl, rfl, rfl, rfl, rfl, .inr ⟨he.symm, huniq d hd he⟩⟩
    · exact ⟨rfl, rfl, rfl, rfl, rfl, .inl rfl⟩
  have hm' : ∀ d ∈ s.clients, ∃ c ∈ (s.updCl r (fun c => { c with introducer := r, token := tok })).clients,
      c.ref = d.ref ∧ c.conn = d.conn ∧ c.type = d.type ∧
        (c.introducer = d.introducer ∨ d.conn.isSome = true) := by
    intro d hd
    refine ⟨_, mem_updCl.2 ⟨d, hd, rfl⟩, ?_⟩
    split
    · rename_i he
      exact ⟨rfl, rfl, rfl, .inr (huniq d hd he)⟩
    · exact ⟨rfl, rfl, rfl, .inl rfl⟩
  refine ⟨?_, ?_, ?_, ?_, ?_, ?_, ?_, ?_, ?_, hi.idx, ?_, ?_, hi.num⟩
  · refine desc_upd (fun c => rfl) hi.ord
  · intro c hc
    obtain ⟨d, hd, h1, -⟩ := hm c hc
    rw [h1]; exact hi.lt d hd
  · intro c hc
    obtain ⟨d, hd, h1, -⟩ := hm c hc
    rw [h1]; exact hi.pos d hd
  · obtain ⟨d, hd, h1, h2, h3, h4⟩ := hi.self
    obtain ⟨c, hc, g1, g2, g3, g4⟩ := hm' d hd
    rcases g4 with g4 | g4
    · exact ⟨c, hc, g1.trans h1, g3.trans h2, g2.trans h3, g4.trans h4⟩
    · rw [h3] at g4; simp at g4
  · intro c hc
    obtain ⟨d, hd, h1, h2, h3, h4, h5, h6⟩ := hm c hc
    rcases h6 with h6 | h6
    · rw [h1, h6]; exact hi.intro d hd
    · omega
  · intro c hc hco
    obtain ⟨d, hd, h1, h2, h3, h4, h5, h6⟩ := hm c hc
    rcases h6 with h6 | h6
    · rw [h1, h6]; exact hi.loc d hd (h2 ▸ hco)
    · exact .inl h6.1
  · intro c hc hco
    obtain ⟨d, hd, h1, h2, h3, h4, h5, h6⟩ := hm c hc
    rcases h6 with h6 | h6
    · rw [h1, h6]; exact hi.rem d hd (h2 ▸ hco)
    · rw [hco] at h6; simp at h6
  · intro c hc hco
    obtain ⟨d, hd, h1, h2, h3, -⟩ := hm c hc
    rw [h3]; exact hi.locSvc d hd (h2 ▸ hco)
  · intro c hc
    obtain ⟨d, hd, h1, h2, h3, h4, h5, -⟩ := hm c hc
    rw [h4, h5]; exact hi.hash d hd
  · intro k hk
    obtain ⟨d, hd, h1, h2⟩ := hi.connCl k hk
    obtain ⟨c, hc, g1, g2, -⟩ := hm' d hd
    exact ⟨c, hc, g1.trans h1, g2.trans h2⟩
  · intro c hc i hci
    obtain ⟨d, hd, h1, h2, -⟩ := hm c hc
    obtain ⟨k, hk, g1, g2⟩ := hi.clConn d hd i (h2 ▸ hci)
    exact ⟨k, hk, g1, g2.trans h1.symm⟩

/-! ## All actions -/

theorem destroyHit_self {s : Srv} {c d : Client} (h : s.clients.find? (destroyHit s c.ref) = some d) :
    d ∈ s.clients := List.mem_of_find?_eq_some h

theorem ClInv.act {x : Ctx} {t : Srv} {a : Act} (hi : ClInv t) (hp : Okay x t a) :
    ClInv (a.run t) := by
  cases a with
  | soft r f => exact hi.keeps hp.keeps
  | umode r m set =>
    simp only [Act.run]
    split
    · exact hi.upd (fun c hc _ => ⟨rfl, rfl, rfl, hi.hash c hc, .inl rfl⟩)
    · exact hi.upd (fun c hc _ => ⟨rfl, rfl, rfl, hi.hash c hc, .inl rfl⟩)
  | setId r id =>
    refine hi.upd (fun c hc _ => ?_)
    simp only [setIdC]
    split <;> exact ⟨rfl, rfl, rfl, .inl rfl, .inl rfl⟩
  | setType r ty =>
    obtain ⟨h1, h2, -⟩ := hp
    simp only [Act.run, clientSetType]
    obtain ⟨a, b, h⟩ := adjustCounters_eq (t.updCl r (fun c =>
      if ty = .server then { c with type := ty, mytoken := genMyToken t } else { c with type := ty }))
      ((t.updCl r (fun c =>
      if ty = .server then { c with type := ty, mytoken := genMyToken t } else { c with type := ty })).cl r)
    rw [h]
    refine ClInv.of_eq (s := t.updCl r (fun c =>
      if ty = .server then { c with type := ty, mytoken := genMyToken t } else { c with type := ty }))
      ?_ rfl rfl rfl (Nat.le_refl _) rfl
    refine hi.upd (fun c hc hr => ?_)
    have hcl : t.cl r = c := cl_of_mem' hi.ord hc hr
    rw [hcl] at h2
    split
    · exact ⟨rfl, rfl, rfl, hi.hash c hc, .inr ⟨h1, fun h => (h2 h).1⟩⟩
    · exact ⟨rfl, rfl, rfl, hi.hash c hc, .inr ⟨h1, fun h => (h2 h).1⟩⟩
  | setIntro r tok => exact hi.setIntro r tok hp
  | newCl c =>
    obtain ⟨h0, h1, h2, h3, ⟨p, h4, h5, h6, h7⟩, -⟩ := hp
    simp only [Act.run, initNewClient]
    obtain ⟨a, b, h⟩ := adjustCounters_eq { t with clients := c :: t.clients, nextRef := t.nextRef + 1 } c
    rw [h]
    refine ClInv.of_eq (hi.newCl c h1 (.inl h3) h2 ⟨p, h4, h5⟩ (by rw [← h5]; exact h7)) rfl rfl rfl (Nat.le_refl _) rfl
  | newLocal c k =>
    obtain ⟨h1, h2, h3, h4, h5, h6, h7, h8, -⟩ := hp
    simp only [Act.run, initNewClient]
    obtain ⟨a, b, h⟩ := adjustCounters_eq { t with clients := c :: t.clients, nextRef := t.nextRef + 1 } c
    rw [h]
    refine ClInv.of_eq (hi.newLocal c k h1 h2 h3 h4 (by rcases h5 with h | h <;> rw [h] <;> simp) h6 h7 h8) rfl rfl rfl (Nat.le_refl _) rfl
  | destroy c =>
    obtain ⟨h1, h2⟩ := hp
    obtain ⟨g1, g2, g3, g4, g5, g6⟩ := destroySelf_fields t c none false
    refine ClInv.of_eq (hi.drop c (destroyHit_self h2.1) h1) ?_ ?_ ?_ ?_ ?_
    · exact g1
    · simp only [Act.run, dropConn, g2]; rfl
    · exact g5
    · simp only [Act.run, dropConn, g6]; exact Nat.le_refl _
    · simp only [Act.run, dropConn, g4]; rfl
  | whowas c =>
    obtain ⟨a, b, h⟩ := registerWhowas_eq t c
    simp only [Act.run, h]
    exact hi.of_eq rfl rfl rfl (Nat.le_refl _) rfl
  | conn i f =>
    have hf : ∀ k : Conn, (if k.idx = i then f k else k).idx = k.idx ∧
        (if k.idx = i then f k else k).client = k.client := by
      intro k; have := hp.keeps k; split
      · exact ⟨this.1, this.2.1⟩
      · exact ⟨rfl, rfl⟩
    obtain ⟨a, b, c, d, e, f', g, i', j, k, l, m, n⟩ := hi
    refine ⟨a, b, c, d, e, f', g, i', j, ?_, ?_, ?_, ?_⟩
    · simp only [Act.run, Srv.updConn, List.map_map]
      rw [show (Conn.idx ∘ fun c => if c.idx = i then f c else c) = Conn.idx from
        funext (fun k => (hf k).1)]
      exact k
    · intro k' hk'
      simp only [Act.run, Srv.updConn, List.mem_map] at hk'
      obtain ⟨k'', hk'', rfl⟩ := hk'
      rw [(hf k'').1, (hf k'').2]
      exact l k'' hk''
    · intro c' hc' i'' hi''
      obtain ⟨k', hk', e1, e2⟩ := m c' hc' i'' hi''
      refine ⟨if k'.idx = i then f k' else k', List.mem_map.2 ⟨k', hk', rfl⟩, ?_, ?_⟩
      · rw [(hf k').1]; exact e1
      · rw [(hf k').2]; exact e2
    · simp only [Act.run, Srv.updConn, List.length_map]; exact n
  | srvConn l => exact hi.of_eq rfl rfl rfl (Nat.le_refl _) rfl
  | create name f => exact hi.of_eq rfl rfl rfl (Nat.le_succ _) rfl
  | createJoin name r => exact hi.of_eq rfl rfl rfl (Nat.le_succ _) rfl
  | join ch r => exact hi.of_eq rfl rfl rfl (Nat.le_refl _) rfl
  | remove ch r =>
    simp only [Act.run, deleteIfEmpty]
    split <;> exact hi.of_eq rfl rfl rfl (Nat.le_refl _) rfl
  | chSoft ch f => exact hi.of_eq rfl rfl rfl (Nat.le_refl _) rfl
  | chMode ch m set =>
    simp only [Act.run]
    split <;> exact hi.of_eq rfl rfl rfl (Nat.le_refl _) rfl
  | chModes ch modes => exact hi.of_eq rfl rfl rfl (Nat.le_refl _) rfl
  | mmode ch r m set =>
    simp only [Act.run]
    split <;> exact hi.of_eq rfl rfl rfl (Nat.le_refl _) rfl
  | lines g k => exact hi.of_eq rfl rfl rfl (Nat.le_refl _) rfl
  | conf c => exact hi.of_eq rfl rfl rfl (Nat.le_refl _) rfl
  | time d => exact hi.of_eq rfl rfl rfl (Nat.le_refl _) rfl

theorem ChInv.updChan {s : Srv} (hi : ChInv s) (ch : Nat) (f : Chan → Chan)
    (hf : ∀ c, (f c).ref = c.ref) : ChInv (s.updChan ch f) := by
  have hr : ∀ c : Chan, (if c.ref = ch then f c else c).ref = c.ref := by
    intro c; split
    · exact hf c
    · rfl
  refine ⟨?_, ?_, hi.pairs, ?_, hi.clt⟩
  · refine List.pairwise_map.2 (hi.ord.imp ?_)
    intro a b hab
    rw [hr, hr]; exact hab
  · intro c hc
    obtain ⟨d, hd, rfl⟩ := mem_updChan.1 hc
    rw [hr]; exact hi.lt d hd
  · intro m hm
    obtain ⟨c, hc, he⟩ := hi.chan m hm
    exact ⟨_, mem_updChan.2 ⟨c, hc, rfl⟩, (hr c).trans he⟩

theorem ChInv.create {s : Srv} (hi : ChInv s) (name : Str) : ChInv (channelCreate s name) := by
  refine ⟨?_, ?_, hi.pairs, ?_, ?_⟩
  · exact List.pairwise_cons.2 ⟨fun a ha => hi.lt a ha, hi.ord⟩
  · intro c hc
    rcases List.mem_cons.1 hc with rfl | hc
    · exact Nat.lt_succ_self _
    · exact Nat.lt_succ_of_lt (hi.lt c hc)
  · intro m hm
    obtain ⟨c, hc, he⟩ := hi.chan m hm
    exact ⟨c, List.mem_cons_of_mem _ hc, he⟩
  · exact fun m hm => Nat.lt_succ_of_lt (hi.clt m hm)

theorem ChInv.join {s : Srv} (hi : ChInv s) (ch r : Nat) (hc : ∃ c ∈ s.chans, c.ref = ch)
    (hm : isMemberOf s ch r = false) (hr : r < s.nextRef) : ChInv (addClient s ch r) := by
  refine ⟨hi.ord, hi.lt, ?_, ?_, ?_⟩
  · simp only [addClient, List.map_cons, List.nodup_cons]
    refine ⟨?_, hi.pairs⟩
    intro h
    obtain ⟨m, hm1, hm2⟩ := List.mem_map.1 h
    simp only [Prod.mk.injEq] at hm2
    exact isMemberOf_false.1 hm m hm1 hm2.1 hm2.2
  · intro m hm
    rcases List.mem_cons.1 hm with rfl | hm
    · exact hc
    · exact hi.chan m hm
  · intro m hm
    rcases List.mem_cons.1 hm with rfl | hm
    · exact hr
    · exact hi.clt m hm

theorem ChInv.mapMem {s : Srv} (hi : ChInv s) (f : Cl2Chan → Cl2Chan)
    (hf : ∀ m, (f m).chan = m.chan ∧ (f m).client = m.client) :
    ChInv { s with cl2 := s.cl2.map f } := by
  refine ⟨hi.ord, hi.lt, ?_, ?_, ?_⟩
  · simp only [List.map_map]
    rw [show ((fun m : Cl2Chan => (m.chan, m.client)) ∘ f) = (fun m : Cl2Chan => (m.chan, m.client)) from
      funext (fun m => by simp [hf m])]
    exact hi.pairs
  · intro m hm
    obtain ⟨m', hm', rfl⟩ := List.mem_map.1 hm
    rw [(hf m').1]; exact hi.chan m' hm'
  · intro m hm
    obtain ⟨m', hm', rfl⟩ := List.mem_map.1 hm
    rw [(hf m').2]; exact hi.clt m' hm'

theorem ChInv.act {x : Ctx} {t : Srv} {a : Act} (hi : ChInv t) (hcl : ClInv t) (hp : Okay x t a) :
    ChInv (a.run t) := by
  cases a with
  | soft r f => exact hi.of_eq rfl rfl (Nat.le_refl _)
  | umode r m set =>
    simp only [Act.run]
    split <;> exact hi.of_eq rfl rfl (Nat.le_refl _)
  | setId r id => exact hi.of_eq rfl rfl (Nat.le_refl _)
  | setType r ty =>
    simp only [Act.run, clientSetType]
    obtain ⟨a, b, h⟩ := adjustCounters_eq (t.updCl r (fun c =>
      if ty = .server then { c with type := ty, mytoken := genMyToken t } else { c with type := ty }))
      ((t.updCl r (fun c =>
      if ty = .server then { c with type := ty, mytoken := genMyToken t } else { c with type := ty })).cl r)
    rw [h]
    exact hi.of_eq rfl rfl (Nat.le_refl _)
  | setIntro r tok => exact hi.of_eq rfl rfl (Nat.le_refl _)
  | newCl c =>
    simp only [Act.run, initNewClient]
    obtain ⟨a, b, h⟩ := adjustCounters_eq { t with clients := c :: t.clients, nextRef := t.nextRef + 1 } c
    rw [h]
    exact hi.of_eq rfl rfl (Nat.le_succ _)
  | newLocal c k =>
    simp only [Act.run, initNewClient]
    obtain ⟨a, b, h⟩ := adjustCounters_eq { t with clients := c :: t.clients, nextRef := t.nextRef + 1 } c
    rw [h]
    exact hi.of_eq rfl rfl (Nat.le_succ _)
  | destroy c => exact (hi.destroySelf c none false).of_eq rfl rfl (Nat.le_refl _)
  | whowas c =>
    obtain ⟨a, b, h⟩ := registerWhowas_eq t c
    simp only [Act.run, h]
    exact hi.of_eq rfl rfl (Nat.le_refl _)
  | conn i f => exact hi.of_eq rfl rfl (Nat.le_refl _)
  | srvConn l => exact hi.of_eq rfl rfl (Nat.le_refl _)
  | create name f => exact (hi.create name).updChan _ _ (fun c => (hp.2.1 c).1)
  | createJoin name r =>
    obtain ⟨c, hc, hr⟩ := hp.2.2.2.1
    refine (hi.create name).join _ _ ⟨_, List.mem_cons_self, rfl⟩ ?_ ?_
    · refine isMemberOf_false.2 (fun m hm he => ?_)
      obtain ⟨d, hd, hd'⟩ := hi.chan m hm
      have := hi.lt d hd
      omega
    · exact Nat.lt_succ_of_lt (hr ▸ hcl.lt c hc)
  | join ch r =>
    obtain ⟨c, hc, hr⟩ := hp.2.2.1
    exact hi.join _ _ hp.1 hp.2.1 (hr ▸ hcl.lt c hc)
  | remove ch r =>
    have h := hi.drop ch r
    simp only [dropMember] at h
    rw [if_pos (show isMemberOf t ch r = true from hp.1)] at h
    exact h
  | chSoft ch f => exact hi.updChan _ _ (fun c => (hp.keeps c).1)
  | chMode ch m set =>
    simp only [Act.run]
    split <;> exact hi.updChan _ _ (fun c => rfl)
  | chModes ch modes => exact hi.updChan _ _ (fun c => rfl)
  | mmode ch r m set =>
    simp only [Act.run]
    split
    · exact hi.mapMem _ (fun m => by split <;> exact ⟨rfl, rfl⟩)
    · exact hi.mapMem _ (fun m => by split <;> exact ⟨rfl, rfl⟩)
  | lines g k => exact hi.of_eq rfl rfl (Nat.le_refl _)
  | conf c => exact hi.of_eq rfl rfl (Nat.le_refl _)
  | time d => exact hi.of_eq rfl rfl (Nat.le_refl _)

theorem Base.act {x : Ctx} {t : Srv} {a : Act} (hi : Base t) (hp : Okay x t a) : Base (a.run t) :=
  ⟨hi.cl.act hp, hi.ch.act hi.cl hp⟩

/-- The structural invariants are kept by handlers that only do guarded actions. -/
theorem Steps.base {x : Ctx} {s t : Srv} (h : Steps (Okay x) s t) (hb : Base s) : Base t :=
  h.inv (fun _ _ hc hi => hi.of_core hc) (fun _ _ hi hp => hi.act hp) hb

end Ngircd
