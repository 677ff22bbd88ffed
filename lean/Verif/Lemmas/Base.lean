import Verif.Lemmas.Guard

/-!
# Structural invariants

Which hold whatever the peers do: identities, connections, memberships.
-/

set_option linter.unusedSimpArgs false

namespace Ngircd

/-! ## Looking up clients -/

theorem mem_updCl {s : Srv} {r : Nat} {f : Client → Client} {c : Client} :
    c ∈ (s.updCl r f).clients ↔ ∃ d ∈ s.clients, c = if d.ref = r then f d else d := by
  simp only [Srv.updCl, List.mem_map]
  constructor
  · rintro ⟨d, hd, rfl⟩; exact ⟨d, hd, rfl⟩
  · rintro ⟨d, hd, rfl⟩; exact ⟨d, hd, rfl⟩

theorem mem_updChan {s : Srv} {r : Nat} {f : Chan → Chan} {c : Chan} :
    c ∈ (s.updChan r f).chans ↔ ∃ d ∈ s.chans, c = if d.ref = r then f d else d := by
  simp only [Srv.updChan, List.mem_map]
  constructor
  · rintro ⟨d, hd, rfl⟩; exact ⟨d, hd, rfl⟩
  · rintro ⟨d, hd, rfl⟩; exact ⟨d, hd, rfl⟩

/-- References are unique: the list is strictly descending. -/
def Desc (l : List Client) : Prop := l.Pairwise (fun a b => b.ref < a.ref)

theorem Desc.eq_of_ref {l : List Client} (h : Desc l) {a b : Client} (ha : a ∈ l) (hb : b ∈ l)
    (he : a.ref = b.ref) : a = b := by
  induction l with
  | nil => cases ha
  | cons x l ih =>
    obtain ⟨hx, hl⟩ := List.pairwise_cons.1 h
    rcases List.mem_cons.1 ha with rfl | ha'
    · rcases List.mem_cons.1 hb with rfl | hb'
      · rfl
      · have := hx _ hb'; omega
    · rcases List.mem_cons.1 hb with rfl | hb'
      · have := hx _ ha'; omega
      · exact ih hl ha' hb'

theorem cl?_some {s : Srv} {r : Nat} {c : Client} (h : s.cl? r = some c) :
    c ∈ s.clients ∧ c.ref = r :=
  ⟨List.mem_of_find?_eq_some h, by simpa using List.find?_some h⟩

theorem cl?_of_mem {s : Srv} (hd : Desc s.clients) {c : Client} (h : c ∈ s.clients) :
    s.cl? c.ref = some c := by
  cases hf : s.cl? c.ref with
  | none =>
    have := List.find?_eq_none.1 hf c h
    simp at this
  | some d =>
    obtain ⟨hm, hr⟩ := cl?_some hf
    rw [hd.eq_of_ref hm h hr]

theorem cl_of_mem {s : Srv} (hd : Desc s.clients) {c : Client} (h : c ∈ s.clients) :
    s.cl c.ref = c := by
  simp [Srv.cl, cl?_of_mem hd h]

theorem cl_of_mem' {s : Srv} (hd : Desc s.clients) {c : Client} {r : Nat} (h : c ∈ s.clients)
    (hr : c.ref = r) : s.cl r = c := by subst hr; exact cl_of_mem hd h

/-- A client with a connection exists. -/
theorem mem_of_conn {s : Srv} {r : Nat} (h : (s.cl r).conn.isSome = true) :
    s.cl r ∈ s.clients ∧ (s.cl r).ref = r := by
  cases hf : s.cl? r with
  | none => simp [Srv.cl, hf, noClient] at h
  | some c =>
    have := cl?_some hf
    simp only [Srv.cl, hf, Option.getD_some]
    exact this

theorem mem_of_type {s : Srv} {r : Nat} (h : (s.cl r).type ≠ .unknown) :
    s.cl r ∈ s.clients ∧ (s.cl r).ref = r := by
  cases hf : s.cl? r with
  | none => simp [Srv.cl, hf, noClient] at h
  | some c =>
    have := cl?_some hf
    simp only [Srv.cl, hf, Option.getD_some]
    exact this

theorem clientSearch_mem {s : Srv} {n : Str} {c : Client} (h : clientSearch s n = some c) :
    c ∈ s.clients := List.mem_of_find?_eq_some h

theorem desc_map {l : List Client} {f : Client → Client} (hf : ∀ c, (f c).ref = c.ref)
    (h : Desc l) : Desc (l.map f) := by
  refine List.pairwise_map.2 (h.imp ?_)
  intro a b hab
  rw [hf, hf]; exact hab

theorem desc_upd {s : Srv} {r : Nat} {f : Client → Client} (hf : ∀ c, (f c).ref = c.ref)
    (h : Desc s.clients) : Desc (s.updCl r f).clients := by
  refine desc_map (fun c => ?_) h
  split <;> simp [hf]

/-- The client `r'` after an update of `r`. -/
theorem cl_updCl (s : Srv) (r r' : Nat) (f : Client → Client) (hf : ∀ c, (f c).ref = c.ref)
    (hn : r' = r → (s.cl? r).isSome = true) :
    (s.updCl r f).cl r' = if r' = r then f (s.cl r) else s.cl r' := by
  have key : (s.updCl r f).cl? r' = (s.cl? r').map (fun c => if c.ref = r then f c else c) := by
    simp only [Srv.cl?, Srv.updCl, List.find?_map]
    congr 1
    congr 1
    funext c
    simp only [Function.comp_apply]
    split <;> simp [hf]
  simp only [Srv.cl, key]
  cases h : s.cl? r' with
  | none =>
    split
    · rename_i he; subst he; have := hn rfl; rw [h] at this; simp at this
    · rfl
  | some c =>
    have hc := (cl?_some h).2
    split
    · rename_i he; subst he; simp [hc, h]
    · rename_i he; simp [hc, he]

/-! ## The invariants -/

/-- Clients and connections. -/
structure ClInv (s : Srv) : Prop where
  ord : Desc s.clients
  lt : ∀ c ∈ s.clients, c.ref < s.nextRef
  pos : ∀ c ∈ s.clients, 0 < c.ref
  self : ∃ c ∈ s.clients, c.ref = s.this ∧ c.type = .server ∧ c.conn = none ∧ c.introducer = s.this
  intro : ∀ c ∈ s.clients, c.introducer ≤ c.ref
  loc : ∀ c ∈ s.clients, c.conn.isSome = true → c.introducer = c.ref ∨ c.introducer = s.this
  rem : ∀ c ∈ s.clients, c.conn = none → c.ref ≠ s.this → c.introducer ≠ c.ref ∧ c.introducer ≠ s.this
  locSvc : ∀ c ∈ s.clients, c.conn.isSome = true → c.type ≠ .service
  hash : ∀ c ∈ s.clients, c.hash = Hash c.id ∨ (c.id = [] ∧ c.hash = 0)
  idx : (s.conns.map Conn.idx).Nodup
  connCl : ∀ k ∈ s.conns, ∃ c ∈ s.clients, c.ref = k.client ∧ c.conn = some k.idx
  clConn : ∀ c ∈ s.clients, ∀ i, c.conn = some i → ∃ k ∈ s.conns, k.idx = i ∧ k.client = c.ref
  num : s.numConns = s.conns.length

/-- Channels and memberships. -/
structure ChInv (s : Srv) : Prop where
  ord : s.chans.Pairwise (fun a b => b.ref < a.ref)
  lt : ∀ c ∈ s.chans, c.ref < s.nextRef
  pairs : (s.cl2.map (fun m => (m.chan, m.client))).Nodup
  chan : ∀ m ∈ s.cl2, ∃ c ∈ s.chans, c.ref = m.chan
  clt : ∀ m ∈ s.cl2, m.client < s.nextRef

/-- Both. -/
structure Base (s : Srv) : Prop where
  cl : ClInv s
  ch : ChInv s

theorem ClInv.of_core {s t : Srv} (h : t.core = s.core) (hi : ClInv s) : ClInv t := by
  have h1 := core_clients h
  have h2 := core_conns h
  have h3 := core_this h
  have h4 := core_nextRef h
  have h5 : t.numConns = s.numConns := (congrArg Srv.numConns h : t.core.numConns = s.core.numConns)
  obtain ⟨a, b, c, d, e, f, g, i, j, k, l, m, n⟩ := hi
  constructor <;> simp only [h1, h2, h3, h4, h5] <;> assumption

theorem ChInv.of_core {s t : Srv} (h : t.core = s.core) (hi : ChInv s) : ChInv t := by
  have h1 := core_chans h
  have h2 := core_cl2 h
  have h4 := core_nextRef h
  obtain ⟨a, b, c, d, e⟩ := hi
  constructor <;> simp only [h1, h2, h4] <;> assumption

theorem Base.of_core {s t : Srv} (h : t.core = s.core) (hi : Base s) : Base t :=
  ⟨hi.cl.of_core h, hi.ch.of_core h⟩

/-- Updating fields of a client that keep what the structural invariants talk about. -/
theorem ClInv.upd {s : Srv} {r : Nat} {f : Client → Client} (hi : ClInv s)
    (hf : ∀ c ∈ s.clients, c.ref = r → (f c).ref = c.ref ∧ (f c).conn = c.conn ∧
      (f c).introducer = c.introducer ∧ ((f c).hash = Hash (f c).id ∨ ((f c).id = [] ∧ (f c).hash = 0)) ∧
      ((f c).type = c.type ∨ (r ≠ s.this ∧ (c.conn.isSome = true → (f c).type ≠ .service)))) :
    ClInv (s.updCl r f) := by
  have hm : ∀ c ∈ (s.updCl r f).clients, ∃ d ∈ s.clients, c.ref = d.ref ∧ c.conn = d.conn ∧
      c.introducer = d.introducer ∧ (c.hash = Hash c.id ∨ (c.id = [] ∧ c.hash = 0)) ∧
      (c.type = d.type ∨ (r ≠ s.this ∧ d.ref = r ∧ (d.conn.isSome = true → c.type ≠ .service))) := by
    intro c hc
    obtain ⟨d, hd, rfl⟩ := mem_updCl.1 hc
    refine ⟨d, hd, ?_⟩
    split
    · rename_i hr
      obtain ⟨h1, h2, h3, h4, h5⟩ := hf d hd hr
      refine ⟨h1, h2, h3, h4, ?_⟩
      rcases h5 with h5 | ⟨h5, h6⟩
      · exact .inl h5
      · exact .inr ⟨h5, hr, h6⟩
    · exact ⟨rfl, rfl, rfl, hi.hash d hd, .inl rfl⟩
  have hm' : ∀ d ∈ s.clients, ∃ c ∈ (s.updCl r f).clients, c.ref = d.ref ∧ c.conn = d.conn ∧
      c.introducer = d.introducer ∧ (c.type = d.type ∨ (r ≠ s.this ∧ d.ref = r)) := by
    intro d hd
    refine ⟨_, mem_updCl.2 ⟨d, hd, rfl⟩, ?_⟩
    split
    · rename_i hr
      obtain ⟨h1, h2, h3, h4, h5⟩ := hf d hd hr
      refine ⟨h1, h2, h3, ?_⟩
      rcases h5 with h5 | ⟨h5, h6⟩
      · exact .inl h5
      · exact .inr ⟨h5, hr⟩
    · exact ⟨rfl, rfl, rfl, .inl rfl⟩
  refine ⟨?_, ?_, ?_, ?_, ?_, ?_, ?_, ?_, ?_, hi.idx, ?_, ?_, hi.num⟩
  · refine List.pairwise_map.2 (List.Pairwise.imp_of_mem ?_ hi.ord)
    intro a b ha hb hab
    have hr : ∀ c ∈ s.clients, (if c.ref = r then f c else c).ref = c.ref := by
      intro c hc
      split
      · exact (hf c hc ‹_›).1
      · rfl
    rw [hr a ha, hr b hb]; exact hab
  · intro c hc
    obtain ⟨d, hd, h1, -⟩ := hm c hc
    rw [h1]; exact hi.lt d hd
  · intro c hc
    obtain ⟨d, hd, h1, -⟩ := hm c hc
    rw [h1]; exact hi.pos d hd
  · obtain ⟨d, hd, h1, h2, h3, h4⟩ := hi.self
    obtain ⟨c, hc, g1, g2, g3, g4⟩ := hm' d hd
    refine ⟨c, hc, g1.trans h1, ?_, g2.trans h3, g3.trans h4⟩
    rcases g4 with g4 | ⟨g4, g5⟩
    · exact g4.trans h2
    · exact absurd (g5.symm.trans h1) g4
  · intro c hc
    obtain ⟨d, hd, h1, h2, h3, -⟩ := hm c hc
    rw [h1, h3]; exact hi.intro d hd
  · intro c hc hco
    obtain ⟨d, hd, h1, h2, h3, -⟩ := hm c hc
    rw [h1, h3]; exact hi.loc d hd (h2 ▸ hco)
  · intro c hc hco
    obtain ⟨d, hd, h1, h2, h3, -⟩ := hm c hc
    rw [h1, h3]; exact hi.rem d hd (h2 ▸ hco)
  · intro c hc hco
    obtain ⟨d, hd, h1, h2, h3, h4, h5⟩ := hm c hc
    rcases h5 with h5 | ⟨-, -, h5⟩
    · rw [h5]; exact hi.locSvc d hd (h2 ▸ hco)
    · exact h5 (h2 ▸ hco)
  · intro c hc
    obtain ⟨d, hd, h1, h2, h3, h4, -⟩ := hm c hc
    exact h4
  · intro k hk
    obtain ⟨d, hd, h1, h2⟩ := hi.connCl k hk
    obtain ⟨c, hc, g1, g2, -⟩ := hm' d hd
    exact ⟨c, hc, g1.trans h1, g2.trans h2⟩
  · intro c hc i hci
    obtain ⟨d, hd, h1, h2, -⟩ := hm c hc
    obtain ⟨k, hk, g1, g2⟩ := hi.clConn d hd i (h2 ▸ hci)
    exact ⟨k, hk, g1, g2.trans h1.symm⟩

theorem ClInv.keeps {s : Srv} {r : Nat} {f : Client → Client} (hi : ClInv s) (hf : KeepsCl f) :
    ClInv (s.updCl r f) := by
  refine hi.upd (fun c hc _ => ?_)
  obtain ⟨h1, h2, h3, h4, h5, h6, -⟩ := hf c
  exact ⟨h1, h5, h6, by rw [h2, h3]; exact hi.hash c hc, .inl h4⟩

/-- Fields of the state outside clients and connections do not matter. -/
theorem ClInv.of_eq {s t : Srv} (hi : ClInv s) (h1 : t.clients = s.clients) (h2 : t.conns = s.conns)
    (h3 : t.this = s.this) (h4 : s.nextRef ≤ t.nextRef) (h5 : t.numConns = s.numConns) : ClInv t := by
  obtain ⟨a, b, c, d, e, f, g, i, j, k, l, m, n⟩ := hi
  constructor <;> simp only [h1, h2, h3, h5] <;> try assumption
  intro c hc; have := b c hc; omega

theorem ChInv.of_eq {s t : Srv} (hi : ChInv s) (h1 : t.chans = s.chans) (h2 : t.cl2 = s.cl2)
    (h4 : s.nextRef ≤ t.nextRef) : ChInv t := by
  obtain ⟨a, b, c, d, e⟩ := hi
  constructor <;> simp only [h1, h2] <;> try assumption
  · intro c hc; have := b c hc; omega
  · intro c hc; have := e c hc; omega

theorem adjustCounters_clients (s : Srv) (c : Client) : (adjustCounters s c).clients = s.clients := by
  simp only [adjustCounters]; split
  · rfl
  · split <;> rfl

theorem adjustCounters_eq (s : Srv) (c : Client) :
    ∃ a b, adjustCounters s c = { s with maxUsers := a, myMaxUsers := b } := by
  simp only [adjustCounters]; split
  · exact ⟨_, _, rfl⟩
  · split
    · exact ⟨_, _, rfl⟩
    · exact ⟨_, _, rfl⟩

theorem registerWhowas_eq (s : Srv) (c : Client) :
    ∃ a b, registerWhowas s c = { s with whowas := a, lastWhowas := b } := by
  simp only [registerWhowas]; split
  · exact ⟨_, _, rfl⟩
  · split
    · exact ⟨_, _, rfl⟩
    · exact ⟨_, _, rfl⟩

end Ngircd
