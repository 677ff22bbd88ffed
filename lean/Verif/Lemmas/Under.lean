import Verif.Lemmas.Hop

/-!
# What exactly disappears with a client
-/

set_option linter.unusedSimpArgs false

namespace Ngircd
open Spec

variable {s t u : Srv} {i cl : Nat} {l : Str} {req : Request} {x : Ctx}

theorem under_congr (h : t.clients = s.clients) {r : Nat} {c : Client} : Under t r c ↔ Under s r c :=
  ⟨fun g => g.mono (fun _ hc => h ▸ hc), fun g => g.mono (fun _ hc => h ▸ hc)⟩

/-- What is gone of a state after some clients have been destroyed. -/
structure Gone (s t : Srv) (G : Client → Prop) : Prop where
  clients : ∀ c, c ∈ t.clients ↔ c ∈ s.clients ∧ ¬ G c
  cl2 : ∀ m ∈ t.cl2, m ∈ s.cl2
  keep : ∀ m ∈ s.cl2, (∀ c, G c → c ∈ s.clients → c.ref ≠ m.client) → m ∈ t.cl2
  gone : ∀ m ∈ t.cl2, ∀ c ∈ s.clients, G c → (c.type = .user ∨ c.type = .service) → c.ref ≠ m.client

/-- No client survives the server that introduced it. -/
def NoOrphans (s t : Srv) : Prop :=
  ∀ d ∈ t.clients, ∀ p ∈ s.clients, p.type = .server → d.introducer = p.ref → d.ref ≠ p.ref → p ∈ t.clients

theorem destroy_gone (hb : Base s) {c : Client} (hc : c ∈ s.clients) (hu : u.core = ((Act.destroy c).run s).core) :
    Gone s u (fun d => d = c) := by
  have h1 := core_clients hu
  have h2 := core_cl2 hu
  rw [destroy_run_clients] at h1
  rw [destroy_cl2 hb.ch] at h2
  refine ⟨fun d => ?_, ?_, ?_, ?_⟩
  · rw [h1, List.mem_filter]
    simp only [bne_iff_ne, ne_eq]
    constructor
    · rintro ⟨g1, g2⟩; exact ⟨g1, fun he => g2 (by rw [he])⟩
    · rintro ⟨g1, g2⟩; exact ⟨g1, fun he => g2 (hb.cl.ord.eq_of_ref g1 hc he)⟩
  · intro m hm
    rw [h2] at hm
    split at hm
    · exact (List.mem_filter.1 hm).1
    · exact hm
  · intro m hm hg
    rw [h2]
    split
    · refine List.mem_filter.2 ⟨hm, ?_⟩
      simp only [bne_iff_ne, ne_eq]
      exact fun he => hg c rfl hc he.symm
    · exact hm
  · rintro m hm d hd rfl hty he
    rw [h2, if_pos hty] at hm
    have := (List.mem_filter.1 hm).2
    simp only [bne_iff_ne, ne_eq] at this
    exact this he.symm

theorem Gone.trans {G H : Client → Prop} (h : Gone s t G) (h' : Gone t u H) :
    Gone s u (fun c => G c ∨ H c) := by
  refine ⟨fun c => ?_, ?_, ?_, ?_⟩
  · rw [h'.clients, h.clients]
    constructor
    · rintro ⟨⟨g1, g2⟩, g3⟩; exact ⟨g1, fun g => g.elim g2 g3⟩
    · rintro ⟨g1, g2⟩; exact ⟨⟨g1, fun g => g2 (.inl g)⟩, fun g => g2 (.inr g)⟩
  · exact fun m hm => h.cl2 m (h'.cl2 m hm)
  · intro m hm hg
    refine h'.keep m (h.keep m hm (fun c hc => hg c (.inl hc))) ?_
    intro c hc hct
    exact hg c (.inr hc) ((h.clients c).1 hct).1
  · intro m hm c hc hg hty
    rcases Classical.em (G c) with g | g
    · exact h.gone m (h'.cl2 m hm) c hc g hty
    · rcases hg with hg | hg
      · exact absurd hg g
      · exact h'.gone m hm c ((h.clients c).2 ⟨hc, g⟩) hg hty

theorem Gone.congr {G H : Client → Prop} (h : Gone s t G) (hi : ∀ c ∈ s.clients, G c ↔ H c) :
    Gone s t H := by
  refine ⟨fun c => ?_, h.cl2, ?_, ?_⟩
  · rw [h.clients]
    constructor
    · rintro ⟨g1, g2⟩; exact ⟨g1, fun g => g2 ((hi c g1).2 g)⟩
    · rintro ⟨g1, g2⟩; exact ⟨g1, fun g => g2 ((hi c g1).1 g)⟩
  · intro m hm hg; exact h.keep m hm (fun c hc hcs => hg c ((hi c hcs).1 hc) hcs)
  · intro m hm c hc hg; exact h.gone m hm c hc ((hi c hc).2 hg)

theorem Gone.core (h : t.core = s.core) : Gone s t (fun _ => False) := by
  refine ⟨fun c => ?_, ?_, ?_, ?_⟩
  · rw [core_clients h]; simp
  · rw [core_cl2 h]; exact fun m hm => hm
  · rw [core_cl2 h]; exact fun m hm _ => hm
  · intro m hm c hc hg; exact hg.elim

/-- Destroying a client none of whose children is left. -/
theorem destroy_noOrphans (hb : Base t) (hno : NoOrphans s t)
    {c : Client} (hp : Okay x t (.destroy c)) (hu : u.core = ((Act.destroy c).run t).core) : NoOrphans s u := by
  obtain ⟨h1, h2, -⟩ := hp
  have hcm := List.mem_of_find?_eq_some h2
  have hg := destroy_gone hb hcm hu
  intro d hd p hpm hps hdi hne
  have hdt := ((hg.clients d).1 hd).1
  have hpt := hno d hdt p hpm hps hdi hne
  refine (hg.clients p).2 ⟨hpt, ?_⟩
  rintro rfl
  have hhit : destroyHit t p.ref d = true := by
    have : t.cl p.ref = p := cl_of_mem' hb.cl.ord hpt rfl
    simp [destroyHit, this, hps, hdi, hne]
  have hle := find_desc hb.cl.ord h2 hdt hhit
  have := hb.cl.intro d hdt
  omega

/-- The clients removed before the client itself. -/
theorem child_gone (hb : Base s) {r : Nat} (h : Steps (ChildStep x r) s u) :
    NoOrphans s u ∧ ∃ G : Client → Prop, Gone s u G ∧ ∀ c, G c → Under s r c ∧ r < c.ref := by
  induction h with
  | refl hc =>
    refine ⟨?_, _, Gone.core hc, fun c h => h.elim⟩
    intro d hd p hp _ _ _
    rw [core_clients hc]; exact hp
  | @tail t0 t' a h0 hp hr ih =>
    obtain ⟨h1, d, rfl, h3, h4, h5⟩ := hp
    obtain ⟨hno, G, hG, hGu⟩ := ih
    have hb0 : Base t0 := (h0.mono (fun _ _ h => h.1)).base hb
    have hdm := h5.mem
    refine ⟨destroy_noOrphans hb0 hno h1 hr, _,
      hG.trans (destroy_gone hb0 hdm hr), ?_⟩
    rintro c (hc | rfl)
    · exact hGu c hc
    · exact ⟨h5.mono (fun c hc => ((hG.clients c).1 hc).1), h4⟩

/-- A removed client takes exactly those with it that depend on it. -/
theorem under_gone (hb : Base s) {c : Client} (hc : c ∈ s.clients) (h : Steps (ChildStep x c.ref) s u)
    (ho : Okay x u (.destroy c)) (hr : t.core = ((Act.destroy c).run u).core) :
    Gone s t (Under s c.ref) := by
  obtain ⟨hno, G, hG, hGu⟩ := child_gone hb h
  have hbu : Base u := (h.mono (fun _ _ h => h.1)).base hb
  have hcu := List.mem_of_find?_eq_some ho.2.1
  have hno' := destroy_noOrphans hbu hno ho hr
  have hgt := hG.trans (destroy_gone hbu hcu hr)
  refine hgt.congr (fun d hd => ?_)
  constructor
  · rintro (hg | rfl)
    · exact (hGu d hg).1
    · exact .self hd rfl
  · intro hu
    have hnot : d ∉ t.clients := by
      clear hd
      induction hu with
      | self hd hdr =>
        have := hb.cl.ord.eq_of_ref hd hc hdr
        subst this
        intro hh
        exact ((hgt.clients _).1 hh).2 (.inr rfl)
      | child hd hup hps hdi hne ih =>
        intro hh
        exact ih (hno' _ hh _ hup.mem hps hdi hne)
    rcases Classical.em (G d ∨ d = c) with g | g
    · exact g
    · exact absurd ((hgt.clients d).2 ⟨hd, g⟩) hnot

/-- `Client_Destroy` of a client without connection. -/
theorem clientDestroy_gone (hb : Base s) {c : Client} (hc : c ∈ s.clients) (hne : c.ref ≠ s.this)
    (hconn : c.conn = none) (fwd : Option Str) (q : Bool) :
    Gone s (clientDestroy s c.ref fwd q) (Under s c.ref) := by
  obtain ⟨u, h1, h2, h3, h4⟩ := clientDestroy_steps (x := { peer := True }) hb hc hne hconn (.inl trivial) fwd q
  exact under_gone hb hc h1 h3 h4

/-- `Conn_Close`. -/
theorem connClose_gone (hb : Base s) {k : Conn} (hk : s.conn? i = some k) (fwd : Option Str) (inform : Bool) :
    Gone s (connClose s i fwd inform) (Under s k.client) := by
  obtain ⟨u, h1, h2, h3, h4⟩ := connClose_steps (x := { peer := True }) hb hk (.inl trivial) fwd inform
  obtain ⟨g1, g2, g3, g4⟩ := conn?_mem hb.cl hk
  have h1' : Steps (ChildStep { peer := True } (s.cl k.client).ref) s u := by rw [g2]; exact h1
  have := under_gone hb g1 h1' h3 h4
  rw [g2] at this
  exact this

/-- As long as introducers are servers, what is behind a connection is what depends on its
client. -/
theorem behind_iff_under (hb : Base s) (hk : KindInv s) {c0 c : Client} (hc0 : c0 ∈ s.clients)
    (hconn : c0.conn = some i) (hc : c ∈ s.clients) : Behind s i c ↔ Under s c0.ref c := by
  constructor
  · intro h
    induction h with
    | @direct c h => exact .self hc (congrArg Client.ref (conn_owner hb hc hc0 h hconn))
    | @via c p hn hp hpr hbp ih =>
      have hne := Spec.Behind.ne_this hb (.via hn hp hpr hbp) hc
      obtain ⟨q, hq, hqr, hqs⟩ := hk.intro c hc hn
      have hpq : q = p := hb.cl.ord.eq_of_ref hq hp (by rw [hqr, hpr])
      subst hpq
      exact .child hc (ih hp) hqs hpr.symm (by rw [hpr]; exact fun h => (hb.cl.rem c hc hn hne).1 h.symm)
  · intro h
    clear hc
    induction h with
    | @self c h hr =>
      have := hb.cl.ord.eq_of_ref h hc0 hr
      subst this; exact .direct hconn
    | @child c p h hup hps hi hne ih =>
      have hcn : c.conn = none := by
        cases hco : c.conn with
        | none => rfl
        | some j =>
          rcases hb.cl.loc c h (by rw [hco]; rfl) with g | g
          · rw [g] at hi; exact absurd hi hne
          · have : p.ref ≠ s.this := Spec.Behind.ne_this hb ih hup.mem
            rw [g] at hi; exact absurd hi.symm this
      exact .via hcn hup.mem hi.symm ih

end Ngircd
