import Verif.Lemmas.Line
import Verif.Props.Registry

/-!
# The connection a client is reached through
-/

set_option linter.unusedSimpArgs false

namespace Ngircd
open Spec

variable {s t u : Srv} {i cl : Nat} {l : Str} {req : Request}

theorem noClient_hop (n : Nat) (s : Srv) : (nextHopF n s noClient).ref = 0 ∨
    (s.cl? 0).isSome = true := by
  cases n with
  | zero => exact .inl rfl
  | succ n => simp [nextHopF, noClient]

/-- The next hop is the connection the client is behind. -/
theorem nextHopF_behind (hb : Base s) (hcl : (s.cl cl).conn = some i) :
    ∀ n, ∀ c ∈ s.clients, (nextHopF n s c).ref = cl → Behind s i c := by
  have hm := mem_of_conn (s := s) (r := cl) (by rw [hcl]; rfl)
  intro n
  induction n with
  | zero =>
    intro c hc h
    have : s.cl cl = c := cl_of_mem' hb.cl.ord hc h
    exact .direct (by rw [← this]; exact hcl)
  | succ n ih =>
    intro c hc h
    simp only [nextHopF] at h
    split at h
    · rename_i hne
      have hnone : c.conn = none := by
        cases hco : c.conn with
        | none => rfl
        | some j => rcases hb.cl.loc c hc (by rw [hco]; rfl) with g | g <;> simp_all
      cases hp : s.cl? c.introducer with
      | none =>
        have : s.cl c.introducer = noClient := by simp [Srv.cl, hp]
        rw [this] at h
        have hpos := hb.cl.pos _ hm.1
        rw [hm.2] at hpos
        have h0 : s.cl? 0 = none := by
          cases h0 : s.cl? 0 with
          | none => rfl
          | some d =>
            have := cl?_some h0
            have := hb.cl.pos d this.1
            omega
        rcases noClient_hop n s with g | g
        · omega
        · rw [h0] at g; cases g
      | some p =>
        have hpm := cl?_some hp
        have : s.cl c.introducer = p := by simp [Srv.cl, hp]
        rw [this] at h
        exact .via hnone hpm.1 hpm.2 (ih p hpm.1 h)
    · have : s.cl cl = c := cl_of_mem' hb.cl.ord hc h
      exact .direct (by rw [← this]; exact hcl)

/-- This server is behind no connection. -/
theorem Spec.Behind.ne_this (hb : Base s) {c : Client} (h : Behind s i c) :
    c ∈ s.clients → c.ref ≠ s.this := by
  obtain ⟨th, hth, h1, h2, h3, h4⟩ := hb.cl.self
  induction h with
  | @direct c hc =>
    intro hcm hct
    have : c = th := hb.cl.ord.eq_of_ref hcm hth (by rw [hct, h1])
    subst this; rw [h3] at hc; cases hc
  | @via c p hc hp hpr hbp ih =>
    intro hcm hct
    have : c = th := hb.cl.ord.eq_of_ref hcm hth (by rw [hct, h1])
    subst this
    exact ih hp (by rw [hpr, h4])

/-- A connection has one client. -/
theorem conn_owner (hb : Base s) {c d : Client} (hc : c ∈ s.clients) (hd : d ∈ s.clients)
    (hci : c.conn = some i) (hdi : d.conn = some i) : c = d := hb.cl.conn_inj hc hd hci hdi

theorem filter_lt_length {l : List Client} {p : Client} (a b : Nat) (hp : p ∈ l) (hpa : p.ref = a)
    (hab : a < b) : (l.filter (fun d => d.ref < a)).length < (l.filter (fun d => d.ref < b)).length := by
  induction l with
  | nil => cases hp
  | cons x l ih =>
    have hle : ∀ m : List Client, (m.filter (fun d => d.ref < a)).length ≤ (m.filter (fun d => d.ref < b)).length := by
      intro m
      induction m with
      | nil => simp
      | cons y m ih' =>
        simp only [List.filter_cons, decide_eq_true_eq]
        split
        · rw [if_pos (by omega)]; simp only [List.length_cons]; omega
        · split
          · simp only [List.length_cons]; omega
          · exact ih'
    simp only [List.filter_cons, decide_eq_true_eq]
    rcases List.mem_cons.1 hp with hx | hp
    · subst hx
      rw [if_neg (by omega), if_pos (by omega)]
      have := hle l
      simp only [List.length_cons]; omega
    · have := ih hp
      split
      · rw [if_pos (by omega)]; simp only [List.length_cons]; omega
      · split
        · simp only [List.length_cons]; omega
        · exact this

/-- Everybody behind a connection of the server is found by following the introducers. -/
theorem nextHopF_of_behind (hb : Base s) (hcl : (s.cl cl).conn = some i) {c : Client}
    (hbe : Behind s i c) : ∀ n, c ∈ s.clients →
      (s.clients.filter (fun d => d.ref < c.ref)).length ≤ n → (nextHopF n s c).ref = cl := by
  have hm := mem_of_conn (s := s) (r := cl) (by rw [hcl]; rfl)
  induction hbe with
  | @direct c hc =>
    intro n hcm _
    have := conn_owner hb hcm hm.1 hc hcl
    have hh : nextHopF n s c = c := by
      rcases hb.cl.loc c hcm (by rw [hc]; rfl) with h' | h'
      · exact nextHopF_self _ _ _ h'
      · exact nextHopF_this _ _ _ h'
    rw [hh, this, hm.2]
  | @via c p hc hp hpr hbp ih =>
    intro n hcm hlen
    have hne : c.ref ≠ s.this := Spec.Behind.ne_this hb (.via hc hp hpr hbp) hcm
    have h1 := hb.cl.rem c hcm hc hne
    have h2 := hb.cl.intro c hcm
    have hlt := filter_lt_length c.introducer c.ref hp hpr (by have := h1.1; omega)
    cases n with
    | zero => omega
    | succ n =>
      simp only [nextHopF]
      rw [if_pos h1]
      have : s.cl c.introducer = p := cl_of_mem' hb.cl.ord hp hpr
      rw [this]
      exact ih n hp (by rw [hpr]; omega)

theorem nextHop_iff (hb : Base s) (hcl : (s.cl cl).conn = some i) {c : Client} (hc : c ∈ s.clients) :
    (nextHop s c).ref = cl ↔ Behind s i c := by
  refine ⟨nextHopF_behind hb hcl _ c hc, fun h => nextHopF_of_behind hb hcl h _ hc ?_⟩
  exact List.length_filter_le _ _

end Ngircd
