import Verif.Lemmas.Hop
import Verif.Lemmas.Reply

/-!
# Who receives what is sent to channels
-/

set_option linter.unusedSimpArgs false

namespace Ngircd
open Spec

variable {s t u : Srv} {i j cl : Nat}

theorem nextHopF_mem (n : Nat) (s : Srv) : ∀ c, c ∈ s.clients ∨ c = noClient →
    nextHopF n s c ∈ s.clients ∨ nextHopF n s c = noClient := by
  induction n with
  | zero => intro c h; exact h
  | succ n ih =>
    intro c h
    simp only [nextHopF]
    split
    · refine ih _ ?_
      simp only [Srv.cl]
      cases hq : s.cl? c.introducer with
      | none => exact .inr rfl
      | some d => exact .inl (List.mem_of_find?_eq_some hq)
    · exact h

theorem nextHop_mem {c : Client} (hc : c ∈ s.clients) (h : (nextHop s c).conn.isSome = true) :
    nextHop s c ∈ s.clients := by
  rcases nextHopF_mem s.clients.length s c (.inl hc) with g | g
  · exact g
  · rw [nextHop, g] at h; cases h

theorem nextHop_conn (hb : Base s) {c : Client} (hc : c ∈ s.clients) :
    (nextHop s c).conn = some j ↔ Behind s j c := by
  constructor
  · intro h
    have hm := nextHop_mem hc (by rw [h]; rfl)
    have hcl := cl_of_mem hb.cl.ord hm
    exact (nextHop_iff hb (cl := (nextHop s c).ref) (by rw [hcl]; exact h) hc).1 rfl
  · intro h
    have key : ∀ c, Behind s j c → c ∈ s.clients → ∃ o ∈ s.clients, o.conn = some j := by
      intro c h
      induction h with
      | @direct c h => intro hc; exact ⟨c, hc, h⟩
      | via _ hp _ _ ih => intro _; exact ih hp
    obtain ⟨o, ho, hoc⟩ := key c h hc
    have hcl := cl_of_mem hb.cl.ord ho
    have := (nextHop_iff hb (cl := o.ref) (by rw [hcl]; exact hoc) hc).2 h
    rcases nextHopF_mem s.clients.length s c (.inl hc) with g | g
    · have e : nextHop s c = o := hb.cl.ord.eq_of_ref g ho this
      rw [e, hoc]
    · have hpos := hb.cl.pos o ho
      have : (nextHop s c).ref = 0 := by rw [nextHop, g]; rfl
      omega

theorem filterMap_once {l : List Conn} (hn : (l.map Conn.idx).Nodup) {g : Conn → Option Sent}
    (hg : ∀ k y, g k = some y → y.conn = k.idx) {k : Conn} {y : Sent} (hk : k ∈ l) (hy : g k = some y) :
    (l.filterMap g).filter (fun x => x.conn == k.idx) = [y] := by
  induction l with
  | nil => cases hk
  | cons a l ih =>
    simp only [List.map_cons, List.nodup_cons] at hn
    have hnone : ∀ (l : List Conn), k.idx ∉ l.map Conn.idx → (l.filterMap g).filter (fun x => x.conn == k.idx) = [] := by
      intro l hl
      rw [List.filter_eq_nil_iff]
      intro x hx he
      obtain ⟨b, hb, e⟩ := List.mem_filterMap.1 hx
      refine hl (List.mem_map.2 ⟨b, hb, ?_⟩)
      rw [← hg b x e]; simpa using he
    rcases List.mem_cons.1 hk with rfl | hk'
    · simp only [List.filterMap_cons, hy]
      have := hg k y hy
      rw [List.filter_cons_of_pos (by simpa using this), hnone l hn.1]
    · rw [List.filterMap_cons]
      have hne : a.idx ≠ k.idx := fun h => hn.1 (h ▸ List.mem_map.2 ⟨k, hk', rfl⟩)
      split
      · exact ih hn.2 hk'
      · rename_i b e
        rw [List.filter_cons_of_neg (by simpa [hg a b e] using hne)]
        exact ih hn.2 hk'

/-- What `Send_Marked_Connections` sends. -/
theorem marked_spec (hb : Base s) {hops : List Client} (hh : ∀ h ∈ hops, h.conn.isSome = true → h ∈ s.clients)
    (p : Client) (m : Msg) :
    ∃ o, sendMarked s p hops m = { s with out := o ++ s.out } ∧
      (∀ h ∈ hops, ∀ j, h.conn = some j → o.filter (fun x => x.conn == j) =
        [⟨j, some (if h.type = .server then p.ID else maskCloaked s p), m⟩]) ∧
      (∀ x ∈ o, ∃ h ∈ hops, h.conn = some x.conn) := by
  refine ⟨_, rfl, ?_, ?_⟩
  · intro h hm j hj
    have hc := hh h hm (by rw [hj]; rfl)
    obtain ⟨k, hk, e1, e2⟩ := hb.cl.clConn h hc j hj
    rw [List.filter_reverse]
    have hflag : flagOf hops j = some h.type := by
      simp only [flagOf]
      cases hf : hops.reverse.find? (fun x => x.conn == some j) with
      | none =>
        have := List.find?_eq_none.1 hf h (List.mem_reverse.2 hm)
        rw [hj] at this; simp at this
      | some d =>
        have h1 := List.mem_reverse.1 (List.mem_of_find?_eq_some hf)
        have h2 : d.conn = some j := by simpa using List.find?_some hf
        rw [conn_owner hb (hh d h1 (by rw [h2]; rfl)) hc h2 hj]; rfl
    rw [← e1, filterMap_once hb.cl.idx (k := k) (y := ⟨j, some (if h.type = .server then p.ID else maskCloaked s p), m⟩) ?_ hk ?_]
    · rw [e1]; rfl
    · intro k y e
      split at e
      · cases e
      · injection e with e; rw [← e]
    · rw [e1, hflag]
  · intro x hx
    rw [List.mem_reverse] at hx
    obtain ⟨k, hk, e⟩ := List.mem_filterMap.1 hx
    split at e
    · cases e
    · rename_i ty hf
      injection e with e
      simp only [flagOf, Option.map_eq_some_iff] at hf
      obtain ⟨d, hd, -⟩ := hf
      have h1 := List.mem_reverse.1 (List.mem_of_find?_eq_some hd)
      have h2 : d.conn = some k.idx := by simpa using List.find?_some hd
      refine ⟨d, h1, ?_⟩
      rw [← e]; exact h2

end Ngircd
