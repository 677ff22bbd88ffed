import Verif.Lemmas.Strict
import Verif.Lemmas.BaseAct

/-!
# The connections of configured servers are open
-/

namespace Ngircd
open Spec

variable {s t : Srv}

/-- Every connection noted with a configured server is open. -/
def SrvInv (s : Srv) : Prop := ∀ p ∈ s.srvConn, ∃ k ∈ s.conns, k.idx = p.2

theorem SrvInv.of_eq (h : SrvInv s) (h1 : t.srvConn = s.srvConn) (h2 : t.conns.map Conn.idx = s.conns.map Conn.idx) : SrvInv t := by
  intro p hp
  rw [h1] at hp
  obtain ⟨k, hk, e⟩ := h p hp
  have : p.2 ∈ t.conns.map Conn.idx := by rw [h2]; exact List.mem_map.2 ⟨k, hk, e⟩
  obtain ⟨k', hk', e'⟩ := List.mem_map.1 this
  exact ⟨k', hk', e'⟩

theorem SrvInv.act {x : Ctx} {a : Act} (hi : SrvInv t) (hp : Okay x t a) : SrvInv (a.run t) := by
  cases a with
  | srvConn l =>
    intro p h
    rcases hp p h with h | h
    · exact hi p h
    · exact h
  | conn i f =>
    refine hi.of_eq rfl ?_
    simp only [Act.run, Srv.updConn, List.map_map]
    refine List.map_congr_left (fun k _ => ?_)
    simp only [Function.comp]
    split
    · exact (hp.keeps k).1
    · rfl
  | newLocal c k =>
    intro p h
    simp only [Act.run, initNewClient] at h ⊢
    obtain ⟨_, _, e⟩ := adjustCounters_eq { t with clients := c :: t.clients, nextRef := t.nextRef + 1 } c
    rw [e] at h
    obtain ⟨k', hk, e'⟩ := hi p h
    exact ⟨k', List.mem_cons_of_mem _ hk, e'⟩
  | destroy c =>
    intro p h
    simp only [Act.run, dropConn, (destroySelf_fields t c none false).2.1, (destroySelf_fields t c none false).2.2.1, List.mem_filter] at h ⊢
    obtain ⟨k, hk, e⟩ := hi p h.1
    exact ⟨k, ⟨hk, by rw [e]; exact h.2⟩, e⟩
  | umode r m set => simp only [Act.run]; split <;> exact hi
  | setType r ty =>
    simp only [Act.run, clientSetType]
    generalize hu : (t.updCl r fun c => if ty = .server then { c with type := ty, mytoken := genMyToken t } else { c with type := ty }) = u
    obtain ⟨_, _, h⟩ := adjustCounters_eq u (u.cl r)
    rw [h, ← hu]; exact hi
  | newCl c =>
    simp only [Act.run, initNewClient]
    obtain ⟨_, _, h⟩ := adjustCounters_eq { t with clients := c :: t.clients, nextRef := t.nextRef + 1 } c
    rw [h]; exact hi
  | whowas c =>
    obtain ⟨a', b', h2⟩ := registerWhowas_eq t c
    simp only [Act.run]; rw [h2]; exact hi
  | remove ch r => simp only [Act.run, deleteIfEmpty]; split <;> exact hi
  | chMode ch m set => simp only [Act.run]; split <;> exact hi
  | mmode ch r m set => simp only [Act.run]; split <;> exact hi
  | _ => exact hi

theorem reach_srv (h : Reachable s) : SrvInv s :=
  reach_inv_all (I := SrvInv)
    (fun s t hc hi => hi.of_eq (show t.core.srvConn = s.core.srvConn by rw [hc]) (by rw [core_conns hc]))
    (fun _ _ _ _ hi hp => hi.act hp) (fun _ _ _ p hp => absurd hp (List.not_mem_nil)) h

end Ngircd
