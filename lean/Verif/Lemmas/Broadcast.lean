import Verif.Lemmas.Announce

/-!
# Lines sent to chosen local clients
-/

set_option linter.unusedSimpArgs false

namespace Ngircd
open Spec

variable {s t u v : Srv} {i j r : Nat} {c : Client}

/-- Lines to a choice of directly connected clients. -/
theorem chosen_spec (hb : Base v) (ch : Client → Bool) (hch : ∀ d ∈ v.clients, ch d = true → d.conn.isSome = true) (p : Client) (m : Msg) :
    ∃ o, (∀ t, Like v t → t.emits ((t.clients.filter ch).filterMap (fun c => lineTo t c p m)) = { t with out := o ++ t.out }) ∧
      (∀ j, ∀ d ∈ v.clients, ch d = true → d.conn = some j →
        onConn o j = [⟨j, some (if d.type = .server then p.ID else maskCloaked v p), m⟩]) ∧
      (∀ y ∈ o, ∃ d ∈ v.clients, ch d = true ∧ d.conn = some y.conn) := by
  have hline : ∀ d ∈ v.clients.filter ch, ∀ k, d.conn = some k →
      lineTo v d p m = some ⟨k, some (if d.type = .server then p.ID else maskCloaked v p), m⟩ := by
    intro d hd k hk
    obtain ⟨h1, h2⟩ := List.mem_filter.1 hd
    simp only [lineTo, hb.nextHop_conn h1 (hch d h1 h2), hk, Option.map_some, getPrefix]
  refine ⟨((v.clients.filter ch).filterMap (fun c => lineTo v c p m)).reverse, ?_, ?_, ?_⟩
  · intro t ht
    have e2 : ∀ c, lineTo t c p m = lineTo v c p m := by
      intro c; simp only [lineTo, ht.hop, getPrefix, ht.mask]
    simp only [Srv.emits, ht.clients, e2]
  · intro j d hd hty hj
    have hdm : d ∈ v.clients.filter ch := List.mem_filter.2 ⟨hd, hty⟩
    rw [onConn, List.filter_reverse, filterMap_only (d := d) (y := ⟨j, some (if d.type = .server then p.ID else maskCloaked v p), m⟩)]
    · rfl
    · exact (hb.cl.ord.ne).filter _
    · exact hdm
    · exact hline d hdm j hj
    · rfl
    · intro a ha z hz hzj
      obtain ⟨h1, h2⟩ := List.mem_filter.1 ha
      obtain ⟨k, hk⟩ := Option.isSome_iff_exists.1 (hch a h1 h2)
      rw [hline a ha k hk] at hz
      injection hz with hz
      rw [← hz] at hzj
      subst hzj
      exact conn_owner hb h1 hd hk hj
  · intro y hy
    rw [List.mem_reverse] at hy
    obtain ⟨d, hd, e⟩ := List.mem_filterMap.1 hy
    obtain ⟨h1, h2⟩ := List.mem_filter.1 hd
    obtain ⟨k, hk⟩ := Option.isSome_iff_exists.1 (hch d h1 h2)
    rw [hline d hd k hk] at e
    injection e with e
    exact ⟨d, h1, h2, by rw [← e]; exact hk⟩

theorem isLink_mem {j : Nat} : isLink s j = true ↔ ∃ d ∈ s.clients, d.type = .server ∧ d.conn = some j := by
  simp only [isLink, List.any_eq_true, Bool.and_eq_true, beq_iff_eq]
  exact ⟨fun ⟨d, a, b, e⟩ => ⟨d, a, e, b⟩, fun ⟨d, a, b, e⟩ => ⟨d, a, e, b⟩⟩

end Ngircd
