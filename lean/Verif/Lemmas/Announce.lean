import Verif.Lemmas.Notify
import Verif.Props.Notify
import Verif.Props.Kick

/-!
# What the members of a channel and the other servers are told
-/

set_option linter.unusedSimpArgs false

namespace Ngircd
open Spec

variable {s t u v : Srv} {i j r : Nat} {c : Client}

/-- A local member of the channel, other than `ex`, at connection `j`. -/
def LocalMember (v : Srv) (ex ch j : Nat) : Prop :=
  ∃ x ∈ v.clients, x.ref ≠ ex ∧ x.conn = some j ∧ x.type ≠ .server ∧ OnChannel v ch x.ref

/-- What the local members of a channel get. -/
theorem channel_spec (hb : Base v) (ex ch : Nat) (p : Client) (m : Msg) :
    ∃ o, (∀ t, Like v t → writeChannelPrefix t ex ch p false m = { t with out := o ++ t.out }) ∧
      (∀ j, LocalMember v ex ch j → onConn o j = [⟨j, some (maskCloaked v p), m⟩]) ∧
      (∀ y ∈ o, LocalMember v ex ch y.conn) := by
  have hhop : ∀ h, h ∈ (membersOf v ch).filterMap (hopFor v ex false) ↔
      h ∈ v.clients ∧ h.ref ≠ ex ∧ h.conn.isSome = true ∧ h.type ≠ .server ∧ OnChannel v ch h.ref := by
    intro h
    rw [List.mem_filterMap]
    constructor
    · rintro ⟨a, ha, e⟩
      obtain ⟨k', hk', k3, k4⟩ := mem_membersOf.1 ha
      simp only [hopFor, Bool.not_false, Bool.true_and] at e
      split at e
      · cases e
      · rename_i hn
        have hsome : (v.cl a).conn.isSome = true := by
          cases hc : (v.cl a).conn with
          | none => rw [hc] at hn; exact absurd rfl hn
          | some _ => rfl
        have hm := mem_of_conn hsome
        have hty : (v.cl a).type ≠ .server := by
          intro g; rw [g] at hn; simp at hn
        rw [hb.nextHop_conn hm.1 hsome] at e
        split at e
        · cases e
        · rename_i hne
          injection e with e
          subst e
          exact ⟨hm.1, hne, hsome, hty, ⟨k', hk', k3, by rw [hm.2]; exact k4⟩⟩
    · rintro ⟨h1, h2, h3, h4, k', hk', k3, k4⟩
      refine ⟨h.ref, mem_membersOf.2 ⟨k', hk', k3, k4⟩, ?_⟩
      have hn : ¬ (h.conn.isNone || decide (h.type = .server)) = true := by
        cases hc : h.conn with
        | none => rw [hc] at h3; cases h3
        | some _ => simpa using h4
      simp only [hopFor, cl_of_mem hb.cl.ord h1, Bool.not_false, Bool.true_and]
      rw [if_neg hn, hb.nextHop_conn h1 h3, if_neg h2]
  obtain ⟨o, ho, h1, h2⟩ := marked_spec hb (hops := (membersOf v ch).filterMap (hopFor v ex false))
    (fun h hh _ => ((hhop h).1 hh).1) p m
  refine ⟨o, ?_, ?_, ?_⟩
  · intro t ht
    have e1 : hopFor t ex false = hopFor v ex false := by
      funext a; simp only [hopFor, ht.cl, ht.hop]
    have e2 : membersOf t ch = membersOf v ch := by simp only [membersOf, ht.cl2]
    have e3 := congrArg Srv.out ho
    simp only [sendMarked, Srv.emits] at e3
    have e4 := List.append_cancel_right e3
    simp only [writeChannelPrefix, sendMarked, Srv.emits, e1, e2, ht.conns, ht.mask, e4]
  · rintro j ⟨x, hx, x1, x2, x3, x4⟩
    have := h1 x ((hhop x).2 ⟨hx, x1, by rw [x2]; rfl, x3, x4⟩) j x2
    rw [if_neg x3] at this
    exact this
  · intro y hy
    obtain ⟨h, hh, hc⟩ := h2 y hy
    obtain ⟨g1, g2, g3, g4, g5⟩ := (hhop h).1 hh
    exact ⟨h, g1, g2, hc, g4, g5⟩

theorem unlink_base (hb : Base s) (ch r : Nat) : Base (unlinkMember s ch r) := by
  have hsub : (unlinkMember s ch r).cl2.Sublist s.cl2 := List.eraseP_sublist
  refine ⟨hb.cl.of_eq rfl rfl rfl (Nat.le_refl _) rfl, ?_⟩
  exact ⟨hb.ch.ord, hb.ch.lt, hb.ch.pairs.sublist (hsub.map _), fun m hm => hb.ch.chan m (hsub.subset hm),
    fun m hm => hb.ch.clt m (hsub.subset hm)⟩

theorem unlink_on (hb : Base s) {ch r ch' r' : Nat} :
    OnChannel (unlinkMember s ch r) ch' r' ↔ OnChannel s ch' r' ∧ ¬ (ch' = ch ∧ r' = r) := by
  simp only [OnChannel, unlink_cl2 hb.ch, List.mem_filter]
  constructor
  · rintro ⟨m, ⟨hm, hn⟩, h1, h2⟩
    refine ⟨⟨m, hm, h1, h2⟩, ?_⟩
    rintro ⟨rfl, rfl⟩
    simp [h1, h2] at hn
  · rintro ⟨⟨m, hm, h1, h2⟩, hn⟩
    refine ⟨m, ⟨hm, ?_⟩, h1, h2⟩
    subst h1 h2
    simp only [Bool.not_eq_true', Bool.and_eq_false_iff, beq_eq_false_iff_ne]
    exact Decidable.not_and_iff_or_not.1 hn

theorem deleteIfEmpty_out (u : Srv) (ch : Nat) : (deleteIfEmpty u ch).out = u.out := by
  simp only [deleteIfEmpty]; split <;> rfl

theorem isLocal_iff (c : Chan) : c.isLocal = true ↔ c.name.head? = some '&' := by
  simp [Chan.isLocal]

theorem local_line {x f : Client} (hb : Base v) (hl : Like v u) (hx : x ∈ v.clients) {k : Nat} (hc : x.conn = some k)
    (hty : x.type ≠ .server) (m : Msg) : (writePrefix u x f m).out = ⟨k, some (maskCloaked v f), m⟩ :: u.out := by
  simp only [writePrefix, lineTo, hl.hop, hb.nextHop_conn hx (by rw [hc]; rfl), hc, Option.map_some, Option.toList,
    getPrefix, if_neg hty, hl.mask]
  rfl

/-- The lines of a removal that is not a QUIT. -/
def announce (v : Srv) (loc : Bool) (ex ex' : Nat) (ch : Nat) (f x : Client) (m : Msg) : Srv :=
  let u := if loc then v else writeServers v (some ex) f m
  let u := writeChannelPrefix u ex' ch f false m
  if x.conn.isSome then writePrefix u x f m else u

/-- The lines of a removal that is not a QUIT: the other servers, the other members, and `x`, if it is local. -/
theorem announce_out {c : Chan} {f x : Client} {m : Msg} {ex ex' : Nat} (hb : Base s) (hx : x ∈ s.clients)
    (hty : x.type ≠ .server) (hon : OnChannel s c.ref x.ref)
    (hex : ∀ j, ∀ d ∈ s.clients, d.type = .server → d.conn = some j → (some d.ref ≠ some ex ↔ j ≠ i))
    (hex' : ex' = x.ref ∨ (s.cl ex').type = .server) :
    ∃ o, (announce (unlinkMember s c.ref x.ref) c.isLocal ex ex' c.ref f x m).out = o ++ s.out ∧ Announced s i c f m o := by
  have hbv := unlink_base hb c.ref x.ref
  have hmask : maskCloaked (unlinkMember s c.ref x.ref) f = maskCloaked s f := rfl
  obtain ⟨o1, h1, h2, h3⟩ := servers_spec hbv (some ex) f m
  obtain ⟨o2, g1, g2, g3⟩ := channel_spec hbv ex' c.ref f m
  rw [hmask] at g2
  have hlk : ∀ j, isLink s j = true ↔ ∃ d ∈ s.clients, d.type = .server ∧ d.conn = some j := by
    intro j
    simp only [isLink, List.any_eq_true, Bool.and_eq_true, beq_iff_eq]
    exact ⟨fun ⟨d, a, b, e⟩ => ⟨d, a, e, b⟩, fun ⟨d, a, b, e⟩ => ⟨d, a, e, b⟩⟩
  have hnot : ∀ j, Listens s c.ref j → isLink s j = true → False := by
    rintro j ⟨y, hy, y1, y2, y3⟩ hl
    rw [isLink_iff hb hy y1] at hl
    exact y2 (by simpa using hl)
  have hloc : ∀ j, LocalMember (unlinkMember s c.ref x.ref) ex' c.ref j ↔ Listens s c.ref j ∧ x.conn ≠ some j := by
    intro j
    constructor
    · rintro ⟨y, hy, y1, y2, y3, y4⟩
      have y5 := (unlink_on hb).1 y4
      refine ⟨⟨y, hy, y2, y3, y5.1⟩, ?_⟩
      intro hxj
      exact y5.2 ⟨rfl, congrArg Client.ref (conn_owner hb hy hx y2 hxj)⟩
    · rintro ⟨⟨y, hy, y1, y2, y3⟩, hne⟩
      have hyx : y.ref ≠ x.ref := by
        intro he
        rw [hb.cl.ord.eq_of_ref hy hx he] at y1
        exact hne y1
      refine ⟨y, hy, ?_, y1, y2, (unlink_on hb).2 ⟨y3, fun h => hyx h.2⟩⟩
      rcases hex' with h | h
      · rw [h]; exact hyx
      · intro he
        rw [← he, cl_of_mem hb.cl.ord hy] at h
        exact y2 h
  -- the lines for the links
  obtain ⟨o1', e1, k2, k3⟩ : ∃ o, (if c.isLocal then unlinkMember s c.ref x.ref
        else writeServers (unlinkMember s c.ref x.ref) (some ex) f m) = { unlinkMember s c.ref x.ref with out := o ++ s.out } ∧
      (c.name.head? ≠ some '&' → ∀ j, j ≠ i → isLink s j = true → onConn o j = [⟨j, some f.ID, m⟩]) ∧
      (∀ y ∈ o, c.name.head? ≠ some '&' ∧ y.conn ≠ i ∧ isLink s y.conn = true) := by
    by_cases hl : c.isLocal = true
    · rw [if_pos hl]
      exact ⟨[], rfl, fun h => absurd ((isLocal_iff c).1 hl) h, (by intro y hy; cases hy)⟩
    · rw [if_neg hl]
      refine ⟨o1, h1 _ ⟨rfl, rfl, rfl, rfl, rfl⟩, fun _ j hj hlj => ?_, fun y hy => ?_⟩
      · obtain ⟨d, d1, d2, d3⟩ := (hlk j).1 hlj
        exact h2 j d d1 d2 d3 ((hex j d d1 d2 d3).2 hj)
      · obtain ⟨d, d1, d2, d3, d4⟩ := h3 y hy
        exact ⟨fun h => hl ((isLocal_iff c).2 h), (hex _ d d1 d2 d3).1 d4, (hlk _).2 ⟨d, d1, d2, d3⟩⟩
  obtain ⟨o3, e3, q2, q3⟩ : ∃ o3, (announce (unlinkMember s c.ref x.ref) c.isLocal ex ex' c.ref f x m).out = o3 ++ (o2 ++ (o1' ++ s.out)) ∧
      (∀ j, x.conn = some j → o3 = [⟨j, some (maskCloaked s f), m⟩]) ∧ (∀ y ∈ o3, x.conn = some y.conn) := by
    simp only [announce, e1]
    rw [g1 { unlinkMember s c.ref x.ref with out := o1' ++ s.out } ⟨rfl, rfl, rfl, rfl, rfl⟩]
    cases hc : x.conn with
    | none => exact ⟨[], rfl, (by intro j h; cases h), (by intro y hy; cases hy)⟩
    | some k =>
      refine ⟨[⟨k, some (maskCloaked s f), m⟩], ?_, ?_, ?_⟩
      · simp only [Option.isSome_some, if_true]
        exact local_line (u := { unlinkMember s c.ref x.ref with out := o2 ++ (o1' ++ s.out) }) hbv ⟨rfl, rfl, rfl, rfl, rfl⟩ hx hc hty m
      · intro j h; injection h with h; rw [h]
      · intro y hy; simp only [List.mem_singleton] at hy; rw [hy]
  refine ⟨o3 ++ (o2 ++ o1'), by rw [e3]; simp, ⟨?_, ?_, ?_⟩⟩
  · intro j hj
    have z1 : onConn o1' j = [] := onConn_nil (fun y hy he => by
      obtain ⟨-, -, w⟩ := k3 y hy
      rw [he] at w; exact hnot j hj w)
    rw [onConn_append, onConn_append, z1]
    by_cases hxj : x.conn = some j
    · have z2 : onConn o2 j = [] := onConn_nil (fun y hy he => by
        have := (hloc _).1 (g3 y hy)
        rw [he] at this; exact this.2 hxj)
      rw [z2, q2 j hxj]
      simp [onConn]
    · have z2 : onConn o3 j = [] := onConn_nil (fun y hy he => by
        have := q3 y hy
        rw [he] at this; exact hxj this)
      rw [z2, g2 j ((hloc j).2 ⟨hj, hxj⟩)]
      simp
  · intro hl j hj hlj
    have z2 : onConn o2 j = [] := onConn_nil (fun y hy he => by
        have := (hloc _).1 (g3 y hy)
        rw [he] at this; exact hnot j this.1 hlj)
    have z3 : onConn o3 j = [] := onConn_nil (fun y hy he => by
        have := q3 y hy
        rw [he] at this
        exact hnot j ⟨x, hx, this, hty, hon⟩ hlj)
    rw [onConn_append, onConn_append, z2, z3, k2 hl j hj hlj]
    simp
  · intro y hy
    simp only [List.mem_append] at hy
    rcases hy with hy | hy | hy
    · exact .inl ⟨x, hx, q3 y hy, hty, hon⟩
    · exact .inl ((hloc _).1 (g3 y hy)).1
    · exact .inr (k3 y hy)

end Ngircd
