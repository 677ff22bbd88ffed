import Verif.Lemmas.Deliver
import Verif.Spec.Messages
import Verif.Props.Messages

/-!
# Who is told about users that leave or change their nick
-/

set_option linter.unusedSimpArgs false

namespace Ngircd
open Spec

variable {s t u v : Srv} {i j r : Nat} {c : Client}

/-- The states agree on what decides where lines go. -/
structure Like (v t : Srv) : Prop where
  clients : t.clients = v.clients
  conns : t.conns = v.conns
  cl2 : t.cl2 = v.cl2
  conf : t.conf = v.conf
  this : t.this = v.this

theorem Like.cl (h : Like v t) (r : Nat) : t.cl r = v.cl r := by
  simp only [Srv.cl, Srv.cl?, h.clients]

theorem Like.mask (h : Like v t) (c : Client) : maskCloaked t c = maskCloaked v c := by
  simp only [maskCloaked, displayedHost, genCloak, h.conf, h.cl]

theorem Like.hop (h : Like v t) (c : Client) : nextHop t c = nextHop v c := by
  have : ∀ n c, nextHopF n t c = nextHopF n v c := by
    intro n
    induction n with
    | zero => intro c; rfl
    | succ n ih => intro c; simp only [nextHopF, h.this, h.cl, ih]
  simp only [nextHop, h.clients, this]

theorem Like.out (h : Like v t) {o : List Sent} : Like v { t with out := o } := ⟨h.1, h.2, h.3, h.4, h.5⟩

theorem filterMap_only {α : Type} {l : List α} {g : α → Option Sent} {d : α} {y : Sent} (hn : l.Pairwise (· ≠ ·))
    (hd : d ∈ l) (hg : g d = some y) (hj : y.conn = j) (hu : ∀ a ∈ l, ∀ z, g a = some z → z.conn = j → a = d) :
    (l.filterMap g).filter (fun x => x.conn == j) = [y] := by
  induction l with
  | nil => cases hd
  | cons a l ih =>
    have hn' := List.pairwise_cons.1 hn
    rw [List.filterMap_cons]
    rcases List.mem_cons.1 hd with rfl | hd'
    · simp only [hg]
      rw [List.filter_cons_of_pos (by simpa using hj)]
      congr 1
      rw [List.filter_eq_nil_iff]
      intro x hx he
      obtain ⟨b, hb, e⟩ := List.mem_filterMap.1 hx
      have := hu b (.tail _ hb) x e (by simpa using he)
      exact hn'.1 b hb this.symm
    · have ih' := ih hn'.2 hd' (fun a ha => hu a (.tail _ ha))
      cases hga : g a with
      | none => exact ih'
      | some z =>
        simp only
        rw [List.filter_cons_of_neg]
        · exact ih'
        · intro he
          have := hu a (.head _) z hga (by simpa using he)
          exact hn'.1 d hd' this

theorem Desc.ne {l : List Client} (h : Desc l) : l.Pairwise (· ≠ ·) :=
  List.Pairwise.imp (fun hab he => by subst he; exact absurd hab (Nat.lt_irrefl _)) h

/-- What the server links get. -/
theorem servers_spec (hb : Base v) (ex : Option Nat) (p : Client) (m : Msg) :
    ∃ o, (∀ t, Like v t → writeServers t ex p m = { t with out := o ++ t.out }) ∧
      (∀ j, ∀ d ∈ v.clients, d.type = .server → d.conn = some j → some d.ref ≠ ex → onConn o j = [⟨j, some p.ID, m⟩]) ∧
      (∀ y ∈ o, ∃ d ∈ v.clients, d.type = .server ∧ d.conn = some y.conn ∧ some d.ref ≠ ex) := by
  have hmem : ∀ d, d ∈ peerServers v ex none ↔ d ∈ v.clients ∧ d.type = .server ∧ d.conn.isSome = true ∧ some d.ref ≠ ex := by
    intro d
    simp only [peerServers, List.mem_filter, Bool.and_eq_true, decide_eq_true_eq, bne_iff_ne, ne_eq, and_true]
    constructor
    · rintro ⟨h1, ⟨⟨h2, h3⟩, -⟩, h4⟩
      exact ⟨h1, h2, h3, h4⟩
    · rintro ⟨h1, h2, h3, h4⟩
      refine ⟨h1, ⟨⟨h2, h3⟩, ?_⟩, h4⟩
      intro he
      obtain ⟨th, hth, e1, -, e3, -⟩ := hb.cl.self
      rw [hb.cl.ord.eq_of_ref h1 hth (he.trans e1.symm), e3] at h3
      cases h3
  have hline : ∀ d ∈ peerServers v ex none, ∀ k, d.conn = some k → lineTo v d p m = some ⟨k, some p.ID, m⟩ := by
    intro d hd k hk
    obtain ⟨h1, h2, h3, -⟩ := (hmem d).1 hd
    simp only [lineTo, hb.nextHop_conn h1 h3, hk, Option.map_some, getPrefix, h2, if_true]
  refine ⟨((peerServers v ex none).filterMap (fun c => lineTo v c p m)).reverse, ?_, ?_, ?_⟩
  · intro t ht
    have e1 : peerServers t ex none = peerServers v ex none := by
      simp only [peerServers, ht.clients, ht.this]
    have e2 : ∀ c, lineTo t c p m = lineTo v c p m := by
      intro c; simp only [lineTo, ht.hop, getPrefix, ht.mask]
    simp only [writeServers, writeServersFlag, Srv.emits, e1, e2]
  · intro j d hd hty hj hex
    have hdm := (hmem d).2 ⟨hd, hty, by rw [hj]; rfl, hex⟩
    rw [onConn, List.filter_reverse, filterMap_only (d := d) (y := ⟨j, some p.ID, m⟩)]
    · rfl
    · exact (hb.cl.ord.ne).filter _
    · exact hdm
    · exact hline d hdm j hj
    · rfl
    · intro a ha z hz hzj
      obtain ⟨k, hk⟩ := Option.isSome_iff_exists.1 ((hmem a).1 ha).2.2.1
      rw [hline a ha k hk] at hz
      injection hz with hz
      rw [← hz] at hzj
      subst hzj
      exact conn_owner hb ((hmem a).1 ha).1 hd hk hj
  · intro y hy
    rw [List.mem_reverse] at hy
    obtain ⟨d, hd, e⟩ := List.mem_filterMap.1 hy
    obtain ⟨h1, h2, h3, h4⟩ := (hmem d).1 hd
    obtain ⟨k, hk⟩ := Option.isSome_iff_exists.1 h3
    rw [hline d hd k hk] at e
    injection e with e
    exact ⟨d, h1, h2, by rw [← e]; exact hk, h4⟩

/-- What the local clients sharing a channel get. -/
theorem related_spec (hb : Base v) (r : Nat) (p : Client) (m : Msg) :
    ∃ o, (∀ t, Like v t → writeRelatedPrefix t r p false m = { t with out := o ++ t.out }) ∧
      (∀ j, Related v r j → onConn o j = [⟨j, some (maskCloaked v p), m⟩]) ∧
      (∀ y ∈ o, Related v r y.conn) := by
  have hhop : ∀ h, h ∈ ((channelsOf v r).flatMap (membersOf v)).filterMap (hopFor v r false) ↔
      h ∈ v.clients ∧ h.ref ≠ r ∧ h.conn.isSome = true ∧ h.type ≠ .server ∧ ∃ ch, OnChannel v ch r ∧ OnChannel v ch h.ref := by
    intro h
    rw [List.mem_filterMap]
    constructor
    · rintro ⟨a, ha, e⟩
      obtain ⟨ch, h1, h2⟩ := List.mem_flatMap.1 ha
      simp only [channelsOf, List.mem_map, List.mem_filter, beq_iff_eq] at h1
      obtain ⟨k, ⟨hk, k1⟩, k2⟩ := h1
      obtain ⟨k', hk', k3, k4⟩ := mem_membersOf.1 h2
      simp only [hopFor, Bool.not_false, Bool.true_and] at e
      split at e
      · cases e
      · rename_i hn
        have hsome : (v.cl a).conn.isSome = true := by
          cases hc : (v.cl a).conn with
          | none => rw [hc] at hn; exact absurd rfl hn
          | some _ => rfl
        have hm := mem_of_conn hsome
        have hty : (v.cl a).type ≠ .server := by
          intro g; rw [g] at hn; simp at hn
        rw [hb.nextHop_conn hm.1 hsome] at e
        split at e
        · cases e
        · rename_i hne
          injection e with e
          subst e
          exact ⟨hm.1, hne, hsome, hty, ch, ⟨k, hk, k2, k1⟩, ⟨k', hk', k3, by rw [hm.2]; exact k4⟩⟩
    · rintro ⟨h1, h2, h3, h4, ch, ⟨k, hk, k1, k2⟩, k', hk', k3, k4⟩
      refine ⟨h.ref, List.mem_flatMap.2 ⟨ch, ?_, mem_membersOf.2 ⟨k', hk', k3, k4⟩⟩, ?_⟩
      · simp only [channelsOf, List.mem_map, List.mem_filter, beq_iff_eq]
        exact ⟨k, ⟨hk, k2⟩, k1⟩
      · have hn : ¬ (h.conn.isNone || decide (h.type = .server)) = true := by
          cases hc : h.conn with
          | none => rw [hc] at h3; cases h3
          | some _ => simpa using h4
        simp only [hopFor, cl_of_mem hb.cl.ord h1, Bool.not_false, Bool.true_and]
        rw [if_neg hn, hb.nextHop_conn h1 h3, if_neg h2]
  obtain ⟨o, ho, h1, h2⟩ := marked_spec hb (hops := ((channelsOf v r).flatMap (membersOf v)).filterMap (hopFor v r false))
    (fun h hh _ => ((hhop h).1 hh).1) p m
  refine ⟨o, ?_, ?_, ?_⟩
  · intro t ht
    have e1 : hopFor t r false = hopFor v r false := by
      funext a; simp only [hopFor, ht.cl, ht.hop]
    have e2 : (channelsOf t r).flatMap (membersOf t) = (channelsOf v r).flatMap (membersOf v) := by
      have : membersOf t = membersOf v := by funext a; simp only [membersOf, ht.cl2]
      rw [this]; simp only [channelsOf, ht.cl2]
    have e3 := congrArg Srv.out ho
    simp only [sendMarked, Srv.emits] at e3
    have e4 := List.append_cancel_right e3
    simp only [writeRelatedPrefix, sendMarked, Srv.emits, e1, e2, ht.conns, ht.mask, e4]
  · rintro j ⟨x, hx, x1, x2, x3, x4⟩
    have := h1 x ((hhop x).2 ⟨hx, x1, by rw [x2]; rfl, x3, x4⟩) j x2
    rw [if_neg x3] at this
    exact this
  · intro y hy
    obtain ⟨h, hh, hc⟩ := h2 y hy
    obtain ⟨g1, g2, g3, g4, g5⟩ := (hhop h).1 hh
    exact ⟨h, g1, g2, hc, g4, g5⟩

theorem onConn_append (a b : List Sent) : onConn (a ++ b) j = onConn a j ++ onConn b j := by simp [onConn]

theorem onConn_nil {o : List Sent} (h : ∀ y ∈ o, y.conn ≠ j) : onConn o j = [] := by
  rw [onConn, List.filter_eq_nil_iff]
  intro y hy g
  exact h y hy (by simpa using g)

theorem removeQuit_out (s : Srv) (ch : Nat) (c d : Client) (z : Str) (b : Bool) :
    (removeClient s .quit ch c d z b).1.out = s.out := by
  simp only [removeClient]
  split
  · rfl
  · have h : ∀ u : Srv, (deleteIfEmpty u ch).out = u.out := by
      intro u; simp only [deleteIfEmpty]; split <;> rfl
    exact h _

theorem removeQuit_fold (l : List Chan) (c d : Client) (z : Str) (b : Bool) : ∀ s : Srv,
    (l.foldl (fun s ch => (removeClient s .quit ch.ref c d z b).1) s).out = s.out := by
  induction l with
  | nil => intro s; rfl
  | cons a l ih => intro s; rw [List.foldl_cons, ih, removeQuit_out]

theorem registerWhowas_out (s : Srv) (c : Client) : (registerWhowas s c).out = s.out := by
  obtain ⟨a, b, h⟩ := registerWhowas_eq s c
  rw [h]

theorem destroy_user (hord : Desc s.clients) (hc : c ∈ s.clients) (hty : c.type = .user ∨ c.type = .service)
    (fwd : Option Str) (q : Bool) : clientDestroy s c.ref fwd q = destroyUserOrService (dropCl s c.ref) c fwd q := by
  have hcl := cl_of_mem hord hc
  have hns : c.type ≠ .server := by rcases hty with h | h <;> rw [h] <;> decide
  have hhit : destroyHit s c.ref = fun d => d.ref == c.ref := by
    funext d
    simp only [destroyHit, hcl, decide_eq_false hns, Bool.false_and, Bool.false_or]
  simp only [clientDestroy, destroyF, hhit]
  cases hf : s.clients.find? (fun d => d.ref == c.ref) with
  | none =>
    have := List.find?_eq_none.1 hf c hc
    simp at this
  | some d =>
    have h1 := List.mem_of_find?_eq_some hf
    have h2 : d.ref = c.ref := by simpa using List.find?_some hf
    have : d = c := hord.eq_of_ref h1 hc h2
    subst this
    simp only [if_true, destroySelf]
    rcases hty with h | h <;> rw [h] <;> rfl

/-- The output of the end of a user or service: `v` is what is left. -/
theorem destroyUser_out (hb : Base v) (hl : Like v u) (fwd : Option Str) :
    ∃ o2 o3, (destroyUserOrService u c fwd true).out = o3 ++ (o2 ++ u.out) ∧
      (∀ j, ∀ d ∈ v.clients, d.type = .server → d.conn = some j →
        some d.ref ≠ (if c.conn.isSome then none else some (nextHop u c).ref) →
        onConn o2 j = [⟨j, some c.ID, ⟨"QUIT", [fwd.getD []]⟩⟩]) ∧
      (∀ y ∈ o2, ∃ d ∈ v.clients, d.type = .server ∧ d.conn = some y.conn ∧
        some d.ref ≠ (if c.conn.isSome then none else some (nextHop u c).ref)) ∧
      (∀ j, Related v c.ref j → onConn o3 j = [⟨j, some (maskCloaked v c),
        ⟨"QUIT", [if v.conf.morePrivacy then [] else fwd.getD c.id]⟩⟩]) ∧
      (∀ y ∈ o3, Related v c.ref y.conn) := by
  obtain ⟨o2, h1, h2, h3⟩ := servers_spec hb (if c.conn.isSome then none else some (nextHop u c).ref) c
    ⟨"QUIT", [fwd.getD []]⟩
  obtain ⟨o3, g1, g2, g3⟩ := related_spec hb c.ref c ⟨"QUIT", [if v.conf.morePrivacy then [] else fwd.getD c.id]⟩
  refine ⟨o2, o3, ?_, h2, h3, g2, g3⟩
  have e1 := h1 u hl
  have e0 : (if c.conn.isSome = true then writeServers u none c ⟨"QUIT", [fwd.getD []]⟩
      else writeServers u (some (nextHop u c).ref) c ⟨"QUIT", [fwd.getD []]⟩) = { u with out := o2 ++ u.out } := by
    split
    · rename_i h; rw [if_pos h] at e1; exact e1
    · rename_i h; rw [if_neg h] at e1; exact e1
  have hmp : u.conf.morePrivacy = v.conf.morePrivacy := by rw [hl.conf]
  simp only [destroyUserOrService, if_true, e0, channelQuit, hmp]
  rw [registerWhowas_out, removeQuit_fold, g1 _ hl.out]

theorem dropCl_cl (s : Srv) {r q : Nat} (h : q ≠ r) : (dropCl s r).cl q = s.cl q := by
  simp only [Srv.cl, Srv.cl?, dropCl]
  congr 1
  rw [List.find?_filter]
  congr 1
  funext d
  by_cases hd : d.ref = q
  · rw [hd]; simp [h]
  · simp [hd]

/-- Who is told when a user or service leaves. -/
theorem quit_notified (hb : Base s) (hm : c ∈ s.clients) (hne : c.ref ≠ s.this) (hty : c.type = .user ∨ c.type = .service)
    (hin : c.introducer ≠ c.ref) (hlike : Like (dropConn (dropCl s c.ref) c) u)
    (hfrom : c.conn = some i ∨ c.conn = none ∧ ∃ d ∈ s.clients, d.type = .server ∧ d.conn = some i ∧ (nextHop u c).ref = d.ref)
    (fwd : Option Str) :
    ∃ o, (destroyUserOrService u c fwd true).out = o ++ u.out ∧ Notified s i c
      ⟨"QUIT", [if s.conf.morePrivacy then [] else fwd.getD c.id]⟩ ⟨"QUIT", [fwd.getD []]⟩ o ∧ ∀ y ∈ o, y.conn ≠ i := by
  have hns : c.type ≠ .server := by rcases hty with h | h <;> rw [h] <;> decide
  have hbv : Base (dropConn (dropCl s c.ref) c) := ⟨hb.cl.drop c hm hne, ⟨hb.ch.ord, hb.ch.lt, hb.ch.pairs, hb.ch.chan, hb.ch.clt⟩⟩
  have hrel : ∀ j, Related (dropConn (dropCl s c.ref) c) c.ref j ↔ Related s c.ref j := by
    intro j
    constructor
    · rintro ⟨x, hx, x1, x2, x3, x4⟩
      exact ⟨x, (List.mem_filter.1 hx).1, x1, x2, x3, x4⟩
    · rintro ⟨x, hx, x1, x2, x3, x4⟩
      exact ⟨x, List.mem_filter.2 ⟨hx, by simpa using x1⟩, x1, x2, x3, x4⟩
  have hmask : maskCloaked (dropConn (dropCl s c.ref) c) c = maskCloaked s c := by
    have : (dropConn (dropCl s c.ref) c).cl c.introducer = s.cl c.introducer := dropCl_cl s hin
    simp only [maskCloaked, displayedHost, genCloak, this]
    rfl
  have hlink : ∀ j, isLink s j = true ↔ ∃ d ∈ (dropConn (dropCl s c.ref) c).clients, d.type = .server ∧ d.conn = some j := by
    intro j
    simp only [isLink, List.any_eq_true, Bool.and_eq_true, beq_iff_eq]
    constructor
    · rintro ⟨d, hdm, h1, h2⟩
      refine ⟨d, List.mem_filter.2 ⟨hdm, ?_⟩, h2, h1⟩
      simp only [bne_iff_ne]
      intro he
      rw [hb.cl.ord.eq_of_ref hdm hm he] at h2; exact hns h2
    · rintro ⟨d, hdm, h1, h2⟩
      exact ⟨d, (List.mem_filter.1 hdm).1, h2, h1⟩
  have hnr : ∀ j, Related s c.ref j → isLink s j = true → False := by
    rintro j ⟨x, hx, x1, x2, x3, x4⟩ hl
    rw [isLink_iff hb hx x2] at hl
    exact x3 (by simpa using hl)
  obtain ⟨o2, o3, e, h1, h2, h3, h4⟩ := destroyUser_out (c := c) hbv hlike fwd
  have hex : ∀ j, ∀ d ∈ (dropConn (dropCl s c.ref) c).clients, d.type = .server → d.conn = some j →
      (some d.ref ≠ (if c.conn.isSome then none else some (nextHop u c).ref) ↔ j ≠ i) := by
    intro j d hd hd1 hd2
    have hd0 := (List.mem_filter.1 hd).1
    rcases hfrom with hf | ⟨hf, d', g1, g2, g3, g4⟩
    · rw [hf]
      simp only [Option.isSome_some, if_true]
      refine ⟨fun _ he => ?_, fun _ => by simp⟩
      subst he
      exact hns (conn_owner hb hm hd0 hf hd2 ▸ hd1)
    · rw [hf, g4]
      simp only [Option.isSome_none, Bool.false_eq_true, if_false, ne_eq, Option.some.injEq]
      refine not_congr ⟨fun he => ?_, fun he => ?_⟩
      · rw [hb.cl.ord.eq_of_ref hd0 g1 he, g3] at hd2
        injection hd2 with hd2; exact hd2.symm
      · subst he; rw [conn_owner hb hd0 g1 hd2 g3]
  have hri : ¬ Related s c.ref i := by
    intro hr
    rcases hfrom with hf | ⟨hf, d', g1, g2, g3, g4⟩
    · obtain ⟨x, hx, x1, x2, -⟩ := hr
      exact x1 (congrArg Client.ref (conn_owner hb hx hm x2 hf))
    · refine hnr i hr ?_
      rw [isLink_iff hb g1 g3, g2]; rfl
  refine ⟨o3 ++ o2, ?_, ⟨?_, ?_, ?_⟩, ?_⟩
  · rw [e, List.append_assoc]
  · intro j hj hre
    rw [onConn_append, h3 j ((hrel j).2 hre), onConn_nil (o := o2), hmask]
    · rfl
    · intro y hy g
      obtain ⟨d, hd1, hd2, hd3, -⟩ := h2 y hy
      exact hnr j hre ((hlink j).2 ⟨d, hd1, hd2, by rw [← g]; exact hd3⟩)
  · intro j hj hli
    obtain ⟨d, hd1, hd2, hd3⟩ := (hlink j).1 hli
    rw [onConn_append, h1 j d hd1 hd2 hd3 ((hex j d hd1 hd2 hd3).2 hj), onConn_nil (o := o3)]
    · rfl
    · intro y hy g
      exact hnr j ((hrel j).1 (g ▸ h4 y hy)) hli
  · intro y hy
    rcases List.mem_append.1 hy with hy | hy
    · exact .inr (.inl ((hrel _).1 (h4 y hy)))
    · obtain ⟨d, hd1, hd2, hd3, -⟩ := h2 y hy
      exact .inr (.inr ((hlink _).2 ⟨d, hd1, hd2, hd3⟩))
  · intro y hy he
    rcases List.mem_append.1 hy with hy | hy
    · exact hri (he ▸ (hrel _).1 (h4 y hy))
    · obtain ⟨d, hd1, hd2, hd3, hd4⟩ := h2 y hy
      exact (hex _ d hd1 hd2 hd3).1 hd4 he

theorem Notified.own {m ml : Msg} {o o1 : List Sent} (h : Notified s i c m ml o) (ho : ∀ y ∈ o1, y.conn = i) :
    Notified s i c m ml (o ++ o1) where
  related j hj hr := by
    rw [onConn_append, h.related j hj hr, onConn_nil (o := o1) (fun y hy g => hj (by rw [← g]; exact ho y hy))]; rfl
  links j hj hr := by
    rw [onConn_append, h.links j hj hr, onConn_nil (o := o1) (fun y hy g => hj (by rw [← g]; exact ho y hy))]; rfl
  others y hy := by
    rcases List.mem_append.1 hy with hy | hy
    · exact h.others y hy
    · exact .inl (ho y hy)

/-- A local user leaves. -/
theorem close_user_out (hb : Base s) {k : Conn} (hk : s.conn? i = some k) (hty : (s.cl k.client).type = .user)
    (hin : (s.cl k.client).introducer ≠ k.client) (fwd : Option Str) (inform : Bool) :
    ∃ o, (connClose s i fwd inform).out = o ++ s.out ∧ Notified s i (s.cl k.client)
      ⟨"QUIT", [if s.conf.morePrivacy then [] else fwd.getD (s.cl k.client).id]⟩ ⟨"QUIT", [fwd.getD []]⟩ o := by
  obtain ⟨hm, hr, hconn, hne⟩ := conn?_mem hb.cl hk
  generalize hc : s.cl k.client = c at *
  rw [← hr] at hne hin
  simp only [connClose, hk, hc]
  generalize hs1 : (if inform = true then closeMsgs s i c fwd else s) = s1
  have hcore1 : s1.core = s.core := by rw [← hs1]; split <;> simp
  have hconf1 : s1.conf = s.conf := by
    rw [← hs1]
    split
    · simp only [closeMsgs]; split <;> rfl
    · rfl
  have hout1 : ∃ o1, s1.out = o1 ++ s.out ∧ ∀ y ∈ o1, y.conn = i := by
    rw [← hs1]
    split
    · simp only [closeMsgs]
      rw [if_pos hty]
      exact ⟨[⟨i, none, ⟨"ERROR", [c.ID, c.User, c.host, fwd.getD "\"\"".toList]⟩⟩,
        ⟨i, some (s.cl s.this).ID, ⟨"NOTICE", [c.ID, "Connection statistics".toList]⟩⟩], rfl, by simp⟩
    · exact ⟨[], rfl, by simp⟩
  obtain ⟨o1, ho1, hy1⟩ := hout1
  have hcl1 : s1.clients = s.clients := core_clients hcore1
  have hd : clientDestroy { s1 with conns := s1.conns.filter (fun x => x.idx != i) } k.client fwd true =
      destroyUserOrService (dropCl { s1 with conns := s1.conns.filter (fun x => x.idx != i) } c.ref) c fwd true := by
    rw [← hr]
    exact destroy_user (s := { s1 with conns := s1.conns.filter (fun x => x.idx != i) }) (by show Desc s1.clients; rw [hcl1]; exact hb.cl.ord)
      (by show c ∈ s1.clients; rw [hcl1]; exact hm) (.inl hty) fwd true
  have hlike : Like (dropConn (dropCl s c.ref) c) (dropCl { s1 with conns := s1.conns.filter (fun x => x.idx != i) } c.ref) := by
    refine ⟨?_, ?_, (core_cl2 hcore1 :), hconf1, (core_this hcore1 :)⟩
    · show s1.clients.filter _ = s.clients.filter _; rw [hcl1]
    · show s1.conns.filter _ = s.conns.filter _
      rw [core_conns hcore1, hconn]
      refine List.filter_congr (fun a _ => ?_)
      by_cases h : a.idx = i <;> simp [h, bne]
  rw [hd]
  obtain ⟨o, e, hn, -⟩ := quit_notified hb hm hne (.inl hty) hin hlike (.inl hconn) fwd
  refine ⟨o ++ o1, ?_, Notified.own hn hy1⟩
  show (destroyUserOrService _ c fwd true).out = _
  rw [e]
  show o ++ s1.out = _
  rw [ho1, List.append_assoc]

theorem nextHopF_drop (hb : Base s) {r : Nat} : ∀ n, ∀ d ∈ s.clients, d.ref ≤ r →
    nextHopF n (dropCl s r) d = nextHopF n s d := by
  intro n
  induction n with
  | zero => intro d _ _; rfl
  | succ n ih =>
    intro d hd hle
    simp only [nextHopF]
    show (if d.introducer ≠ d.ref ∧ d.introducer ≠ s.this then _ else _) = _
    split
    · rename_i h
      have h1 := hb.cl.intro d hd
      have h2 : d.introducer < d.ref := by have := h.1; omega
      rw [dropCl_cl s (show d.introducer ≠ r by omega)]
      cases hq : s.cl? d.introducer with
      | none =>
        have : s.cl d.introducer = noClient := by simp [Srv.cl, hq]
        rw [this, nextHopF_self _ _ _ (by rfl), nextHopF_self _ _ _ (by rfl)]
      | some p =>
        have hp := cl?_some hq
        have : s.cl d.introducer = p := by simp [Srv.cl, hq]
        rw [this]
        exact ih p hp.1 (by rw [hp.2]; omega)
    · rfl

theorem nextHop_drop (hb : Base s) {o : Client} (ho : o ∈ s.clients) (hoc : o.conn = some i) (hm : c ∈ s.clients)
    (hbe : Behind s i c) : (nextHop (dropCl s c.ref) c).ref = o.ref := by
  rw [nextHop, nextHopF_drop hb _ c hm (Nat.le_refl _)]
  have hcl := cl_of_mem hb.cl.ord ho
  refine nextHopF_of_behind hb (cl := o.ref) (by rw [hcl]; exact hoc) hbe _ hm ?_
  show _ ≤ (s.clients.filter _).length
  have : s.clients.filter (fun d => decide (d.ref < c.ref)) =
      (s.clients.filter (fun x => x.ref != c.ref)).filter (fun d => decide (d.ref < c.ref)) := by
    rw [List.filter_filter]
    refine List.filter_congr (fun a _ => ?_)
    by_cases h : a.ref < c.ref
    · have : a.ref ≠ c.ref := by omega
      simp [h, this]
    · simp [h]
  rw [this]
  exact List.length_filter_le _ _

/-- A user of another server leaves. -/
theorem destroy_remote_out (hb : Base s) (hm : c ∈ s.clients) (hty : c.type = .user ∨ c.type = .service)
    (hcn : c.conn = none) {o : Client} (ho : o ∈ s.clients) (hos : o.type = .server) (hoc : o.conn = some i) (hbe : Behind s i c)
    (fwd : Option Str) :
    ∃ o, (clientDestroy s c.ref fwd true).out = o ++ s.out ∧ Notified s i c
      ⟨"QUIT", [if s.conf.morePrivacy then [] else fwd.getD c.id]⟩ ⟨"QUIT", [fwd.getD []]⟩ o ∧ ∀ y ∈ o, y.conn ≠ i := by
  have hne := hbe.ne_this hb hm
  rw [destroy_user hb.cl.ord hm hty]
  have hlike : Like (dropConn (dropCl s c.ref) c) (dropCl s c.ref) := by
    rw [dropConn_none _ _ hcn]; exact ⟨rfl, rfl, rfl, rfl, rfl⟩
  exact quit_notified hb hm hne hty (hb.cl.rem c hm hcn hne).1 hlike
    (.inr ⟨hcn, o, ho, hos, hoc, nextHop_drop hb ho hoc hm hbe⟩) fwd

/-- A new nick is announced. -/
theorem nick_notified (hb : Base s) (hm : c ∈ s.clients) (hns : c.type ≠ .server) (ex : Option Nat) (m : Msg)
    (hex : ∀ j, ∀ d ∈ s.clients, d.type = .server → d.conn = some j → (some d.ref ≠ ex ↔ j ≠ i)) (hri : ¬ Related s c.ref i) :
    ∃ o, (∀ t, Like s t → writeRelatedPrefix (writeServers t ex c m) c.ref c false m = { t with out := o ++ t.out }) ∧
      Notified s i c m m o ∧ ∀ y ∈ o, y.conn ≠ i := by
  obtain ⟨o2, h0, h1, h2⟩ := servers_spec hb ex c m
  obtain ⟨o3, g0, g1, g2⟩ := related_spec hb c.ref c m
  have hlink : ∀ j, isLink s j = true ↔ ∃ d ∈ s.clients, d.type = .server ∧ d.conn = some j := by
    intro j
    simp only [isLink, List.any_eq_true, Bool.and_eq_true, beq_iff_eq]
    constructor
    · rintro ⟨d, hdm, h1, h2⟩; exact ⟨d, hdm, h2, h1⟩
    · rintro ⟨d, hdm, h1, h2⟩; exact ⟨d, hdm, h2, h1⟩
  have hnr : ∀ j, Related s c.ref j → isLink s j = true → False := by
    rintro j ⟨x, hx, x1, x2, x3, x4⟩ hl
    rw [isLink_iff hb hx x2] at hl
    exact x3 (by simpa using hl)
  refine ⟨o3 ++ o2, ?_, ⟨?_, ?_, ?_⟩, ?_⟩
  · intro t ht
    rw [h0 t ht, g0 _ ht.out, List.append_assoc]
  · intro j hj hre
    rw [onConn_append, g1 j hre, onConn_nil (o := o2)]
    · rfl
    · intro y hy g
      obtain ⟨d, hd1, hd2, hd3, -⟩ := h2 y hy
      exact hnr j hre ((hlink j).2 ⟨d, hd1, hd2, by rw [← g]; exact hd3⟩)
  · intro j hj hli
    obtain ⟨d, hd1, hd2, hd3⟩ := (hlink j).1 hli
    rw [onConn_append, h1 j d hd1 hd2 hd3 ((hex j d hd1 hd2 hd3).2 hj), onConn_nil (o := o3)]
    · rfl
    · intro y hy g
      exact hnr j (g ▸ g2 y hy) hli
  · intro y hy
    rcases List.mem_append.1 hy with hy | hy
    · exact .inr (.inl (g2 y hy))
    · obtain ⟨d, hd1, hd2, hd3, -⟩ := h2 y hy
      exact .inr (.inr ((hlink _).2 ⟨d, hd1, hd2, hd3⟩))
  · intro y hy he
    rcases List.mem_append.1 hy with hy | hy
    · exact hri (he ▸ g2 y hy)
    · obtain ⟨d, hd1, hd2, hd3, hd4⟩ := h2 y hy
      exact (hex _ d hd1 hd2 hd3).1 hd4 he

end Ngircd
