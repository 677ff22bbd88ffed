import Verif.Props.Announce
import Verif.Lemmas.TraceReg

/-!
# Who is told about a JOIN
-/

set_option linter.unusedSimpArgs false

namespace Ngircd
open Spec

variable {s t u v : Srv} {i j r cl : Nat} {f : Client} {c : Chan}

/-- One client's lines among those of all. -/
theorem flatMap_only {α : Type} {l : List α} {g : α → List Sent} {d : α} (hn : l.Pairwise (· ≠ ·))
    (hd : d ∈ l) (hg : ∀ y ∈ g d, y.conn = j) (hu : ∀ a ∈ l, ∀ z ∈ g a, z.conn = j → a = d) :
    (l.flatMap g).filter (fun x => x.conn == j) = g d := by
  induction l with
  | nil => cases hd
  | cons a l ih =>
    have hn' := List.pairwise_cons.1 hn
    rw [List.flatMap_cons, List.filter_append]
    rcases List.mem_cons.1 hd with rfl | hd'
    · have h1 : (g d).filter (fun x => x.conn == j) = g d := List.filter_eq_self.2 (fun y hy => by simpa using hg y hy)
      have h2 : (l.flatMap g).filter (fun x => x.conn == j) = [] := by
        rw [List.filter_eq_nil_iff]
        intro x hx he
        obtain ⟨b, hb, e⟩ := List.mem_flatMap.1 hx
        exact hn'.1 b hb (hu b (.tail _ hb) x e (by simpa using he)).symm
      rw [h1, h2, List.append_nil]
    · have h1 : (g a).filter (fun x => x.conn == j) = [] := by
        rw [List.filter_eq_nil_iff]
        intro x hx he
        exact hn'.1 d hd' (hu a (.head _) x hx (by simpa using he))
      rw [h1, List.nil_append]
      exact ih hn'.2 hd' (fun a ha => hu a (.tail _ ha))

/-- What the server links get, several lines each. -/
theorem servers_lines (hb : Base v) (ex : Option Nat) (g : Client → List Sent)
    (hg : ∀ d ∈ v.clients, d.type = .server → ∀ j, d.conn = some j → ∀ y ∈ g d, y.conn = j) :
      (∀ j, ∀ d ∈ v.clients, d.type = .server → d.conn = some j → some d.ref ≠ ex →
        onConn ((peerServers v ex none).flatMap g).reverse j = (g d).reverse) ∧
      (∀ y ∈ ((peerServers v ex none).flatMap g).reverse, ∃ d ∈ v.clients, d.type = .server ∧ d.conn = some y.conn ∧ some d.ref ≠ ex) := by
  have hmem : ∀ d, d ∈ peerServers v ex none ↔ d ∈ v.clients ∧ d.type = .server ∧ d.conn.isSome = true ∧ some d.ref ≠ ex := by
    intro d
    simp only [peerServers, List.mem_filter, Bool.and_eq_true, decide_eq_true_eq, bne_iff_ne, ne_eq, and_true]
    constructor
    · rintro ⟨h1, ⟨⟨h2, h3⟩, -⟩, h4⟩
      exact ⟨h1, h2, h3, h4⟩
    · rintro ⟨h1, h2, h3, h4⟩
      refine ⟨h1, ⟨⟨h2, h3⟩, ?_⟩, h4⟩
      intro he
      obtain ⟨th, hth, e1, -, e3, -⟩ := hb.cl.self
      rw [hb.cl.ord.eq_of_ref h1 hth (he.trans e1.symm), e3] at h3
      cases h3
  constructor
  · intro j d hd hty hj hex
    have hdm := (hmem d).2 ⟨hd, hty, by rw [hj]; rfl, hex⟩
    rw [onConn, List.filter_reverse, flatMap_only (d := d)]
    · exact (hb.cl.ord.ne).filter _
    · exact hdm
    · exact hg d hd hty j hj
    · intro a ha z hz hzj
      obtain ⟨h1, h2, h3, -⟩ := (hmem a).1 ha
      obtain ⟨k, hk⟩ := Option.isSome_iff_exists.1 h3
      have := hg a h1 h2 k hk z hz
      rw [hzj] at this
      subst this
      exact conn_owner hb h1 hd hk hj
  · intro y hy
    rw [List.mem_reverse] at hy
    obtain ⟨d, hd, e⟩ := List.mem_flatMap.1 hy
    obtain ⟨h1, h2, h3, h4⟩ := (hmem d).1 hd
    obtain ⟨k, hk⟩ := Option.isSome_iff_exists.1 h3
    exact ⟨d, h1, h2, by rw [hg d h1 h2 k hk y e]; exact hk, h4⟩

theorem rp_sendChannelInfo (hc : (nextHop s f).conn = some i) (h : Reply i s t) (ch : Chan) : Reply i s (sendChannelInfo t f ch) := by
  have h1 : Reply i s (if ch.topic.isEmpty then t else
    write (write t f ⟨"RPL_TOPIC_MSG", [f.ID, ch.name, ch.topic]⟩) f
      ⟨"RPL_TOPICSETBY_MSG", [f.ID, ch.name, ch.topicWho, intStr ch.topicTime]⟩) :=
    rp_ite h (rp_write hc (rp_write hc h))
  have h2 : ∀ u, Reply i s u → Reply i s (sendNAMES u f ch) := by
    intro u hu
    simp only [sendNAMES]
    split
    · exact hu
    · split
      · exact hu
      · split
        · exact hu
        · exact rp_write hc hu
  exact rp_write hc (h2 _ h1)

/-- The end of joining: `v` has the new member. -/
def joinTail (v : Srv) (cl target ch : Nat) (n : Str) : Srv :=
  let s := joinForward v cl (v.cl target) (v.chan ch) n
  if (s.cl cl).type = .user then
    let s := writePrefix s (s.cl cl) (s.cl target) ⟨"JOIN", [n]⟩
    sendChannelInfo s (s.cl cl) (s.chan ch)
  else s

theorem joinForwardLines_eq (hb : Base v) {d : Client} (hd : d ∈ v.clients) (hty : d.type = .server) (hj : d.conn = some j) (n ms : Str) :
    (joinForwardLines v f d n ms).reverse = joinLinkLines v f n ms j := by
  have hl : ∀ m, lineTo v d f m = some ⟨j, some f.ID, m⟩ := by
    intro m
    simp only [lineTo, hb.nextHop_conn hd (by rw [hj]; rfl), hj, Option.map_some, getPrefix, hty, if_true]
  have hrf : isRfc1459 v j = oldStyle v j := by
    simp only [isRfc1459, oldStyle, Srv.conn?]
    cases hq : v.conns.find? (fun k => k.idx == j) with
    | none =>
      symm
      rw [List.any_eq_false]
      intro k hk
      have := List.find?_eq_none.1 hq k hk
      simp only [Bool.and_eq_true, not_and]
      intro h; exact absurd h this
    | some k =>
      have h1 := List.mem_of_find?_eq_some hq
      have h2 : k.idx = j := by simpa using List.find?_some hq
      simp only
      cases hk : k.rfc1459 with
      | true =>
        symm; rw [List.any_eq_true]
        exact ⟨k, h1, by simp [h2, hk]⟩
      | false =>
        symm; rw [List.any_eq_false]
        intro k' hk'
        simp only [Bool.and_eq_true, beq_iff_eq, not_and]
        intro he
        have : k' = k := conn_eq_of_idx hb hk' h1 (he.trans h2.symm)
        rw [this, hk]; decide
  simp only [joinForwardLines, hj, hrf, hl, joinLinkLines, Option.toList]
  cases ms with
  | nil => split <;> rfl
  | cons a as => split <;> rfl

theorem joinTail_told (hb : Base v) (hcl : v.cl cl ∈ v.clients) (href : (v.cl cl).ref = cl) (hci : (v.cl cl).conn = some i)
    (hcu : (v.cl cl).type = .user ∨ (v.cl cl).type = .server) (hf : f ∈ v.clients) (hcm : c ∈ v.chans) (n : Str) :
    ∃ o, (joinTail v cl f.ref c.ref n).out = o ++ v.out ∧
      JoinTold v i ((v.cl cl).type = .user) c f n (strlcpy (CHANNEL_MODE_LEN - 1) (userModes v c.ref f.ref)) o := by
  have hfc : v.cl f.ref = f := cl_of_mem hb.cl.ord hf
  have hch : v.chan c.ref = c := chan_of_mem hb.ch hcm
  generalize hms : strlcpy (CHANNEL_MODE_LEN - 1) (userModes v c.ref f.ref) = ms
  have hlk : ∀ j, isLink v j = true ↔ ∃ d ∈ v.clients, d.type = .server ∧ d.conn = some j := by
    intro j
    simp only [isLink, List.any_eq_true, Bool.and_eq_true, beq_iff_eq]
    exact ⟨fun ⟨d, a, b, e⟩ => ⟨d, a, e, b⟩, fun ⟨d, a, b, e⟩ => ⟨d, a, e, b⟩⟩
  have hnot : ∀ j, Listens v c.ref j → isLink v j = true → False := by
    rintro j ⟨y, hy, y1, y2, y3⟩ hl
    rw [isLink_iff hb hy y1] at hl
    exact y2 (by simpa using hl)
  have hex := link_except hb hcl hci
  rw [href] at hex
  have hloc : ∀ j, LocalMember v cl c.ref j ↔ Listens v c.ref j ∧ j ≠ i := by
    intro j
    constructor
    · rintro ⟨y, hy, y1, y2, y3, y4⟩
      refine ⟨⟨y, hy, y2, y3, y4⟩, ?_⟩
      rintro rfl
      exact y1 (by rw [conn_owner hb hy hcl y2 hci, href])
    · rintro ⟨⟨y, hy, y1, y2, y3⟩, hne⟩
      refine ⟨y, hy, ?_, y1, y2, y3⟩
      rintro rfl
      rw [cl_of_mem hb.cl.ord hy, y1] at hci
      injection hci with hci
      exact hne hci
  obtain ⟨s1, s2⟩ := servers_lines hb (some cl) (fun to => joinForwardLines v f to n ms) (by
    intro d hd hty j hj y hy
    have : y ∈ (joinForwardLines v f d n ms).reverse := List.mem_reverse.2 hy
    rw [joinForwardLines_eq hb hd hty hj] at this
    simp only [joinLinkLines] at this
    split at this
    · rcases List.mem_append.1 this with h | h
      · split at h
        · cases h
        · simp only [List.mem_singleton] at h; rw [h]
      · simp only [List.mem_singleton] at h; rw [h]
    · simp only [List.mem_singleton] at this; rw [this])
  obtain ⟨o1, e1, k2, k3⟩ : ∃ o, (if c.isLocal then v else v.emits ((peerServers v (some cl) none).flatMap
        (fun to => joinForwardLines v f to n ms))) = { v with out := o ++ v.out } ∧
      (c.name.head? ≠ some '&' → ∀ j, j ≠ i → isLink v j = true → onConn o j = joinLinkLines v f n ms j) ∧
      (∀ y ∈ o, c.name.head? ≠ some '&' ∧ y.conn ≠ i ∧ isLink v y.conn = true) := by
    by_cases hl : c.isLocal = true
    · rw [if_pos hl]
      exact ⟨[], rfl, fun h => absurd ((isLocal_iff c).1 hl) h, (by intro y hy; cases hy)⟩
    · rw [if_neg hl]
      refine ⟨_, rfl, fun _ j hj hlj => ?_, fun y hy => ?_⟩
      · obtain ⟨d, d1, d2, d3⟩ := (hlk j).1 hlj
        rw [s1 j d d1 d2 d3 ((hex j d d1 d2 d3).2 hj), joinForwardLines_eq hb d1 d2 d3]
      · obtain ⟨d, d1, d2, d3, d4⟩ := s2 y hy
        exact ⟨fun h => hl ((isLocal_iff c).2 h), (hex _ d d1 d2 d3).1 d4, (hlk _).2 ⟨d, d1, d2, d3⟩⟩
  obtain ⟨o2, g1, g2, g3⟩ := channel_spec hb cl c.ref f ⟨"JOIN", [n]⟩
  obtain ⟨o3, e3, q2, q3⟩ : ∃ o, (if ms.isEmpty then { v with out := o2 ++ (o1 ++ v.out) }
        else writeChannelPrefix { v with out := o2 ++ (o1 ++ v.out) } cl c.ref f false ⟨"MODE", [n, '+' :: ms, f.ID]⟩) =
        { v with out := o ++ (o2 ++ (o1 ++ v.out)) } ∧
      (∀ j, Listens v c.ref j → j ≠ i → onConn o j = if ms = [] then [] else [⟨j, some (maskCloaked v f), ⟨"MODE", [n, '+' :: ms, f.ID]⟩⟩]) ∧
      (∀ y ∈ o, LocalMember v cl c.ref y.conn) := by
    cases ms with
    | nil => exact ⟨[], rfl, fun _ _ _ => rfl, (by intro y hy; cases hy)⟩
    | cons a as =>
      obtain ⟨o, g1, g2, g3⟩ := channel_spec hb cl c.ref f ⟨"MODE", [n, '+' :: a :: as, f.ID]⟩
      exact ⟨o, g1 { v with out := o2 ++ (o1 ++ v.out) } ⟨rfl, rfl, rfl, rfl, rfl⟩, fun j h1 h2 => g2 j ((hloc j).2 ⟨h1, h2⟩), g3⟩
  have hfw : joinForward v cl f c n = { v with out := o3 ++ (o2 ++ (o1 ++ v.out)) } := by
    simp only [joinForward, hms, e1]
    rw [g1 { v with out := o1 ++ v.out } ⟨rfl, rfl, rfl, rfl, rfl⟩]
    exact e3
  obtain ⟨o4, e4, p2, p3⟩ : ∃ o, (joinTail v cl f.ref c.ref n).out = o ++ (o3 ++ (o2 ++ (o1 ++ v.out))) ∧
      ((v.cl cl).type = .user → ∃ p, o = p ++ [⟨i, some (maskCloaked v f), ⟨"JOIN", [n]⟩⟩] ) ∧
      (∀ y ∈ o, (v.cl cl).type = .user ∧ y.conn = i) := by
    simp only [joinTail, hfc, hch, hfw]
    generalize hq : ({ v with out := o3 ++ (o2 ++ (o1 ++ v.out)) } : Srv) = q
    have hl : Like v q := by rw [← hq]; exact ⟨rfl, rfl, rfl, rfl, rfl⟩
    have hbq : Base q := by rw [← hq]; exact Base.of_core (s := v) rfl hb
    have ho : q.out = o3 ++ (o2 ++ (o1 ++ v.out)) := by rw [← hq]
    rw [hl.cl]
    by_cases hu : (v.cl cl).type = .user
    · rw [if_pos hu]
      have hw := local_line (f := f) hb hl hcl hci (by rw [hu]; decide) ⟨"JOIN", [n]⟩
      simp only [hl.cl, hfc]
      generalize hq2 : writePrefix q (v.cl cl) f ⟨"JOIN", [n]⟩ = q2 at hw
      have hl2 : Like v q2 := by rw [← hq2, ← hq]; exact ⟨rfl, rfl, rfl, rfl, rfl⟩
      have hhop : (nextHop q2 (v.cl cl)).conn = some i := by
        rw [hl2.hop, hb.nextHop_conn hcl (by rw [hci]; rfl)]; exact hci
      have hrp := rp_sendChannelInfo (f := v.cl cl) hhop (rp_refl i q2) (q2.chan c.ref)
      obtain ⟨p, ep, hp⟩ := hrp
      refine ⟨p ++ [⟨i, some (maskCloaked v f), ⟨"JOIN", [n]⟩⟩], ?_, fun _ => ⟨p, rfl⟩, ?_⟩
      · rw [hl2.cl, ep]
        show p ++ q2.out = _
        rw [hw, ho]; simp
      · intro y hy
        rcases List.mem_append.1 hy with h | h
        · exact ⟨hu, hp y h⟩
        · simp only [List.mem_singleton] at h; rw [h]; exact ⟨hu, rfl⟩
    · rw [if_neg hu]
      exact ⟨[], by rw [ho]; rfl, fun h => absurd h hu, (by intro y hy; cases hy)⟩
  have z : ∀ (j : Nat) (o : List Sent), (∀ y ∈ o, LocalMember v cl c.ref y.conn) → (¬ Listens v c.ref j ∨ j = i) → onConn o j = [] := by
    intro j o ho hj
    refine onConn_nil (fun y hy he => ?_)
    have := (hloc _).1 (ho y hy)
    rw [he] at this
    rcases hj with h | h
    · exact h this.1
    · exact this.2 h
  refine ⟨o4 ++ (o3 ++ (o2 ++ o1)), by rw [e4]; simp, ⟨?_, ?_, ?_, ?_⟩⟩
  · intro hu
    obtain ⟨p, hp⟩ := p2 hu
    have z1 : onConn o1 i = [] := onConn_nil (fun y hy he => (k3 y hy).2.1 he)
    refine ⟨onConn p i, ?_⟩
    rw [onConn_append, onConn_append, onConn_append, z1, z i o2 g3 (.inr rfl), z i o3 q3 (.inr rfl), hp, onConn_append]
    simp [onConn]
  · intro j hj hlj
    have z1 : onConn o1 j = [] := onConn_nil (fun y hy he => by
      have := (k3 y hy).2.2; rw [he] at this; exact hnot j hlj this)
    have z4 : onConn o4 j = [] := onConn_nil (fun y hy he => hj (he.symm.trans (p3 y hy).2))
    rw [onConn_append, onConn_append, onConn_append, z1, z4, q2 j hlj hj, g2 j ((hloc j).2 ⟨hlj, hj⟩)]
    simp
  · intro hl j hj hlj
    have hn : ¬ Listens v c.ref j := fun h => hnot j h hlj
    have z4 : onConn o4 j = [] := onConn_nil (fun y hy he => hj (he.symm.trans (p3 y hy).2))
    rw [onConn_append, onConn_append, onConn_append, z j o2 g3 (.inl hn), z j o3 q3 (.inl hn), z4, k2 hl j hj hlj]
    simp
  · intro y hy
    simp only [List.mem_append] at hy
    rcases hy with hy | hy | hy | hy
    · exact .inl (p3 y hy)
    · exact .inr (.inl ((hloc _).1 (q3 y hy)).1)
    · exact .inr (.inl ((hloc _).1 (g3 y hy)).1)
    · exact .inr (.inr (k3 y hy))

theorem userModes_mem (hi : ChInv s) {m : Cl2Chan} (hm : m ∈ s.cl2) : userModes s m.chan m.client = m.modes := by
  simp only [userModes, getCl2Chan]
  split
  · rename_i k hk
    have h1 := List.mem_of_find?_eq_some hk
    have h2 := List.find?_some hk
    simp only [Bool.and_eq_true, beq_iff_eq] at h2
    rw [pair_eq hi hm h1 (by first | exact h2.1 | exact h2.2) (by first | exact h2.2 | exact h2.1)]
  · rename_i hk
    have := List.find?_eq_none.1 hk m hm
    simp at this

theorem joinTail_core (v : Srv) (cl target ch : Nat) (n : Str) : (joinTail v cl target ch n).core = v.core := by
  simp only [joinTail]
  split
  · rw [core_sendChannelInfo, core_writePrefix, core_joinForward]
  · exact core_joinForward _ _ _ _ _

/-- What joining leaves alone. -/
structure JoinOnly (u v : Srv) (ch target : Nat) : Prop where
  like : v.clients = u.clients ∧ v.conns = u.conns ∧ v.conf = u.conf ∧ v.this = u.this ∧ v.out = u.out
  cl2 : ∀ m ∈ v.cl2, (m.chan = ch ∧ m.client = target) ∨ ∃ m' ∈ u.cl2, m'.chan = m.chan ∧ m'.client = m.client

theorem JoinOnly.umode {ch target : Nat} (h : JoinOnly u v ch target) (m : Char) : JoinOnly u (userModeAdd v ch target m).1 ch target := by
  refine ⟨h.like, fun k hk => ?_⟩
  simp only [userModeAdd, List.mem_map] at hk
  obtain ⟨k', hk', rfl⟩ := hk
  have := h.cl2 k' hk'
  split <;> exact this

theorem JoinOnly.modes {ch target : Nat} (h : JoinOnly u v ch target) (fl : Str) : JoinOnly u (joinSetModes v ch target fl) ch target := by
  have h1 : ∀ (fl : Str) (v : Srv), JoinOnly u v ch target → JoinOnly u (fl.foldl (fun s m => (userModeAdd s ch target m).1) v) ch target := by
    intro fl
    induction fl with
    | nil => intro v h; exact h
    | cons a fl ih => intro v h; exact ih _ (h.umode a)
  simp only [joinSetModes]
  split
  · exact (h1 fl v h).umode 'o'
  · exact h1 fl v h

theorem joinDo_tail {target : Nat} {n fl : Str} {w : Bool} (hcl : (u.cl target).ref = target) :
    (joinDo u cl target n fl w).cl2 = u.cl2 ∨
    (isValidChanName n = true ∧ ∃ v ch, joinDo u cl target n fl w = joinTail v cl target ch n ∧ JoinOnly u v ch target) := by
  simp only [joinDo]
  by_cases hv : isValidChanName n = true
  · cases hs : channelSearch u n with
    | some ch =>
      by_cases hm : isMemberOf u ch.ref target = true
      · left
        have hj : channelJoin u (u.cl target) n = (u, false) := by
          simp only [channelJoin, hv, hs, hcl, hm, Bool.not_true, Bool.false_eq_true, if_false, if_true]
        rw [hj]
      · refine .inr ⟨hv, ?_⟩
        have hj : channelJoin u (u.cl target) n = (addClient u ch.ref target, true) := by
          simp only [channelJoin, hv, hs, hcl, hm, Bool.not_true, Bool.false_eq_true, if_false]
        have hs' : channelSearch (addClient u ch.ref target) n = some ch := hs
        rw [hj]
        simp only [hs']
        refine ⟨_, ch.ref, rfl, ?_⟩
        refine JoinOnly.modes ?_ fl
        have h0 : JoinOnly u (addClient u ch.ref target) ch.ref target := by
          refine ⟨⟨rfl, rfl, rfl, rfl, rfl⟩, fun m hm => ?_⟩
          rcases List.mem_cons.1 hm with rfl | hm
          · exact .inl ⟨rfl, rfl⟩
          · exact .inr ⟨m, hm, rfl, rfl⟩
        split
        · exact ⟨h0.like, h0.cl2⟩
        · exact h0
    | none =>
      refine .inr ⟨hv, ?_⟩
      have hlen : n.length < CHANNEL_NAME_LEN := by
        simp only [isValidChanName, Bool.and_eq_true, decide_eq_true_eq] at hv; exact hv.1.2
      have hcut : strlcpy CHANNEL_NAME_LEN n = n := by
        simp only [strlcpy]; exact List.take_of_length_le (by omega)
      have hj : channelJoin u (u.cl target) n = (addClient (channelCreate u n) u.nextRef target, true) := by
        simp only [channelJoin, hv, hs, hcl, Bool.not_true, Bool.false_eq_true, if_false]
      have hs' : channelSearch (addClient (channelCreate u n) u.nextRef target) n = some (newChan u n) := by
        show List.find? _ (newChan u n :: u.chans) = _
        rw [List.find?_cons_of_pos]
        simp only [newChan, hcut, beq_self_eq_true, Bool.true_and]
        exact (caseEq_iff _ _).2 rfl
      rw [hj]
      simp only [hs']
      refine ⟨_, u.nextRef, rfl, ?_⟩
      refine JoinOnly.modes ?_ fl
      have h0 : JoinOnly u (addClient (channelCreate u n) u.nextRef target) u.nextRef target := by
        refine ⟨⟨rfl, rfl, rfl, rfl, rfl⟩, fun m hm => ?_⟩
        rcases List.mem_cons.1 hm with rfl | hm
        · exact .inl ⟨rfl, rfl⟩
        · exact .inr ⟨m, hm, rfl, rfl⟩
      split
      · exact ⟨h0.like, h0.cl2⟩
      · exact h0
  · left
    have hj : channelJoin u (u.cl target) n = (writeErr u (u.cl target) ⟨"ERR_NOSUCHCHANNEL_MSG", [(u.cl target).ID, n]⟩, false) := by
      simp only [channelJoin, hv, Bool.not_eq_true]
      simp
    rw [hj]; rfl

theorem JoinOnly.from {ch target : Nat} (h : JoinOnly u v ch target)
    (h1 : u.clients = s.clients ∧ u.conns = s.conns ∧ u.conf = s.conf ∧ u.this = s.this ∧ u.out = s.out ∧ u.cl2 = s.cl2) :
    JoinOnly s v ch target := by
  obtain ⟨h1, h2, h3, h4, h5, h6⟩ := h1
  obtain ⟨a1, a2, a3, a4, a5⟩ := h.like
  refine ⟨⟨a1.trans h1, a2.trans h2, a3.trans h3, a4.trans h4, a5.trans h5⟩, ?_⟩
  rw [← h6]; exact h.cl2

theorem joinAllowed_like {n key : Str} {ch : Chan} {b : Bool} (h : joinAllowed s cl ch n key = (u, b)) :
    u.clients = s.clients ∧ u.conns = s.conns ∧ u.conf = s.conf ∧ u.this = s.this ∧ (b = true → u.out = s.out) ∧ u.cl2 = s.cl2 := by
  simp only [joinAllowed] at h
  split at h
  · injection h with h h'; subst h; exact ⟨rfl, rfl, rfl, rfl, fun _ => rfl, rfl⟩
  · split at h
    · injection h with h h'; subst h; exact ⟨rfl, rfl, rfl, rfl, fun _ => rfl, rfl⟩
    · injection h with h h'; subst h h'; exact ⟨rfl, rfl, rfl, rfl, (by intro h; cases h), rfl⟩

theorem joinChecks_none {n key : Str} (h : joinChecks s cl n key = (u, none)) : u.cl2 = s.cl2 := by
  simp only [joinChecks] at h
  cases hs : channelSearch s n with
  | none =>
    rw [hs] at h; simp only at h
    split at h
    · injection h with h; subst h; rfl
    · split at h
      · injection h with h; subst h; rfl
      · injection h with h h'; cases h'
  | some ch =>
    rw [hs] at h; simp only at h
    split at h
    · injection h with h; subst h; rfl
    · split at h
      · injection h with h; subst h; rfl
      · generalize hq : joinAllowed s cl ch n key = q at h
        obtain ⟨u', b⟩ := q
        cases b with
        | true => injection h with h h'; cases h'
        | false => injection h with h h'; subst h; exact (joinAllowed_like hq).2.2.2.2.2

theorem joinChecks_some {n key fl : Str} (h : joinChecks s cl n key = (u, some fl)) :
    u.clients = s.clients ∧ u.conns = s.conns ∧ u.conf = s.conf ∧ u.this = s.this ∧ u.out = s.out ∧ u.cl2 = s.cl2 := by
  simp only [joinChecks] at h
  cases hs : channelSearch s n with
  | none =>
    rw [hs] at h; simp only at h
    split at h
    · injection h with h h'; cases h'
    · split at h
      · injection h with h h'; cases h'
      · injection h with h h'; subst h; exact ⟨rfl, rfl, rfl, rfl, rfl, rfl⟩
  | some ch =>
    rw [hs] at h; simp only at h
    split at h
    · injection h with h h'; cases h'
    · split at h
      · injection h with h h'; cases h'
      · generalize hq : joinAllowed s cl ch n key = q at h
        obtain ⟨u', b⟩ := q
        cases b with
        | true =>
          injection h with h h'; subst h
          obtain ⟨a, b, c, d, e, f⟩ := joinAllowed_like hq
          exact ⟨a, b, c, d, e rfl, f⟩
        | false => injection h with h h'; cases h'

theorem takeWhile_self {l : Str} {p : Char → Bool} (h : ∀ x ∈ l, p x = true) : l.takeWhile p = l := by
  induction l with
  | nil => rfl
  | cons a l ih => rw [List.takeWhile_cons_of_pos (h a (.head _)), ih (fun x hx => h x (.tail _ hx))]

theorem takeWhile_valid {n : Str} (h : isValidChanName n = true) : n.takeWhile (· != '\x07') = n := by
  refine takeWhile_self (fun x hx => ?_)
  simp only [isValidChanName, Bool.and_eq_true, List.all_eq_true] at h
  have := h.2 x hx
  simp only [bne_iff_ne]
  rintro rfl
  exact absurd this (by decide)

/-- One round of JOIN. -/
theorem joinOne_tail {target : Nat} {n key : Str} (hcl : (s.cl target).ref = target) (hself : (s.cl cl).type = .user → target = cl)
    (hcu : (s.cl cl).type = .user ∨ (s.cl cl).type = .server) :
    (joinOne s cl target n key).cl2 = s.cl2 ∨
    ∃ v ch, joinOne s cl target n key = joinTail v cl target ch (n.takeWhile (· != '\x07')) ∧ JoinOnly s v ch target := by
  simp only [joinOne]
  by_cases hu : (s.cl cl).type = .user
  · rw [if_pos hu]
    generalize hq : joinChecks s cl n key = q
    obtain ⟨u, fl⟩ := q
    cases fl with
    | none => exact .inl (joinChecks_none hq)
    | some fl =>
      have hk := joinChecks_some hq
      simp only
      rcases joinDo_tail (u := u) (cl := cl) (target := target) (n := n) (fl := fl) (w := (channelSearch s n).isNone)
        (by rw [cl_congr hk.1]; exact hcl) with g | ⟨hv, v, ch, g1, g2⟩
      · left; rw [g]; exact hk.2.2.2.2.2
      · refine .inr ⟨v, ch, ?_, g2.from hk⟩
        rw [takeWhile_valid hv]; exact g1
  · have hs : (s.cl cl).type = .server := hcu.resolve_left hu
    rw [if_neg hu]
    simp only [hs, if_true]
    have hcut : cutAt n '\x07' = n.takeWhile (· != '\x07') := rfl
    rw [← hcut]
    cases hch : channelSearch s (cutAt n '\x07') with
    | some chan =>
      simp only
      generalize hu' : s.updChan chan.ref (fun c =>
          { c with invites := (listsCheck c.invites (masksOf s (s.cl target))).1 }) = u
      have hk : u.clients = s.clients ∧ u.conns = s.conns ∧ u.conf = s.conf ∧ u.this = s.this ∧ u.out = s.out ∧ u.cl2 = s.cl2 := by
        rw [← hu']; exact ⟨rfl, rfl, rfl, rfl, rfl, rfl⟩
      refine Or.elim (joinDo_tail (u := u) (cl := cl) (target := target)
          (n := cutAt n '\x07') (fl := _) (w := false) (by rw [cl_congr hk.1]; exact hcl)) (fun g => .inl (g.trans hk.2.2.2.2.2)) ?_
      rintro ⟨hv, v, ch, g1, g2⟩
      exact .inr ⟨v, ch, g1, g2.from hk⟩
    | none =>
      simp only
      refine Or.elim (joinDo_tail (u := s) (cl := cl) (target := target) (n := cutAt n '\x07') (fl := _) (w := true) hcl)
        (fun g => .inl g) ?_
      rintro ⟨hv, v, ch, g1, g2⟩
      exact .inr ⟨v, ch, g1, g2⟩

end Ngircd
