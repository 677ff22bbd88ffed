import Verif.Lemmas.Announce
import Verif.Props.Topic

/-!
# C57: what happens on a channel is shown to its members and to the other servers

Every local member gets one line, every server link but the one it came from gets one line, unless the channel
is local to this server (its name starts with `&`), and nobody else gets any.
-/

set_option linter.unusedSimpArgs false

namespace Ngircd
open Spec

variable {s : Srv} {i : Nat} {l : Str} {cl : Nat} {req : Request} {f x : Client} {c : Chan}

/-- Who sends: the owner of the connection, or a client behind the server link. -/
theorem sender_is (h : PoliteRun s) (hr : Received s i l cl req) (hf : Originator s cl req f) (hfs : f.type ≠ .server) (rnd : Int) :
    getSender (s.roll rnd) cl req = .ok f.ref ∧
    ((s.cl cl).type = .server ∧ f.conn = none ∨ (s.cl cl).type ≠ .server ∧ f = s.cl cl) := by
  have hb := h.reachable.base
  obtain ⟨h1, h2, h3, h4⟩ := msgFrom_originator h hr hf
  obtain ⟨g1, g2, g3, g4⟩ := hr.owner hb
  by_cases hty : (s.cl cl).type = .server
  · obtain ⟨p, hp⟩ : ∃ p, req.prefix? = some p := by
      rcases hf.2 with ⟨-, p, hp, -⟩ | ⟨-, hn⟩
      · exact ⟨p, hp⟩
      · rw [hn] at h2; rw [← h2] at hfs; exact absurd hty hfs
    obtain ⟨k1, -, k3⟩ := remote_behind h hr hty hp hf hfs
    refine ⟨?_, .inl ⟨hty, k3⟩⟩
    simp only [getSender, roll_cl, hty, if_true, hp, roll_search, k1]
  · have hff : f = s.cl cl := by
      rcases hf.2 with ⟨hn, -⟩ | ⟨-, hn⟩
      · exact absurd hn hty
      · rw [← hn]; exact h2.symm
    refine ⟨?_, .inr ⟨hty, hff⟩⟩
    have e : f.ref = cl := by rw [hff]; exact g2
    rw [e]
    simp only [getSender]
    exact if_neg hty

theorem link_except (hb : Base s) {d : Client} (hd : d ∈ s.clients) (hdc : d.conn = some i) :
    ∀ j, ∀ e ∈ s.clients, e.type = .server → e.conn = some j → (some e.ref ≠ some d.ref ↔ j ≠ i) := by
  intro j e he _ hej
  refine not_congr ⟨fun g => ?_, fun g => ?_⟩
  · injection g with g
    rw [hb.cl.ord.eq_of_ref he hd g, hdc] at hej
    injection hej with hej; exact hej.symm
  · subst g
    rw [conn_owner hb he hd hej hdc]

theorem part_out (hb : Base s) (hf : f ∈ s.clients) (hty : f.type ≠ .server) (hcm : c ∈ s.chans) (hon : OnChannel s c.ref f.ref)
    (hcl : s.cl cl ∈ s.clients) (href : (s.cl cl).ref = cl) (hci : (s.cl cl).conn = some i) (hcu : (s.cl cl).type = .user ∨ (s.cl cl).type = .server)
    (hor : (s.cl cl).type = .server ∧ f.conn = none ∨ (s.cl cl).type ≠ .server ∧ f = s.cl cl) (reason : Str) :
    ∃ o, (removeClient s .part c.ref f (s.cl cl) reason true).1.out = o ++ s.out ∧
      Announced s i c f ⟨"PART", [c.name, if s.conf.morePrivacy then [] else reason]⟩ o := by
  obtain ⟨o, h1, h2⟩ := announce_out (c := c) (f := f) (x := f) (ex := cl) (ex' := cl) (i := i)
    (m := ⟨"PART", [c.name, if s.conf.morePrivacy then [] else reason]⟩) hb hf hty hon
    (by have := link_except hb hcl hci; rw [href] at this; exact this)
    (by rcases hor with ⟨g, -⟩ | ⟨-, g⟩
        · exact .inr g
        · rw [g, href]; exact .inl rfl)
  refine ⟨o, ?_, h2⟩
  rw [← h1]
  have hm : isMemberOf s c.ref f.ref = true := isMemberOf_iff.2 hon
  simp only [removeClient, hm, Bool.not_true, Bool.false_eq_true, if_false, removeMsgs, chan_of_mem hb.ch hcm]
  rw [deleteIfEmpty_out]
  have hcf : (unlinkMember s c.ref f.ref).conf = s.conf := rfl
  simp only [announce, hcf, href, Bool.true_and, Bool.not_eq_true']
  have e1 : ∀ u : Srv, (if c.isLocal = false then writeServers u (some cl) f ⟨"PART", [c.name, if s.conf.morePrivacy = true then [] else reason]⟩ else u) =
      if c.isLocal = true then u else writeServers u (some cl) f ⟨"PART", [c.name, if s.conf.morePrivacy = true then [] else reason]⟩ := by
    intro u; cases c.isLocal <;> rfl
  rw [e1]
  rcases hor with ⟨g, g'⟩ | ⟨g, g'⟩
  · simp only [g, g', Option.isSome_none, Bool.false_eq_true, if_false]
    rw [if_neg (by simp)]
  · have hu : (s.cl cl).type = .user := hcu.resolve_right g
    have hfu : f.type = .user := by rw [g']; exact hu
    simp only [← g', hfu, decide_true, Bool.and_true]

/-- **C57** The PART of a member is shown to all local members of the channel, itself included, and to the other
servers. -/
theorem C57_part (h : PoliteRun s) (hr : Received s i l cl req) (his : Is req "PART")
    (hty : (s.cl cl).type = .user ∨ (s.cl cl).type = .server) (hf : Originator s cl req f) (hfu : f.type ≠ .server) (rnd : Int)
    (hargs : 1 ≤ req.argv.length ∧ req.argv.length ≤ 2) {a : Str} (ha : items (req.arg 0) = [a])
    (hc : c ∈ s.chans) (hname : SameCase c.name a) (hon : OnChannel s c.ref f.ref) :
    ∃ o, (step s (.line i rnd l)).out = o ++ s.out ∧
      Announced s i c f ⟨"PART", [c.name, if s.conf.morePrivacy then [] else req.arg 1]⟩ o := by
  have hb := h.reachable.base
  obtain ⟨hg, hor⟩ := sender_is h hr hf hfu rnd
  obtain ⟨g1, g2, g3, -⟩ := hr.owner hb
  have hst : step s (.line i rnd l) = (ircPART (s.roll rnd) cl req).1 :=
    step_do hr rnd his rfl (by rcases hty with e | e <;> rw [e] <;> rfl) (by
      simp only [Command.argcOk, Bool.and_eq_true, decide_eq_true_eq]; exact hargs)
  have hs2 : channelSearch (s.roll rnd) a = some c := (C13_channel_lookup h a c).2 ⟨hc, hname⟩
  have hfc : (s.roll rnd).cl f.ref = f := cl_of_mem hb.cl.ord hf.1
  have hmem : isMemberOf (s.roll rnd) c.ref f.ref = true := isMemberOf_iff.2 hon
  obtain ⟨o, e, ho⟩ := part_out (s := s.roll rnd) (i := i) (cl := cl) (Base.of_core (s := s) rfl hb) hf.1 hfu hc hon g1 g2 g3 hty hor
    (if (s.roll rnd).conf.morePrivacy then [] else if req.argc > 1 then req.arg 1 else [])
  have hz : (if req.argc > 1 then req.arg 1 else []) = req.arg 1 := by
    split
    · rfl
    · rename_i hn
      simp only [Request.argc] at hn
      simp only [Request.arg]
      rw [List.getD, List.getElem?_eq_none (by omega)]
      rfl
  refine ⟨o, ?_, ?_⟩
  · rw [hst]
    simp only [ircPART, hg, strtok_items, ha, partLoop, channelPart, hfc, hs2, hmem, Bool.not_true, Bool.false_eq_true, if_false]
    exact e
  · have e2 : (if (s.roll rnd).conf.morePrivacy = true then [] else
        if (s.roll rnd).conf.morePrivacy = true then [] else if req.argc > 1 then req.arg 1 else []) =
        if s.conf.morePrivacy = true then [] else req.arg 1 := by
      rw [hz]
      show (if s.conf.morePrivacy = true then [] else if s.conf.morePrivacy = true then [] else req.arg 1) = _
      split <;> rfl
    rw [e2] at ho
    exact ⟨ho.members, ho.links, ho.others⟩

theorem kick_out (hb : Base s) (hf : f ∈ s.clients) (hhop : (nextHop s f).conn = some i) (hx : x ∈ s.clients) (hty : x.type = .user)
    (hcm : c ∈ s.chans) (hon : OnChannel s c.ref x.ref) (reason : Str) :
    ∃ o, (removeClient s .kick c.ref x f reason true).1.out = o ++ s.out ∧
      Announced s i c f ⟨"KICK", [c.name, x.ID, reason]⟩ o := by
  have hnm : nextHop s f ∈ s.clients := nextHop_mem hf (by rw [hhop]; rfl)
  obtain ⟨o, h1, h2⟩ := announce_out (c := c) (f := f) (x := x) (ex := (nextHop s f).ref) (ex' := x.ref) (i := i)
    (m := ⟨"KICK", [c.name, x.ID, reason]⟩) hb hx (by rw [hty]; decide) hon (link_except hb hnm hhop) (.inl rfl)
  refine ⟨o, ?_, h2⟩
  rw [← h1]
  have hm : isMemberOf s c.ref x.ref = true := isMemberOf_iff.2 hon
  have hh : nextHop (unlinkMember s c.ref x.ref) f = nextHop s f := by
    have : ∀ n c', nextHopF n (unlinkMember s c.ref x.ref) c' = nextHopF n s c' := by
      intro n
      induction n with
      | zero => intro c; rfl
      | succ n ih => intro c'; simp only [nextHopF, ih]; rfl
    simp only [nextHop, this]
    rfl
  simp only [removeClient, hm, Bool.not_true, Bool.false_eq_true, if_false, removeMsgs, chan_of_mem hb.ch hcm]
  rw [deleteIfEmpty_out]
  simp only [announce, hh, Bool.true_and, Bool.not_eq_true', hty, decide_true, Bool.and_true]
  have e1 : ∀ (u : Srv) (m : Msg), (if c.isLocal = false then writeServers u (some (nextHop s f).ref) f m else u) =
      if c.isLocal = true then u else writeServers u (some (nextHop s f).ref) f m := by
    intro u; cases c.isLocal <;> intros <;> rfl
  rw [e1]

/-- **C57** When a KICK removes a user from a channel, it is shown to all local members, the removed one included, and
to the other servers; when it does not, it is only answered. -/
theorem C57_kick (h : PoliteRun s) (hr : Received s i l cl req) (his : Is req "KICK")
    (hty : (s.cl cl).type = .user ∨ (s.cl cl).type = .server) (hf : Originator s cl req f) (hfu : f.type ≠ .server) (rnd : Int)
    (hargs : 2 ≤ req.argv.length ∧ req.argv.length ≤ 3) {a n : Str} (ha : pieces (req.arg 0) = [a]) (hn : pieces (req.arg 1) = [n])
    (hc : c ∈ s.chans) (hname : SameCase c.name a) (hx : x ∈ s.clients) (hxu : x.type = .user) (hid : x.id ≠ []) (hxn : SameCase x.id (nickPart n))
    (hon : OnChannel s c.ref x.ref) :
    (OnChannel (step s (.line i rnd l)) c.ref x.ref ∧ Answered i s (step s (.line i rnd l))) ∨
    (¬ OnChannel (step s (.line i rnd l)) c.ref x.ref ∧ ∃ o, (step s (.line i rnd l)).out = o ++ s.out ∧
      Announced s i c f ⟨"KICK", [c.name, x.ID, if req.argv.length = 3 then req.arg 2 else f.ID]⟩ o) := by
  have hb := h.reachable.base
  obtain ⟨hg, hor⟩ := sender_is h hr hf hfu rnd
  obtain ⟨g1, g2, g3, -⟩ := hr.owner hb
  obtain ⟨-, -, hhop, -⟩ := msgFrom_originator h hr hf
  have hst : step s (.line i rnd l) = (ircKICK (s.roll rnd) cl req).1 :=
    step_do hr rnd his rfl (by rcases hty with e | e <;> rw [e] <;> rfl) (by
      simp only [Command.argcOk, Bool.and_eq_true, decide_eq_true_eq]; exact hargs)
  have hb' : Base (s.roll rnd) := Base.of_core (s := s) rfl hb
  have hs1 : clientSearch (s.roll rnd) n = some x := by
    rw [roll_search]; exact (C13_lookup h n x).2 ⟨hx, hid, hxn⟩
  have hs2 : channelSearch (s.roll rnd) a = some c := (C13_channel_lookup h a c).2 ⟨hc, hname⟩
  have hfc : (s.roll rnd).cl f.ref = f := cl_of_mem hb.cl.ord hf.1
  have hhop' : (nextHop (s.roll rnd) f).conn = some i := by
    rw [nextHop_core (s := s) (t := s.roll rnd) rfl]; exact hhop
  have hst2 : step s (.line i rnd l) = channelKick (s.roll rnd) ((s.roll rnd).cl cl) x f a
      (if req.argv.length = 3 then req.arg 2 else f.ID) := by
    rw [hst]
    simp only [ircKICK, hg, splitCommas_eq, ha, hn, List.length_singleton, if_true, List.map_cons, List.map_nil, List.headD_cons, kickLoop, tryKick,
      hs1, hfc, Request.argc]
  rw [hst2]
  have refuse : ∀ m, (OnChannel (writeErr (s.roll rnd) f m) c.ref x.ref ∧ Answered i s (writeErr (s.roll rnd) f m)) := by
    intro m
    have := (rp_writeErr (m := m) hhop' (rp_refl i (s.roll rnd))).ans
    exact ⟨hon, this⟩
  simp only [channelKick, hs2]
  split
  · exact .inl (refuse _)
  · split
    · exact .inl (refuse _)
    · split
      · exact .inl (refuse _)
      · split
        · exact .inl (refuse _)
        · refine .inr ⟨?_, ?_⟩
          · have := (removeClient_Rem (s := s.roll rnd) hb'.ch hc .kick x f (if req.argv.length = 3 then req.arg 2 else f.ID) true).2
            rintro ⟨m, hm, e1, e2⟩
            exact this m hm ⟨e1, e2⟩
          · obtain ⟨o, e, ho⟩ := kick_out (s := s.roll rnd) hb' hf.1 hhop' hx hxu hc hon (if req.argv.length = 3 then req.arg 2 else f.ID)
            exact ⟨o, e, ⟨ho.members, ho.links, ho.others⟩⟩

theorem topic_out (hb : Base s) (hcl : s.cl cl ∈ s.clients) (href : (s.cl cl).ref = cl) (hci : (s.cl cl).conn = some i)
    (hcu : (s.cl cl).type = .user ∨ (s.cl cl).type = .server) (hcm : c ∈ s.chans) (name topic : Str) (r : Nat) :
    ∃ o, (topicSet s cl r c name topic).out = o ++ s.out ∧
      TopicTold s i ((s.cl cl).type = .user) (s.cl cl) c (s.cl (if s.conf.operServerMode then s.this else r)) ⟨"TOPIC", [name, topic]⟩ (topic ≠ c.topic) o := by
  generalize hw : (if s.conf.operServerMode then s.this else r) = w
  obtain ⟨o1, h1, h2, h3⟩ := servers_spec hb (some cl) (s.cl w) ⟨"TOPIC", [name, topic]⟩
  obtain ⟨o2, g1, g2, g3⟩ := channel_spec hb cl c.ref (s.cl w) ⟨"TOPIC", [name, topic]⟩
  have hlk : ∀ j, isLink s j = true ↔ ∃ d ∈ s.clients, d.type = .server ∧ d.conn = some j := by
    intro j
    simp only [isLink, List.any_eq_true, Bool.and_eq_true, beq_iff_eq]
    exact ⟨fun ⟨d, a, b, e⟩ => ⟨d, a, e, b⟩, fun ⟨d, a, b, e⟩ => ⟨d, a, e, b⟩⟩
  have hnot : ∀ j, Listens s c.ref j → isLink s j = true → False := by
    rintro j ⟨y, hy, y1, y2, y3⟩ hl
    rw [isLink_iff hb hy y1] at hl
    exact y2 (by simpa using hl)
  have hex := link_except hb hcl hci
  rw [href] at hex
  have hloc : ∀ j, LocalMember s cl c.ref j ↔ Listens s c.ref j ∧ j ≠ i := by
    intro j
    constructor
    · rintro ⟨y, hy, y1, y2, y3, y4⟩
      refine ⟨⟨y, hy, y2, y3, y4⟩, ?_⟩
      rintro rfl
      exact y1 (by rw [conn_owner hb hy hcl y2 hci, href])
    · rintro ⟨⟨y, hy, y1, y2, y3⟩, hne⟩
      refine ⟨y, hy, ?_, y1, y2, y3⟩
      rintro rfl
      rw [cl_of_mem hb.cl.ord hy, y1] at hci
      injection hci with hci
      exact hne hci
  obtain ⟨o1', e1, k2, k3⟩ : ∃ o, (if c.isLocal then s else writeServers s (some cl) (s.cl w) ⟨"TOPIC", [name, topic]⟩) = { s with out := o ++ s.out } ∧
      (c.name.head? ≠ some '&' → ∀ j, j ≠ i → isLink s j = true → onConn o j = [⟨j, some (s.cl w).ID, ⟨"TOPIC", [name, topic]⟩⟩]) ∧
      (∀ y ∈ o, c.name.head? ≠ some '&' ∧ y.conn ≠ i ∧ isLink s y.conn = true) := by
    by_cases hl : c.isLocal = true
    · rw [if_pos hl]
      exact ⟨[], rfl, fun h => absurd ((isLocal_iff c).1 hl) h, (by intro y hy; cases hy)⟩
    · rw [if_neg hl]
      refine ⟨o1, h1 _ ⟨rfl, rfl, rfl, rfl, rfl⟩, fun _ j hj hlj => ?_, fun y hy => ?_⟩
      · obtain ⟨d, d1, d2, d3⟩ := (hlk j).1 hlj
        exact h2 j d d1 d2 d3 ((hex j d d1 d2 d3).2 hj)
      · obtain ⟨d, d1, d2, d3, d4⟩ := h3 y hy
        exact ⟨fun h => hl ((isLocal_iff c).2 h), (hex _ d d1 d2 d3).1 d4, (hlk _).2 ⟨d, d1, d2, d3⟩⟩
  obtain ⟨o2', e2, q2, q3⟩ : ∃ o, (if topic ≠ c.topic then writeChannelPrefix { s with out := o1' ++ s.out } cl c.ref (s.cl w) false ⟨"TOPIC", [name, topic]⟩
        else { s with out := o1' ++ s.out }) = { s with out := o ++ (o1' ++ s.out) } ∧
      (topic ≠ c.topic → ∀ j, j ≠ i → Listens s c.ref j → onConn o j = [⟨j, some (maskCloaked s (s.cl w)), ⟨"TOPIC", [name, topic]⟩⟩]) ∧
      (∀ y ∈ o, topic ≠ c.topic ∧ Listens s c.ref y.conn ∧ y.conn ≠ i) := by
    by_cases ht : topic ≠ c.topic
    · rw [if_pos ht]
      refine ⟨o2, g1 { s with out := o1' ++ s.out } ⟨rfl, rfl, rfl, rfl, rfl⟩, fun _ j hj hlj => ?_, fun y hy => ?_⟩
      · exact g2 j ((hloc j).2 ⟨hlj, hj⟩)
      · exact ⟨ht, (hloc _).1 (g3 y hy)⟩
    · rw [if_neg ht]
      exact ⟨[], rfl, fun h => absurd h ht, (by intro y hy; cases hy)⟩
  obtain ⟨o3, e3, p2, p3⟩ : ∃ o3, (topicSet s cl r c name topic).out = o3 ++ (o2' ++ (o1' ++ s.out)) ∧
      ((s.cl cl).type = .user → o3 = [⟨i, some (maskCloaked s (s.cl cl)), ⟨"TOPIC", [name, topic]⟩⟩]) ∧
      (∀ y ∈ o3, (s.cl cl).type = .user ∧ y.conn = i) := by
    simp only [topicSet, hw, e1]
    simp only [show ({ s with out := o1' ++ s.out } : Srv).cl w = s.cl w from rfl, e2]
    generalize hq : channelSetTopic _ _ _ _ = q
    have hl : Like s q := by rw [← hq]; exact ⟨rfl, rfl, rfl, rfl, rfl⟩
    have ho : q.out = o2' ++ (o1' ++ s.out) := by rw [← hq]; rfl
    rw [hl.cl]
    by_cases hu : (s.cl cl).type = .user
    · rw [if_pos hu]
      refine ⟨[⟨i, some (maskCloaked s (s.cl cl)), ⟨"TOPIC", [name, topic]⟩⟩], ?_, fun _ => rfl, ?_⟩
      · rw [local_line hb hl hcl hci (by rw [hu]; decide), ho]; rfl
      · intro y hy
        simp only [List.mem_singleton] at hy
        rw [hy]; exact ⟨hu, rfl⟩
    · rw [if_neg hu]
      exact ⟨[], by rw [ho]; rfl, fun h => absurd h hu, (by intro y hy; cases hy)⟩
  have hil : (s.cl cl).type = .user → ¬ isLink s i = true := by
    intro hu hl
    rw [isLink_iff hb hcl hci, hu] at hl
    cases hl
  refine ⟨o3 ++ (o2' ++ o1'), by rw [e3]; simp, ⟨?_, ?_, ?_, ?_⟩⟩
  · intro hu
    have z1 : onConn o1' i = [] := onConn_nil (fun y hy he => (k3 y hy).2.1 he)
    have z2 : onConn o2' i = [] := onConn_nil (fun y hy he => (q3 y hy).2.2 he)
    rw [onConn_append, onConn_append, z1, z2, p2 hu]
    simp [onConn]
  · intro ht j hj hlj
    have z1 : onConn o1' j = [] := onConn_nil (fun y hy he => by
      have := (k3 y hy).2.2; rw [he] at this; exact hnot j hlj this)
    have z3 : onConn o3 j = [] := onConn_nil (fun y hy he => hj (he.symm.trans (p3 y hy).2))
    rw [onConn_append, onConn_append, z1, z3, q2 ht j hj hlj]
    simp
  · intro hl j hj hlj
    have z2 : onConn o2' j = [] := onConn_nil (fun y hy he => by
      have := (q3 y hy).2.1; rw [he] at this; exact hnot j this hlj)
    have z3 : onConn o3 j = [] := onConn_nil (fun y hy he => hj (he.symm.trans (p3 y hy).2))
    rw [onConn_append, onConn_append, z2, z3, k2 hl j hj hlj]
    simp
  · intro y hy
    simp only [List.mem_append] at hy
    rcases hy with hy | hy | hy
    · exact .inl (p3 y hy)
    · exact .inr (.inl ⟨(q3 y hy).1, (q3 y hy).2.1⟩)
    · exact .inr (.inr (k3 y hy))

/-- **C57** A new topic is shown to the local members of the channel, to the client that set it and to the other
servers; with `OperServerMode`, to the others as set by this server. The members are spared when the topic is the one
they know. -/
theorem C57_topic (h : PoliteRun s) (hr : Received s i l cl req) (his : Is req "TOPIC")
    (hty : (s.cl cl).type = .server ∨ (s.cl cl).type = .user ∧ MayTopic s cl c) (hf : Originator s cl req f) (hfu : f.type ≠ .server) (rnd : Int)
    (hargs : req.argv.length = 2) (hc : c ∈ s.chans) (hname : SameCase c.name (req.arg 0)) :
    ∃ o, (step s (.line i rnd l)).out = o ++ s.out ∧
      TopicTold s i ((s.cl cl).type = .user) (s.cl cl) c (if s.conf.operServerMode then s.cl s.this else f) ⟨"TOPIC", [req.arg 0, req.arg 1]⟩
        (req.arg 1 ≠ c.topic) o := by
  have hb := h.reachable.base
  obtain ⟨hg, hor⟩ := sender_is h hr hf hfu rnd
  obtain ⟨g1, g2, g3, -⟩ := hr.owner hb
  have hty' : (s.cl cl).type = .user ∨ (s.cl cl).type = .server := by
    rcases hty with e | ⟨e, -⟩
    · exact .inr e
    · exact .inl e
  have hst : step s (.line i rnd l) = (ircTOPIC (s.roll rnd) cl req).1 :=
    step_do hr rnd his rfl (by rcases hty' with e | e <;> rw [e] <;> rfl) (by
      simp only [Command.argcOk, Bool.and_eq_true, decide_eq_true_eq, Request.argc, hargs]; decide)
  have hb' : Base (s.roll rnd) := Base.of_core (s := s) rfl hb
  have hs2 : channelSearch (s.roll rnd) (req.arg 0) = some c := (C13_channel_lookup h _ c).2 ⟨hc, hname⟩
  have key : (ircTOPIC (s.roll rnd) cl req).1 = topicSet (s.roll rnd) cl f.ref c (req.arg 0) (req.arg 1) := by
    simp only [ircTOPIC, hg, hs2]
    rw [if_neg, if_neg, if_neg]
    · intro hp
      rw [Bool.and_eq_true] at hp
      rcases hty with e | ⟨e, hmay⟩
      · have : topicPower (s.roll rnd) cl f.ref c.ref = true := by
          simp only [topicPower]
          rw [if_neg (show ¬ ((s.roll rnd).cl cl).type ≠ .server from fun hn => hn e)]
          simp
        rw [this] at hp; exact absurd hp.2 (by decide)
      · have hff : f.ref = cl := by
          rcases hor with ⟨g, -⟩ | ⟨-, g⟩
          · rw [e] at g; cases g
          · rw [g]; exact g2
        have ht : 't' ∈ c.modes := by simpa [Chan.hasMode, hasChar_iff] using hp.1
        have := (topicPower_iff hb' (s := s.roll rnd) e g1 g2 c.ref).2 (hmay.power ht)
        rw [hff, this] at hp; exact absurd hp.2 (by decide)
    · simp only [Request.argc, hargs]; decide
    · intro hp
      simp only [Bool.and_eq_true, decide_eq_true_eq, ne_eq, Bool.not_eq_true'] at hp
      rcases hty with e | ⟨e, hmay⟩
      · exact hp.1.1 e
      · have hff : f = s.cl cl := by
          rcases hor with ⟨g, -⟩ | ⟨-, g⟩
          · rw [e] at g; cases g
          · exact g
        have hfr : f.ref = cl := by rw [hff]; exact g2
        rcases hmay.on with ⟨m, hm, m1, m2⟩ | ⟨ho1, ho2⟩
        · have : isMemberOf (s.roll rnd) c.ref f.ref = true := isMemberOf_iff.2 ⟨m, hm, m1, m2.trans hfr.symm⟩
          rw [this] at hp; exact absurd hp.1.2 (by decide)
        · have h1 : (s.roll rnd).conf.operCanMode = true := ho2
          have h2 : ((s.roll rnd).cl f.ref).hasMode 'o' = true := by
            rw [hfr]; exact hasMode_iff.2 ((umode_cl hb g1 g2).2 ho1)
          rw [h1, h2] at hp
          exact absurd hp.2 (by decide)
  obtain ⟨o, e, ho⟩ := topic_out (s := s.roll rnd) (i := i) hb' g1 g2 g3 hty' hc (req.arg 0) (req.arg 1) f.ref
  refine ⟨o, by rw [hst, key]; exact e, ?_⟩
  have hw : (s.roll rnd).cl (if (s.roll rnd).conf.operServerMode then (s.roll rnd).this else f.ref) =
      if s.conf.operServerMode then s.cl s.this else f := by
    show s.cl (if s.conf.operServerMode then s.this else f.ref) = _
    split
    · rfl
    · exact cl_of_mem hb.cl.ord hf.1
  rw [hw] at ho
  exact ⟨ho.self, ho.members, ho.links, ho.others⟩

/-! ## Cases -/

/-- Bob leaves; alice, bob and the peer are told. -/
example : ∃ req, PoliteRun Sample.s5 ∧ Received Sample.s5 6 "PART #C :bye".toList 4 req ∧ Is req "PART" ∧
    (Sample.s5.cl 4).type = .user ∧ Originator Sample.s5 4 req (Sample.s5.cl 4) ∧ items (req.arg 0) = ["#C".toList] ∧
    Sample.s5.chan 5 ∈ Sample.s5.chans ∧ SameCase (Sample.s5.chan 5).name "#C".toList ∧ OnChannel Sample.s5 5 (Sample.s5.cl 4).ref ∧
    Listens Sample.s5 5 5 ∧ Listens Sample.s5 5 6 ∧ isLink Sample.s5 7 = true ∧
    (step Sample.s5 (.line 6 0 "PART #C :bye".toList)).out.length = Sample.s5.out.length + 3 :=
  ⟨⟨none, "PART".toList, ["#C".toList, "bye".toList]⟩, Sample.fine_s5.mono (fun _ h => h.1) (fun _ _ h => h.1),
    recv_sound (by decide +kernel), by simp only [Is]; decide, by decide +kernel,
    ⟨by decide +kernel, .inr ⟨by decide +kernel, by decide +kernel⟩⟩, by decide, by decide +kernel,
    (caseEq_same _ _).1 (by decide +kernel), by decide +kernel,
    ⟨Sample.s5.cl 3, by decide +kernel, by decide +kernel, by decide +kernel, by decide +kernel⟩,
    ⟨Sample.s5.cl 4, by decide +kernel, by decide +kernel, by decide +kernel, by decide +kernel⟩, by decide +kernel, by decide +kernel⟩

/-- Zed, on the peer, kicks bob, who is here. -/
example : ∃ req, PoliteRun Sample.s5 ∧ Received Sample.s5 7 ":zed KICK #c bob :out".toList 6 req ∧ Is req "KICK" ∧
    (Sample.s5.cl 6).type = .server ∧ Originator Sample.s5 6 req (Sample.s5.cl 7) ∧ (Sample.s5.cl 7).type ≠ .server ∧
    pieces (req.arg 0) = ["#c".toList] ∧ pieces (req.arg 1) = ["bob".toList] ∧ Sample.s5.chan 5 ∈ Sample.s5.chans ∧
    SameCase (Sample.s5.chan 5).name "#c".toList ∧ Sample.s5.cl 4 ∈ Sample.s5.clients ∧ (Sample.s5.cl 4).type = .user ∧
    SameCase (Sample.s5.cl 4).id (nickPart "bob".toList) ∧ OnChannel Sample.s5 5 4 ∧
    ¬ OnChannel (step Sample.s5 (.line 7 0 ":zed KICK #c bob :out".toList)) 5 4 :=
  ⟨⟨some "zed".toList, "KICK".toList, ["#c".toList, "bob".toList, "out".toList]⟩, Sample.fine_s5.mono (fun _ h => h.1) (fun _ _ h => h.1),
    recv_sound (by decide +kernel), by simp only [Is]; decide, by decide +kernel,
    ⟨by decide +kernel, .inl ⟨by decide +kernel, _, rfl, (caseEq_same _ _).1 (by decide +kernel)⟩⟩, by decide +kernel, by decide, by decide,
    by decide +kernel, (caseEq_same _ _).1 (by decide +kernel), by decide +kernel, by decide +kernel,
    (caseEq_same _ _).1 (by decide +kernel), by decide +kernel, by decide +kernel⟩

/-- Alice sets a topic. -/
example : ∃ req, PoliteRun Sample.s5 ∧ Received Sample.s5 5 "TOPIC #c :news".toList 3 req ∧ Is req "TOPIC" ∧
    (Sample.s5.cl 3).type = .user ∧ MayTopic Sample.s5 3 (Sample.s5.chan 5) ∧ Originator Sample.s5 3 req (Sample.s5.cl 3) ∧
    req.argv.length = 2 ∧ Sample.s5.chan 5 ∈ Sample.s5.chans ∧ SameCase (Sample.s5.chan 5).name (req.arg 0) ∧
    req.arg 1 ≠ (Sample.s5.chan 5).topic ∧
    (step Sample.s5 (.line 5 0 "TOPIC #c :news".toList)).out.length = Sample.s5.out.length + 3 :=
  ⟨⟨none, "TOPIC".toList, ["#c".toList, "news".toList]⟩, Sample.fine_s5.mono (fun _ h => h.1) (fun _ _ h => h.1),
    recv_sound (by decide +kernel), by simp only [Is]; decide, by decide +kernel,
    ⟨.inl (by decide +kernel), fun _ => .inr (.inr (.inl (by simp only [HasRank]; decide +kernel)))⟩,
    ⟨by decide +kernel, .inr ⟨by decide +kernel, by decide +kernel⟩⟩, by decide, by decide +kernel,
    (caseEq_same _ _).1 (by decide +kernel), by decide +kernel, by decide +kernel⟩

end Ngircd
