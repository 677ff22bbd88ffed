import Verif.Props.Notify
import Verif.Props.ServerLink
import Verif.Props.Oper

/-!
# C50, C54: nick collisions and KILL
-/

set_option linter.unusedSimpArgs false

namespace Ngircd
open Spec

variable {s t u : Srv} {i j cl : Nat} {l : Str} {req : Request} {c : Client} {n text : Str}

/-- The client `c` has been killed: it is gone, with its channel memberships, and nobody else is;
every server link except that of `ex` has been told to kill the nick, by one KILL line showing `f`,
and nobody else has; the users sharing a channel with it have seen it quit. -/
structure Spec.Killed (s t : Srv) (c : Client) (ex : Option Nat) (f : Client) (nick reason : Str) : Prop where
  clients : ∀ d, d ∈ t.clients ↔ d ∈ s.clients ∧ d.ref ≠ c.ref
  members : ∀ ch r, OnChannel t ch r ↔ OnChannel s ch r ∧ r ≠ c.ref
  told : ∃ o, t.out = o ++ s.out ∧
    (∀ d ∈ s.clients, d.type = .server → ∀ j, d.conn = some j →
      (onConn o j).filter (fun y => y.msg.cmd == "KILL") =
        if some d.ref = ex then [] else [⟨j, some f.ID, ⟨"KILL", [nick, reason]⟩⟩]) ∧
    (∀ y ∈ o, y.msg.cmd = "KILL" → isLink s y.conn = true) ∧
    (c.type = .user → c.introducer ≠ c.ref → ∀ j, c.conn ≠ some j → Related s c.ref j →
      onConn o j = [⟨j, some (maskCloaked s c), ⟨"QUIT", [if s.conf.morePrivacy then [] else reason]⟩⟩])

theorem Farewell.not_kill {y : Sent} (h : Farewell y) : y.msg.cmd ≠ "KILL" := by
  rcases h with h | h | h | h <;> rw [h] <;> decide

/-- A remote user removed without notice to other servers: the users sharing a channel see it quit. -/
theorem destroy_silent_out (hb : Base s) (hm : c ∈ s.clients) (hty : c.type = .user) (hcn : c.conn = none)
    (hne : c.ref ≠ s.this) (fwd : Option Str) :
    ∃ o, (clientDestroy s c.ref fwd false).out = o ++ s.out ∧ (∀ y ∈ o, Related s c.ref y.conn) ∧
      ∀ j, Related s c.ref j → onConn o j = [⟨j, some (maskCloaked s c),
        ⟨"QUIT", [if s.conf.morePrivacy then [] else fwd.getD c.id]⟩⟩] := by
  have hin := (hb.cl.rem c hm hcn hne).1
  rw [destroy_user hb.cl.ord hm (.inl hty)]
  have hbv : Base (dropConn (dropCl s c.ref) c) := ⟨hb.cl.drop c hm hne, ⟨hb.ch.ord, hb.ch.lt, hb.ch.pairs, hb.ch.chan, hb.ch.clt⟩⟩
  have hlike : Like (dropConn (dropCl s c.ref) c) (dropCl s c.ref) := by
    rw [dropConn_none _ _ hcn]; exact ⟨rfl, rfl, rfl, rfl, rfl⟩
  have hrel : ∀ j, Related (dropConn (dropCl s c.ref) c) c.ref j ↔ Related s c.ref j := by
    intro j
    constructor
    · rintro ⟨x, hx, x1, x2, x3, x4⟩
      exact ⟨x, (List.mem_filter.1 hx).1, x1, x2, x3, x4⟩
    · rintro ⟨x, hx, x1, x2, x3, x4⟩
      exact ⟨x, List.mem_filter.2 ⟨hx, by simpa using x1⟩, x1, x2, x3, x4⟩
  have hmask : maskCloaked (dropConn (dropCl s c.ref) c) c = maskCloaked s c := by
    have : (dropConn (dropCl s c.ref) c).cl c.introducer = s.cl c.introducer := dropCl_cl s hin
    simp only [maskCloaked, displayedHost, genCloak, this]
    rfl
  obtain ⟨o3, g1, g2, g3⟩ := related_spec hbv c.ref c ⟨"QUIT", [if s.conf.morePrivacy then [] else fwd.getD c.id]⟩
  refine ⟨o3, ?_, fun y hy => (hrel _).1 (g3 y hy), fun j hj => by rw [g2 j ((hrel j).2 hj), hmask]⟩
  have hmp : (dropCl s c.ref).conf.morePrivacy = s.conf.morePrivacy := rfl
  simp only [destroyUserOrService, Bool.false_eq_true, if_false, channelQuit, hmp]
  rw [registerWhowas_out, removeQuit_fold, g1 _ hlike]
  rfl

/-- `IRC_KillClient` for a client that may be killed. -/
theorem kill_base (hb : Base s)
    (hmm0 : ∀ m ∈ s.cl2, ∃ d ∈ s.clients, d.ref = m.client ∧ (d.type = .user ∨ d.type = .service)) (hm : c ∈ s.clients) (hty : c.type = .user ∨ c.type = .gotNick ∨ c.type = .service)
    (rnd : Int) (ex : Option Nat) (f : Client) (nick reason : Str) :
    Killed s (match c.conn with
      | some i => connClose (writeServers (s.roll rnd) ex f ⟨"KILL", [nick, reason]⟩) i (some reason) true
      | none => clientDestroy (writeServers (s.roll rnd) ex f ⟨"KILL", [nick, reason]⟩) c.ref (some reason) false)
      c ex f nick reason := by
  have hns : c.type ≠ .server := by rcases hty with h | h | h <;> rw [h] <;> decide
  have hcl := cl_of_mem hb.cl.ord hm
  have hne : c.ref ≠ s.this := by
    intro he
    obtain ⟨th, hth, e1, e2, -⟩ := hb.cl.self
    rw [hb.cl.ord.eq_of_ref hm hth (he.trans e1.symm)] at hns
    exact hns e2
  have hb1 : Base (s.roll rnd) := Base.of_core (s := s) rfl hb
  obtain ⟨o1, ho1, hl1, hx1⟩ := servers_spec hb1 ex f ⟨"KILL", [nick, reason]⟩
  have hw := ho1 (s.roll rnd) ⟨rfl, rfl, rfl, rfl, rfl⟩
  rw [hw]
  generalize hS : ({ s.roll rnd with out := o1 ++ (s.roll rnd).out } : Srv) = S
  have hSc : S.core = s.core := by rw [← hS]; rfl
  have hSo : S.out = o1 ++ s.out := by rw [← hS]; rfl
  have hScl : S.clients = s.clients := by rw [← hS]; rfl
  have hScl2 : S.cl2 = s.cl2 := by rw [← hS]; rfl
  have hSconf : S.conf = s.conf := by rw [← hS]; rfl
  have hbS : Base S := Base.of_core (s := s) hSc hb
  have hmS : c ∈ S.clients := by rw [hScl]; exact hm
  have hclS : S.cl c.ref = c := by rw [cl_congr hScl c.ref, hcl]
  have hunder : ∀ d, Under S c.ref d ↔ d ∈ S.clients ∧ d.ref = c.ref := by
    intro d
    constructor
    · intro hu
      exact ⟨hu.mem, under_self hbS (by rw [hclS]; exact hns) hu⟩
    · rintro ⟨h1, h2⟩
      exact .self h1 h2
  have hrelS : ∀ j, Related S c.ref j ↔ Related s c.ref j := by
    intro j; simp only [Related, OnChannel, hScl, hScl2]
  have hmaskS : maskCloaked S c = maskCloaked s c := by
    simp only [maskCloaked, displayedHost, genCloak, hSconf, cl_congr hScl]
  have hnrel : ∀ j, Related s c.ref j → ∀ y ∈ o1, y.conn ≠ j := by
    rintro j ⟨x, hx, x1, x2, x3, x4⟩ y hy he
    obtain ⟨d, hd, d1, d2, -⟩ := hx1 y hy
    rw [he] at d2
    exact x3 (conn_owner hb hx hd x2 d2 ▸ d1)
  -- what both ways have in common
  suffices hgen : ∀ t o2, Gone S t (Under S c.ref) → t.out = o2 ++ S.out → (∀ y ∈ o2, Farewell y) →
      (c.type = .user → c.introducer ≠ c.ref → ∀ j, c.conn ≠ some j → Related s c.ref j →
        onConn o2 j = [⟨j, some (maskCloaked s c), ⟨"QUIT", [if s.conf.morePrivacy then [] else reason]⟩⟩]) →
      Killed s t c ex f nick reason by
    cases hco : c.conn with
    | some i =>
      simp only
      obtain ⟨k, hk, hkc⟩ := conn?_of_mem hbS.cl hmS hco
      have hG := connClose_gone hbS hk (some reason) true
      rw [hkc] at hG
      obtain ⟨o2, e2, hf2⟩ := connClose_adds (s := S) i (some reason) true
      refine hgen _ o2 hG e2 hf2 (fun hu hi j hj hre => ?_)
      rw [hco] at hj
      obtain ⟨o, e, hn⟩ := close_user_out hbS hk (by rw [hkc, hclS]; exact hu) (by rw [hkc, hclS]; exact hi) (some reason) true
      have : o = o2 := List.append_cancel_right (e.symm.trans e2)
      subst this
      rw [hkc, hclS] at hn
      rw [hn.related j (fun he => hj (by rw [he])) ((hrelS j).2 hre), hmaskS, hSconf]
      rfl
    | none =>
      simp only
      have hG := clientDestroy_gone hbS hmS (by rw [show S.this = s.this from core_this hSc]; exact hne) hco (some reason) false
      obtain ⟨o2, e2, hf2⟩ := destroyF_adds (S.clients.length + 1) S c.ref (some reason) false
      refine hgen _ o2 hG e2 hf2 (fun hu hi j hj hre => ?_)
      obtain ⟨o, e, hn, hn2⟩ := destroy_silent_out hbS hmS hu hco (by rw [show S.this = s.this from core_this hSc]; exact hne) (some reason)
      have : o = o2 := List.append_cancel_right (e.symm.trans e2)
      subst this
      rw [hn2 j ((hrelS j).2 hre), hmaskS, hSconf]
      rfl
  intro t o2 hG e2 hf2 hq
  refine ⟨fun d => ?_, fun ch r => ?_, o2 ++ o1, ?_, ?_, ?_, ?_⟩
  · rw [hG.clients d, hunder, hScl]
    constructor
    · rintro ⟨h1, h2⟩
      exact ⟨h1, fun he => h2 ⟨h1, he⟩⟩
    · rintro ⟨h1, h2⟩
      exact ⟨h1, fun he => h2 he.2⟩
  · constructor
    · rintro ⟨m, hmm, m1, m2⟩
      have hm2 := hG.cl2 m hmm
      rw [hScl2] at hm2
      refine ⟨⟨m, hm2, m1, m2⟩, fun he => ?_⟩
      obtain ⟨d, hd, hdr, hdt⟩ := hmm0 m hm2
      have : d = c := hb.cl.ord.eq_of_ref hd hm (by rw [hdr, m2, he])
      subst this
      exact hG.gone m hmm d hmS ((hunder d).2 ⟨hmS, rfl⟩) hdt (by rw [m2, he])
    · rintro ⟨⟨m, hmm, m1, m2⟩, he⟩
      refine ⟨m, hG.keep m (by rw [hScl2]; exact hmm) (fun d hd _ => ?_), m1, m2⟩
      rw [((hunder d).1 hd).2, m2]
      exact fun hh => he hh.symm
  · rw [e2, hSo, List.append_assoc]
  · intro d hd hds j hj
    rw [onConn_append, List.filter_append]
    have h2 : (onConn o2 j).filter (fun y => y.msg.cmd == "KILL") = [] := by
      rw [List.filter_eq_nil_iff]
      intro y hy
      simpa using (hf2 y (List.mem_filter.1 hy).1).not_kill
    rw [h2, List.nil_append]
    split
    · rename_i hex
      have : onConn o1 j = [] := onConn_nil (fun y hy he => by
        obtain ⟨d', hd', d1, d2, d3⟩ := hx1 y hy
        rw [he] at d2
        exact d3 (by rw [conn_owner hb hd' hd d2 hj]; exact hex))
      rw [this]; rfl
    · rename_i hex
      rw [hl1 j d hd hds hj hex]
      rfl
  · intro y hy hk
    rcases List.mem_append.1 hy with hy | hy
    · exact absurd hk (hf2 y hy).not_kill
    · obtain ⟨d, hd, d1, d2, -⟩ := hx1 y hy
      simp only [isLink, List.any_eq_true, Bool.and_eq_true, beq_iff_eq]
      exact ⟨d, hd, d2, d1⟩
  · intro hu hi j hj hre
    rw [onConn_append, hq hu hi j hj hre, onConn_nil (o := o1) (hnrel j hre)]
    rfl

theorem kill_spec (h : PoliteRun s) (hm : c ∈ s.clients) (hty : c.type = .user ∨ c.type = .gotNick ∨ c.type = .service)
    (rnd : Int) (ex : Option Nat) (f : Client) (nick reason : Str) :
    Killed s (match c.conn with
      | some i => connClose (writeServers (s.roll rnd) ex f ⟨"KILL", [nick, reason]⟩) i (some reason) true
      | none => clientDestroy (writeServers (s.roll rnd) ex f ⟨"KILL", [nick, reason]⟩) c.ref (some reason) false)
      c ex f nick reason :=
  kill_base h.reachable.base (polite_kind h).members hm hty rnd ex f nick reason

/-- The clients that can be killed. -/
def Spec.CanBeKilled (c : Client) : Prop := c.type = .user ∨ c.type = .gotNick ∨ c.type = .service

theorem killClient_run {cl : Nat} {from_ : Option Nat} {nick reason : Str} (hs : clientSearch s nick = some c) (hty : CanBeKilled c) :
    (killClient s (some cl) from_ nick reason).1 = (match c.conn with
      | some i => connClose (writeServers s (if from_.isSome then some cl else none) (match from_ with | some f => s.cl f | none => s.cl s.this) ⟨"KILL", [nick, reason]⟩) i (some reason) true
      | none => clientDestroy (writeServers s (if from_.isSome then some cl else none) (match from_ with | some f => s.cl f | none => s.cl s.this) ⟨"KILL", [nick, reason]⟩) c.ref (some reason) false) := by
  simp only [killClient, hs]
  rw [if_neg (by rcases hty with h | h | h <;> simp [h])]
  cases c.conn <;> rfl

theorem killClient_bad {cl : Nat} {from_ : Option Nat} {nick reason : Str} (hs : clientSearch s nick = some c) (hty : ¬ CanBeKilled c)
    (hcl : cl ≠ s.this) :
    (killClient s (some cl) from_ nick reason).1 = writeErr s (s.cl cl) ⟨if c.type = .server then "ERR_CANTKILLSERVER_MSG"
          else "ERR_NOPRIVILEGES_MSG", [(s.cl cl).ID]⟩ := by
  simp only [killClient, hs]
  simp only [CanBeKilled, not_or] at hty
  rw [if_pos (by simp [hty, hcl])]

/-! ## C50 -/

/-- The request introduces a user or service of another server. -/
def Spec.Introduces (req : Request) : Prop :=
  (Is req "NICK" ∧ (req.argv.length = 2 ∨ req.argv.length = 7)) ∨ (Is req "SERVICE" ∧ req.argv.length = 6)

theorem intro_taken (hb : Base s) (hr : Received s i l cl req) (hs : (s.cl cl).type = .server) (hi : Introduces req)
    (hc : clientSearch s (req.arg 0) = some c) (rnd : Int) :
    step s (.line i rnd l) = (killClient (s.roll rnd) (some cl) none (req.arg 0) "Nick collision".toList).1 := by
  have hc' : clientSearch (s.roll rnd) (req.arg 0) = some c := hc
  rcases hi with ⟨hn, ha⟩ | ⟨hn, ha⟩
  · have hst : step s (.line i rnd l) = (ircNICK (s.roll rnd) cl req).1 :=
      step_do hr rnd hn rfl (by rw [hs]; rfl) (by
        rcases ha with e | e <;> simp only [Command.argcOk, Request.argc, e] <;> rfl)
    rw [hst]
    simp only [ircNICK]
    rw [roll_cl, hs]
    rw [if_neg (by decide), if_pos rfl, if_neg (by simp only [Request.argc]; omega)]
    simp only [nickRemote]
    rw [if_neg (by simp only [Request.argc]; rcases ha with e | e <;> simp [e]), hc']
  · have hst : step s (.line i rnd l) = (ircSERVICE (s.roll rnd) cl req).1 :=
      step_do hr rnd hn rfl (by rw [hs]; rfl) (by simp only [Command.argcOk, Request.argc, ha]; rfl)
    rw [hst]
    simp only [ircSERVICE]
    rw [roll_cl, hs]
    rw [if_neg (by decide), if_neg (by decide), hc']

/-- **C50** When a linked server introduces a nick that a user or service known here already has, that
one is removed, and nobody else; every linked server is told to kill the nick; and nobody has the
nick afterwards: neither the old holder nor the newcomer. -/
theorem C50_collision (h : PoliteRun s) (hr : Received s i l cl req) (hs : (s.cl cl).type = .server) (hi : Introduces req)
    (hc : c ∈ s.clients) (hne : c.id ≠ []) (hn : SameCase c.id (nickPart (req.arg 0))) (hk : CanBeKilled c) (rnd : Int) :
    Killed s (step s (.line i rnd l)) c none (s.cl s.this) (req.arg 0) "Nick collision".toList ∧
    ∀ d ∈ (step s (.line i rnd l)).clients, ¬ SameCase d.id (nickPart (req.arg 0)) := by
  have hb := h.reachable.base
  have hse : clientSearch s (req.arg 0) = some c := (C13_lookup h _ c).2 ⟨hc, hne, hn⟩
  have hK : Killed s (step s (.line i rnd l)) c none (s.cl s.this) (req.arg 0) "Nick collision".toList := by
    rw [intro_taken hb hr hs hi hse rnd, killClient_run (s := s.roll rnd) hse hk]
    exact kill_spec h hc hk rnd none (s.cl s.this) (req.arg 0) "Nick collision".toList
  refine ⟨hK, fun d hd hsame => ?_⟩
  obtain ⟨hd1, hd2⟩ := (hK.clients d).1 hd
  have hdne : d.id ≠ [] := by
    intro he
    exact hne (by
      have h2 := (hn.trans hsame.symm)
      rw [he] at h2
      have h3 := (caseEq_iff _ _).1 ((caseEq_same _ _).2 h2)
      have := congrArg List.length h3
      simp [lowerStr] at this
      exact this)
  have := (C13_lookup h (req.arg 0) d).2 ⟨hd1, hdne, hsame⟩
  rw [hse] at this
  injection this with this
  exact hd2 (by rw [this])

/-- bob is registered here when the peer introduces another one; the peer and nobody else is told. -/
example : ∃ req, PoliteRun Sample.s5 ∧ Received Sample.s5 7 ":peer.example.net NICK BOB 1 ~bob far.example.net 1 + :Bob".toList 6 req ∧
    (Sample.s5.cl 6).type = .server ∧ Introduces req ∧ Sample.s5.cl 4 ∈ Sample.s5.clients ∧ (Sample.s5.cl 4).id ≠ [] ∧
    SameCase (Sample.s5.cl 4).id (nickPart (req.arg 0)) ∧ CanBeKilled (Sample.s5.cl 4) ∧
    Related Sample.s5 4 5 ∧ isLink Sample.s5 7 = true :=
  ⟨⟨some "peer.example.net".toList, "NICK".toList, ["BOB".toList, "1".toList, "~bob".toList, "far.example.net".toList, "1".toList, "+".toList, "Bob".toList]⟩,
    polite_s5, recv_sound (by decide +kernel), by decide +kernel, .inl ⟨by simp only [Is]; decide, .inr (by decide +kernel)⟩,
    by decide +kernel, by decide +kernel, (caseEq_same _ _).1 (by decide +kernel), .inl (by decide +kernel),
    ⟨Sample.s5.cl 3, by decide +kernel, by decide +kernel, by decide +kernel, by decide +kernel, 5,
      ⟨⟨4, 5, []⟩, by decide +kernel, rfl, rfl⟩, ⟨⟨3, 5, ['o']⟩, by decide +kernel, rfl, by decide +kernel⟩⟩, by decide +kernel⟩

/-- **C50** If the name is in use by any other client (a server, or a connection that is registering),
the link gets an answer and nothing changes: the newcomer is not registered. -/
theorem C50_refused (h : PoliteRun s) (hr : Received s i l cl req) (hs : (s.cl cl).type = .server) (hi : Introduces req)
    (hc : c ∈ s.clients) (hne : c.id ≠ []) (hn : SameCase c.id (nickPart (req.arg 0))) (hk : ¬ CanBeKilled c) (rnd : Int) :
    Answered i s (step s (.line i rnd l)) := by
  have hb := h.reachable.base
  have hse : clientSearch s (req.arg 0) = some c := (C13_lookup h _ c).2 ⟨hc, hne, hn⟩
  have ha := hr.asker hb rnd
  rw [intro_taken hb hr hs hi hse rnd, killClient_bad (s := s.roll rnd) hse hk ha.ne_this]
  exact (rp_writeErr ha.hop (rp_refl _ _)).ans

/-- A peer claims the name of this server for a user. -/
example : ∃ req, PoliteRun Sample.s5 ∧ Received Sample.s5 7 ":peer.example.net NICK peer.example.net 1 ~bob far.example.net 1 + :Bob".toList 6 req ∧
    (Sample.s5.cl 6).type = .server ∧ Introduces req ∧ Sample.s5.cl 6 ∈ Sample.s5.clients ∧ (Sample.s5.cl 6).id ≠ [] ∧
    SameCase (Sample.s5.cl 6).id (nickPart (req.arg 0)) ∧ ¬ CanBeKilled (Sample.s5.cl 6) :=
  ⟨⟨some "peer.example.net".toList, "NICK".toList, ["peer.example.net".toList, "1".toList, "~bob".toList, "far.example.net".toList, "1".toList, "+".toList, "Bob".toList]⟩,
    polite_s5, recv_sound (by decide +kernel), by decide +kernel, .inl ⟨by simp only [Is]; decide, .inr (by decide +kernel)⟩,
    by decide +kernel, by decide +kernel, (caseEq_same _ _).1 (by decide +kernel), by
      have : (Sample.s5.cl 6).type = .server := by decide +kernel
      simp only [CanBeKilled, this]; decide⟩

/-! ## C54 -/

/-- The reason given to everybody: local operators are named, and it is cut to fit a line. -/
def Spec.killReason (c : Client) (text : Str) : Str :=
  (if c.type = .user then "KILLed by ".toList ++ c.ID ++ ": ".toList ++ text else text).take 512

theorem killReason_eq (c : Client) (text : Str) : (if c.type = .user then
        strlcpy COMMAND_LEN ("KILLed by ".toList ++ c.ID ++ ": ".toList ++ text)
      else strlcpy COMMAND_LEN text) = killReason c text := by
  simp only [killReason, strlcpy, COMMAND_LEN]
  split <;> rfl

theorem step_KILL (h : PoliteRun s) (hr : Received s i l cl req) (hn : Is req "KILL") (ha : req.argv.length = 2)
    {f : Client} (hf : Originator s cl req f)
    (hmay : (s.cl cl).type = .server ∨ ((s.cl cl).type = .user ∧ 'o' ∈ (s.cl cl).modes)) (rnd : Int) :
    step s (.line i rnd l) = (killClient (s.roll rnd) (some cl) (some f.ref) (req.arg 0) (killReason (s.cl cl) (req.arg 1))).1 := by
  have hb := h.reachable.base
  obtain ⟨g1, g2, g3, g4⟩ := hr.owner hb
  have hst : step s (.line i rnd l) = (ircKILL (s.roll rnd) cl req).1 :=
    step_do hr rnd hn rfl (by rcases hmay with e | ⟨e, -⟩ <;> rw [e] <;> rfl) (by simp only [Command.argcOk, Request.argc, ha]; rfl)
  rw [hst]
  simp only [ircKILL, killReason_eq]
  rw [if_neg, roll_cl]
  · have e0 : msgFrom s cl req = some f.ref := (msgFrom_originator h hr hf).1
    refine congrArg (fun x => (killClient (s.roll rnd) (some cl) (some x) (req.arg 0) (killReason (s.cl cl) (req.arg 1))).1) ?_
    · simp only [msgFrom] at e0
      cases hp : req.prefix? with
      | none =>
        rw [hp] at e0
        simp only [ite_self] at e0
        injection e0
      | some p =>
        rw [hp] at e0
        simp only
        split at e0
        · simp only at e0
          show (match clientSearch s p with | some f => f.ref | none => s.this) = f.ref
          cases hse : clientSearch s p with
          | none => rw [hse] at e0; cases e0
          | some d => rw [hse] at e0; injection e0
        · rename_i hns
          have hx : clientSearch (s.roll rnd) p = some (s.cl cl) := (C10_user_prefix h hr hp hns).2
          rw [hx]
          injection e0 with e0
          exact g2.trans e0
  · rw [roll_cl]
    rcases hmay with e | ⟨e, ho⟩
    · simp [e]
    · have : (opCheck (s.roll rnd) cl req).isNone = false := by
        simp only [opCheck]
        rw [roll_cl, if_neg (by rw [e]; decide)]
        simp only
        rw [if_neg (by simp [e]), if_neg (by simp [hasMode_iff.2 ho]), if_neg (by rw [g3]; simp)]
        rfl
      simp [this]

/-- alice is an IRC operator now. -/
def Sample.s5op : Srv := Sample.lines Sample.s5 5 ["OPER root secret"]

theorem polite_s5op : PoliteRun Sample.s5op :=
  (Sample.fine_lines Sample.fine_s5 5 ["OPER root secret"] (by decide +kernel)).mono (fun _ h => h.1) (fun _ _ h => h.1)

/-- **C54** KILL by an IRC operator, or by a linked server, removes exactly the client named; the
other servers are told to do the same, and the users sharing a channel with it see it quit. -/
theorem C54_kill (h : PoliteRun s) (hr : Received s i l cl req) (hn : Is req "KILL") (ha : req.argv = [n, text])
    {f : Client} (hf : Originator s cl req f)
    (hmay : (s.cl cl).type = .server ∨ ((s.cl cl).type = .user ∧ 'o' ∈ (s.cl cl).modes))
    (hc : c ∈ s.clients) (hne : c.id ≠ []) (hname : SameCase c.id (nickPart n)) (hk : CanBeKilled c) (rnd : Int) :
    Killed s (step s (.line i rnd l)) c (some cl) f n (killReason (s.cl cl) text) := by
  have hb := h.reachable.base
  have hse : clientSearch s n = some c := (C13_lookup h _ c).2 ⟨hc, hne, hname⟩
  rw [step_KILL h hr hn (by rw [ha]; rfl) hf hmay rnd]
  have h0 : req.arg 0 = n := by simp [Request.arg, ha]
  have h1 : req.arg 1 = text := by simp [Request.arg, ha]
  rw [h0, h1, killClient_run (s := s.roll rnd) hse hk]
  have := kill_spec h hc hk rnd (some cl) f n (killReason (s.cl cl) text)
  simp only [Option.isSome_some, if_true, roll_cl]
  rw [cl_of_mem hb.cl.ord hf.1]
  exact this

/-- An operator kills a user of another server; the peer kills a local one. -/
example : (∃ req, PoliteRun Sample.s5op ∧ Received Sample.s5op 5 "KILL zed :spam".toList 3 req ∧ Is req "KILL" ∧
      req.argv = ["zed".toList, "spam".toList] ∧ Originator Sample.s5op 3 req (Sample.s5op.cl 3) ∧
      ((Sample.s5op.cl 3).type = .user ∧ 'o' ∈ (Sample.s5op.cl 3).modes) ∧ Sample.s5op.cl 7 ∈ Sample.s5op.clients ∧
      (Sample.s5op.cl 7).id ≠ [] ∧ SameCase (Sample.s5op.cl 7).id (nickPart "zed".toList) ∧ (Sample.s5op.cl 7).type = .user) ∧
    (∃ req, PoliteRun Sample.s5 ∧ Received Sample.s5 7 ":peer.example.net KILL Bob :x".toList 6 req ∧ Is req "KILL" ∧
      req.argv = ["Bob".toList, "x".toList] ∧ Originator Sample.s5 6 req (Sample.s5.cl 6) ∧ (Sample.s5.cl 6).type = .server ∧
      Sample.s5.cl 4 ∈ Sample.s5.clients ∧ (Sample.s5.cl 4).id ≠ [] ∧ SameCase (Sample.s5.cl 4).id (nickPart "Bob".toList) ∧
      (Sample.s5.cl 4).type = .user) :=
  ⟨⟨⟨none, "KILL".toList, ["zed".toList, "spam".toList]⟩, polite_s5op, recv_sound (by decide +kernel), by simp only [Is]; decide, rfl,
      ⟨by decide +kernel, .inr ⟨by decide +kernel, by decide +kernel⟩⟩, ⟨by decide +kernel, by decide +kernel⟩, by decide +kernel,
      by decide +kernel, (caseEq_same _ _).1 (by decide +kernel), by decide +kernel⟩,
    ⟨⟨some "peer.example.net".toList, "KILL".toList, ["Bob".toList, "x".toList]⟩, polite_s5, recv_sound (by decide +kernel),
      by simp only [Is]; decide, rfl, ⟨by decide +kernel, .inl ⟨by decide +kernel, _, rfl, (caseEq_same _ _).1 (by decide +kernel)⟩⟩,
      by decide +kernel, by decide +kernel, by decide +kernel, (caseEq_same _ _).1 (by decide +kernel), by decide +kernel⟩⟩

/-- **C54** KILL for a server or a connection that is registering is answered and changes nothing. -/
theorem C54_refused (h : PoliteRun s) (hr : Received s i l cl req) (hn : Is req "KILL") (ha : req.argv = [n, text])
    {f : Client} (hf : Originator s cl req f)
    (hmay : (s.cl cl).type = .server ∨ ((s.cl cl).type = .user ∧ 'o' ∈ (s.cl cl).modes))
    (hc : c ∈ s.clients) (hne : c.id ≠ []) (hname : SameCase c.id (nickPart n)) (hk : ¬ CanBeKilled c) (rnd : Int) :
    Answered i s (step s (.line i rnd l)) := by
  have hb := h.reachable.base
  have hse : clientSearch s n = some c := (C13_lookup h _ c).2 ⟨hc, hne, hname⟩
  have hask := hr.asker hb rnd
  rw [step_KILL h hr hn (by rw [ha]; rfl) hf hmay rnd]
  have h0 : req.arg 0 = n := by simp [Request.arg, ha]
  rw [h0, killClient_bad (s := s.roll rnd) hse hk hask.ne_this]
  exact (rp_writeErr hask.hop (rp_refl _ _)).ans

/-- An operator tries to kill a server. -/
example : ∃ req, PoliteRun Sample.s5op ∧ Received Sample.s5op 5 "KILL peer.example.net :x".toList 3 req ∧ Is req "KILL" ∧
    req.argv = ["peer.example.net".toList, "x".toList] ∧ Originator Sample.s5op 3 req (Sample.s5op.cl 3) ∧
    ((Sample.s5op.cl 3).type = .user ∧ 'o' ∈ (Sample.s5op.cl 3).modes) ∧ Sample.s5op.cl 6 ∈ Sample.s5op.clients ∧
    (Sample.s5op.cl 6).id ≠ [] ∧ SameCase (Sample.s5op.cl 6).id (nickPart "peer.example.net".toList) ∧ ¬ CanBeKilled (Sample.s5op.cl 6) :=
  ⟨⟨none, "KILL".toList, ["peer.example.net".toList, "x".toList]⟩, polite_s5op, recv_sound (by decide +kernel), by simp only [Is]; decide, rfl,
    ⟨by decide +kernel, .inr ⟨by decide +kernel, by decide +kernel⟩⟩, ⟨by decide +kernel, by decide +kernel⟩, by decide +kernel,
    by decide +kernel, (caseEq_same _ _).1 (by decide +kernel), by
      have : (Sample.s5op.cl 6).type = .server := by decide +kernel
      simp only [CanBeKilled, this]; decide⟩

/-- **C54** KILL for a name nobody has changes nothing. -/
theorem C54_unknown (h : PoliteRun s) (hr : Received s i l cl req) (hn : Is req "KILL") (ha : req.argv = [n, text])
    {f : Client} (hf : Originator s cl req f)
    (hmay : (s.cl cl).type = .server ∨ ((s.cl cl).type = .user ∧ 'o' ∈ (s.cl cl).modes))
    (hno : ∀ d ∈ s.clients, d.id ≠ [] → ¬ SameCase d.id (nickPart n)) (rnd : Int) :
    Answered i s (step s (.line i rnd l)) := by
  rw [step_KILL h hr hn (by rw [ha]; rfl) hf hmay rnd]
  have h0 : req.arg 0 = n := by simp [Request.arg, ha]
  have hse : clientSearch (s.roll rnd) n = none := by
    show clientSearch s n = none
    cases hh : clientSearch s n with
    | none => rfl
    | some d =>
      obtain ⟨d1, d2, d3⟩ := (C13_lookup h n d).1 hh
      exact absurd d3 (hno d d1 d2)
  rw [h0]
  simp only [killClient, hse]
  exact ⟨[], rnd, rfl, by simp⟩

/-- An operator names nobody. -/
example : ∃ req, PoliteRun Sample.s5op ∧ Received Sample.s5op 5 "KILL nobody :x".toList 3 req ∧ Is req "KILL" ∧
    req.argv = ["nobody".toList, "x".toList] ∧ Originator Sample.s5op 3 req (Sample.s5op.cl 3) ∧
    ((Sample.s5op.cl 3).type = .user ∧ 'o' ∈ (Sample.s5op.cl 3).modes) ∧
    ∀ d ∈ Sample.s5op.clients, d.id ≠ [] → ¬ SameCase d.id (nickPart "nobody".toList) :=
  ⟨⟨none, "KILL".toList, ["nobody".toList, "x".toList]⟩, polite_s5op, recv_sound (by decide +kernel), by simp only [Is]; decide, rfl,
    ⟨by decide +kernel, .inr ⟨by decide +kernel, by decide +kernel⟩⟩, ⟨by decide +kernel, by decide +kernel⟩, by
      have : ∀ d ∈ Sample.s5op.clients, caseEq d.id (nickPart "nobody".toList) = false := by decide +kernel
      exact fun d hd _ hs => by have h1 := this d hd; rw [(caseEq_same _ _).2 hs] at h1; cases h1⟩

end Ngircd
