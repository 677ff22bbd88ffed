import Verif.Props.Answers
import Verif.Spec.SampleNet

/-!
# C75: queries for other servers
-/

set_option linter.unusedSimpArgs false

namespace Ngircd
open Spec

variable {s v t : Srv} {i j : Nat} {l : Str} {cl : Nat} {req : Request} {c d f p : Client}

theorem intro_mem (h : PoliteRun s) (hc : c ∈ s.clients) : ∃ p ∈ s.clients, p.ref = c.introducer := by
  have hb := h.reachable.base
  cases hk : c.conn with
  | none => obtain ⟨p, h1, h2, -⟩ := (polite_kind h).intro c hc hk; exact ⟨p, h1, h2⟩
  | some k =>
    rcases hb.cl.loc c hc (by rw [hk]; rfl) with h1 | h1
    · exact ⟨c, hc, h1.symm⟩
    · obtain ⟨p, h2, h3, -⟩ := hb.cl.self
      exact ⟨p, h2, by rw [h1]; exact h3⟩

/-- One line, to a client that is reached over the connection `j`. -/
theorem emitted_to (hb : Base s) {rnd : Int} (hd : d ∈ s.clients) (hbe : Behind s j d) (p : Client) (m : Msg) :
    Emitted s (writePrefix (s.roll rnd) d p m) [⟨j, some (shownAs s p j), m⟩] := by
  have h1 : (nextHop s d).conn = some j := (nextHop_conn hb hd).2 hbe
  have h0 : nextHop (s.roll rnd) d = nextHop s d := nextHop_core (s := s) (t := s.roll rnd) rfl d
  have h2 := emitted_write (s := s) (rnd := rnd) (i := j) (d := d) (by rw [h0]; exact h1) p m
  have h3 : nextHop s d ∈ s.clients := nextHop_mem hd (by rw [h1]; rfl)
  have h4 : (if (nextHop (s.roll rnd) d).type = .server then p.ID else maskCloaked (s.roll rnd) p) = shownAs s p j := by
    unfold shownAs
    rw [h0, isLink_iff hb h3 h1]
    by_cases hk : (nextHop s d).type = .server
    · rw [decide_eq_true hk]
      exact if_pos hk
    · rw [decide_eq_false hk]
      exact if_neg hk
  rw [h4] at h2
  exact h2

theorem target_eq (h : PoliteRun s) (rnd : Int) (n r : Nat) (hn : n < req.argv.length) :
    getTarget (s.roll rnd) req n r = match serverMeant s (req.arg n) with
      | some d => .ok d.ref
      | none => .err (writeErr (s.roll rnd) (s.cl r) ⟨"ERR_NOSUCHSERVER_MSG", [(s.cl r).ID, req.arg n]⟩) := by
  unfold getTarget
  rw [if_pos (show req.argc > n from hn), roll_search, clientNamed_eq h, roll_cl]
  unfold serverMeant
  have hb := h.reachable.base
  cases hc : clientNamed s (req.arg n) with
  | some c =>
    simp only
    by_cases hty : c.type = .server
    · rw [if_pos hty, if_pos hty]
    · rw [if_neg hty, if_neg hty]
      have hm : c ∈ s.clients := List.mem_of_find?_eq_some hc
      obtain ⟨p, h1, h2⟩ := intro_mem h hm
      rw [← h2, cl_of_mem hb.cl.ord h1]
  | none =>
    simp only
    have e : clientSearchServer (s.roll rnd) (req.arg n) = if matchCaseInsensitive (req.arg n) (s.cl s.this).ID = true then some (s.cl s.this)
        else s.clients.find? (fun c => decide (c.type = .server) && matchCaseInsensitive (req.arg n) c.id) := rfl
    rw [e]
    split
    · rename_i h1
      rw [h1]
    · rename_i d h1
      rw [h1]
      have hd : d.type = .server := by
        split at h1
        · cases h1; exact hb.this_mem.2.2.1
        · have := List.find?_some h1
          simp only [Bool.and_eq_true, decide_eq_true_eq] at this
          exact this.1
      simp only [if_pos hd]

theorem meant_mem (h : PoliteRun s) {n : Str} (hd : serverMeant s n = some d) : d ∈ s.clients := by
  have hb := h.reachable.base
  unfold serverMeant at hd
  cases hc : clientNamed s n with
  | some c =>
    rw [hc] at hd
    simp only [Option.some.injEq] at hd
    have hm : c ∈ s.clients := List.mem_of_find?_eq_some hc
    split at hd
    · rw [← hd]; exact hm
    · obtain ⟨p, h1, h2⟩ := intro_mem h hm
      rw [← h2, cl_of_mem hb.cl.ord h1] at hd
      rw [← hd]; exact h1
  | none =>
    rw [hc] at hd
    simp only at hd
    split at hd
    · cases hd
      obtain ⟨p, h1, h2, -⟩ := hb.cl.self
      rw [cl_of_mem' hb.cl.ord h1 h2]
      exact h1
    · exact List.mem_of_find?_eq_some hd

/-- The common beginning of the queries: passed on, or refused. -/
theorem answer_forward (h : PoliteRun s) (hr : Received s i l cl req) (hf : Originator s cl req f) (hfs : f.type ≠ .server) (rnd : Int) {n : Nat} (hn : n < req.argv.length)
    (fwd : Client → Msg) (k : Nat → Srv) :
    (∀ d, serverMeant s (req.arg n) = some d → d.ref ≠ s.this → ∃ j, Behind s j d ∧
      Emitted s (answerHere (s.roll rnd) cl req n fwd k).1 [⟨j, some (shownAs s f j), fwd d⟩]) ∧
    (serverMeant s (req.arg n) = none →
      Emitted s (answerHere (s.roll rnd) cl req n fwd k).1 [⟨i, some (shownAs s (s.cl s.this) i), ⟨"ERR_NOSUCHSERVER_MSG", [f.ID, req.arg n]⟩⟩]) := by
  have hb := h.reachable.base
  obtain ⟨h1, -⟩ := sender_is h hr hf hfs rnd
  obtain ⟨-, h2, h3, h4⟩ := msgFrom_originator h hr hf
  refine ⟨fun d hd hne => ?_, fun hd => ?_⟩
  · have hm := meant_mem h hd
    obtain ⟨j, o, -, h5, -⟩ := behind_some hb (polite_kind h) _ d hm (Nat.le_refl _) hne
    refine ⟨j, h5, ?_⟩
    have e : (answerHere (s.roll rnd) cl req n fwd k).1 = writePrefix (s.roll rnd) d f (fwd d) := by
      simp only [answerHere, h1]
      rw [target_eq h rnd n _ hn, hd]
      simp only
      rw [if_pos (show d.ref ≠ (s.roll rnd).this from hne), roll_cl, roll_cl, h2, cl_of_mem hb.cl.ord hm]
    rw [e]
    exact emitted_to hb hm h5 f _
  · have e : (answerHere (s.roll rnd) cl req n fwd k).1 = writePrefix (s.roll rnd) f (s.cl s.this) ⟨"ERR_NOSUCHSERVER_MSG", [f.ID, req.arg n]⟩ := by
      simp only [answerHere, h1]
      rw [target_eq h rnd n _ hn, hd, h2]
      rfl
    rw [e]
    exact emitted_to hb hf.1 ((nextHop_conn hb hf.1).1 h3) _ _

theorem len_two {xs : List Str} (h : xs.length = 1 + 1) : ∃ a b, xs = [a, b] := by
  match xs, h with
  | [a, b], _ => exact ⟨a, b, rfl⟩

/-- What the handlers do. -/
theorem query_run {cmd : String} {n : Nat} (hcmd : (cmd, n) ∈ serverQueries) (hr : Received s i l cl req) (his : Is req cmd)
    (hty : (s.cl cl).type = .user ∨ (s.cl cl).type = .server) (hn : req.argv.length = n + 1) (rnd : Int) :
    ∃ k, step s (.line i rnd l) = (answerHere (s.roll rnd) cl req n (fun d => ⟨cmd, req.argv.take n ++ [d.ID]⟩) k).1 := by
  have hallow : CmdTypes.userServer.allows (s.cl cl).type = true := by
    rcases hty with h | h <;> rw [h] <;> rfl
  have h1 : ∀ {a : Str}, req.argv = [a] → req.argc = 1 := fun h => by rw [Request.argc, h]; rfl
  have h2 : ∀ {a b : Str}, req.argv = [a, b] → req.argc = 2 := fun h => by rw [Request.argc, h]; rfl
  have h3 : ∀ {a b : Str}, req.argv = [a, b] → req.argv.take 1 = [req.arg 0] := fun h => by rw [Request.arg, h]; rfl
  simp only [serverQueries, List.mem_cons, List.not_mem_nil, or_false, Prod.mk.injEq] at hcmd
  rcases hcmd with ⟨rfl, rfl⟩ | ⟨rfl, rfl⟩ | ⟨rfl, rfl⟩ | ⟨rfl, rfl⟩ | ⟨rfl, rfl⟩ | ⟨rfl, rfl⟩ | ⟨rfl, rfl⟩ | ⟨rfl, rfl⟩
  all_goals
    first
    | obtain ⟨a, ha⟩ : ∃ a, req.argv = [a] := List.length_eq_one_iff.1 hn
      rw [step_do hr rnd his rfl hallow (by simp only [Command.argcOk, h1 ha]; rfl)]
      exact ⟨_, rfl⟩
    | obtain ⟨a, b, ha⟩ : ∃ a b, req.argv = [a, b] := len_two hn
      rw [step_do hr rnd his rfl hallow (by simp only [Command.argcOk, h2 ha]; rfl), h3 ha]
      exact ⟨_, rfl⟩

/-- **C75** A query that names another server is not answered here but passed on unchanged, in the name of the asker, on the connection towards that server. -/
theorem C75_passed_on {cmd : String} {n : Nat} (h : PoliteRun s) (hcmd : (cmd, n) ∈ serverQueries) (hr : Received s i l cl req) (his : Is req cmd)
    (hty : (s.cl cl).type = .user ∨ (s.cl cl).type = .server) (hn : req.argv.length = n + 1) (hf : Originator s cl req f) (hfs : f.type ≠ .server)
    (hd : serverMeant s (req.arg n) = some d) (hne : d.ref ≠ s.this) (rnd : Int) :
    ∃ j, Behind s j d ∧ Emitted s (step s (.line i rnd l)) [⟨j, some (shownAs s f j), ⟨cmd, req.argv.take n ++ [d.ID]⟩⟩] := by
  obtain ⟨k, hk⟩ := query_run hcmd hr his hty hn rnd
  rw [hk]
  exact (answer_forward h hr hf hfs rnd (by omega) _ k).1 d hd hne

/-- **C75** If there is no such server, all that happens is that the asker is told so. -/
theorem C75_no_server {cmd : String} {n : Nat} (h : PoliteRun s) (hcmd : (cmd, n) ∈ serverQueries) (hr : Received s i l cl req) (his : Is req cmd)
    (hty : (s.cl cl).type = .user ∨ (s.cl cl).type = .server) (hn : req.argv.length = n + 1) (hf : Originator s cl req f) (hfs : f.type ≠ .server)
    (hd : serverMeant s (req.arg n) = none) (rnd : Int) :
    Emitted s (step s (.line i rnd l)) [⟨i, some (shownAs s (s.cl s.this) i), ⟨"ERR_NOSUCHSERVER_MSG", [f.ID, req.arg n]⟩⟩] := by
  obtain ⟨k, hk⟩ := query_run hcmd hr his hty hn rnd
  rw [hk]
  exact (answer_forward h hr hf hfs rnd (by omega) _ k).2 hd

theorem Sample.forward_facts :
    recv Sample.net 5 "MOTD far.example.net".toList = some (3, ⟨none, "MOTD".toList, ["far.example.net".toList]⟩) ∧
    recv Sample.net 5 "VERSION nowhere".toList = some (3, ⟨none, "VERSION".toList, ["nowhere".toList]⟩) ∧
    recv Sample.net 5 "NAMES #c yan".toList = some (3, ⟨none, "NAMES".toList, ["#c".toList, "yan".toList]⟩) ∧
    (Sample.net.cl 3).type = .user ∧ Sample.net.cl 3 ∈ Sample.net.clients ∧ (Sample.net.cl 3).ref = 3 ∧
    (serverMeant Sample.net "far.example.net".toList).any (fun d => decide (d.ref ≠ Sample.net.this)) = true ∧
    (serverMeant Sample.net "yan".toList).any (fun d => decide (d.ref = 8)) = true ∧
    serverMeant Sample.net "nowhere".toList = none := by decide +kernel

example : ∃ req d, PoliteRun Sample.net ∧ Received Sample.net 5 "MOTD far.example.net".toList 3 req ∧ Is req "MOTD" ∧ ("MOTD", 0) ∈ serverQueries ∧
    (Sample.net.cl 3).type = .user ∧ req.argv.length = 0 + 1 ∧ Originator Sample.net 3 req (Sample.net.cl 3) ∧ serverMeant Sample.net (req.arg 0) = some d ∧ d.ref ≠ Sample.net.this := by
  obtain ⟨f1, f2, f3, f4, f5, f6, f7, f8, f9⟩ := Sample.forward_facts
  obtain ⟨g1, g2⟩ := (Option.any_eq_true_iff_get _ _).1 f7
  refine ⟨_, _, Sample.polite_net, recv_sound f1, by simp only [Is]; decide, by decide, f4, rfl, ⟨f5, .inr ⟨fun h => (by rw [f4] at h; cases h.1), f6⟩⟩,
    (Option.some_get g1).symm, of_decide_eq_true g2⟩

example : ∃ req, PoliteRun Sample.net ∧ Received Sample.net 5 "VERSION nowhere".toList 3 req ∧ Is req "VERSION" ∧ ("VERSION", 0) ∈ serverQueries ∧
    (Sample.net.cl 3).type = .user ∧ req.argv.length = 0 + 1 ∧ Originator Sample.net 3 req (Sample.net.cl 3) ∧ serverMeant Sample.net (req.arg 0) = none := by
  obtain ⟨f1, f2, f3, f4, f5, f6, f7, f8, f9⟩ := Sample.forward_facts
  exact ⟨_, Sample.polite_net, recv_sound f2, by simp only [Is]; decide, by decide, f4, rfl, ⟨f5, .inr ⟨fun h => (by rw [f4] at h; cases h.1), f6⟩⟩, f9⟩

/-- **C75** LINKS with two arguments is passed on to the server named by the first one. -/
theorem C75_links (h : PoliteRun s) (hr : Received s i l cl req) (his : Is req "LINKS") (hty : (s.cl cl).type = .user ∨ (s.cl cl).type = .server) {a b : Str}
    (hargs : req.argv = [a, b]) (hf : Originator s cl req f) (hfs : f.type ≠ .server) (hd : serverMeant s a = some d) (hne : d.ref ≠ s.this) (rnd : Int) :
    ∃ j, Behind s j d ∧ Emitted s (step s (.line i rnd l)) [⟨j, some (shownAs s f j), ⟨"LINKS", [d.ID, b]⟩⟩] := by
  have hallow : CmdTypes.userServer.allows (s.cl cl).type = true := by
    rcases hty with h | h <;> rw [h] <;> rfl
  rw [step_do hr rnd his rfl hallow (by simp only [Command.argcOk, Request.argc, hargs]; rfl)]
  have e0 : req.arg 0 = a := by rw [Request.arg, hargs]; rfl
  have e1 : req.arg 1 = b := by rw [Request.arg, hargs]; rfl
  show ∃ j, Behind s j d ∧ Emitted s (ircLINKS (s.roll rnd) cl req).1 _
  unfold ircLINKS
  rw [if_pos (show req.argc = 2 by rw [Request.argc, hargs]; rfl)]
  have := (answer_forward h hr hf hfs rnd (n := 0) (by rw [hargs]; exact Nat.zero_lt_succ _) (fun t => ⟨"LINKS", [t.ID, req.arg 1]⟩)
    (fun from_ => linksHere (s.roll rnd) from_ (if req.argc > 0 then req.arg (req.argc - 1) else ['*']))).1 d (by rw [e0]; exact hd) hne
  rw [e1] at this ⊢
  exact this

/-- **C75** WHOIS with two arguments is passed on, as it is, to the server named by the first one. -/
theorem C75_whois (h : PoliteRun s) (hr : Received s i l cl req) (his : Is req "WHOIS") (hty : (s.cl cl).type = .user ∨ (s.cl cl).type = .server) {a b : Str}
    (hargs : req.argv = [a, b]) (hf : Originator s cl req f) (hfs : f.type ≠ .server) (hd : serverMeant s a = some d) (hne : d.ref ≠ s.this) (rnd : Int) :
    ∃ j, Behind s j d ∧ Emitted s (step s (.line i rnd l)) [⟨j, some (shownAs s f j), ⟨"WHOIS", [a, b]⟩⟩] := by
  have hb := h.reachable.base
  have hallow : CmdTypes.userServer.allows (s.cl cl).type = true := by
    rcases hty with h | h <;> rw [h] <;> rfl
  rw [step_do hr rnd his rfl hallow (by simp only [Command.argcOk, Request.argc, hargs]; rfl)]
  have e0 : req.arg 0 = a := by rw [Request.arg, hargs]; rfl
  have e1 : req.arg 1 = b := by rw [Request.arg, hargs]; rfl
  have e2 : req.argc = 2 := by rw [Request.argc, hargs]; rfl
  obtain ⟨h1, -⟩ := sender_is h hr hf hfs rnd
  obtain ⟨-, h2, h3, h4⟩ := msgFrom_originator h hr hf
  have hm := meant_mem h hd
  obtain ⟨j, o, -, h5, -⟩ := behind_some hb (polite_kind h) _ d hm (Nat.le_refl _) hne
  refine ⟨j, h5, ?_⟩
  have e : (ircWHOIS (s.roll rnd) cl req).1 = writePrefix (s.roll rnd) d f ⟨"WHOIS", [a, b]⟩ := by
    simp only [ircWHOIS, h1]
    rw [if_neg (show ¬ req.argc < 1 by omega), if_neg (show ¬ req.argc > 2 by omega), if_pos (show req.argc > 1 by omega),
      target_eq h rnd 0 _ (by rw [hargs]; exact Nat.zero_lt_succ _), e0, e1, hd]
    simp only
    rw [if_pos (show d.ref ≠ (s.roll rnd).this from hne), roll_cl, roll_cl, h2, cl_of_mem hb.cl.ord hm]
  exact (congrArg (fun z => Emitted s z _) e).mpr (emitted_to hb hm h5 f _)

/-- **C75** WHOWAS with three arguments is passed on to the server named by the last one (unless the server is configured for more privacy: then nothing happens). -/
theorem C75_whowas (h : PoliteRun s) (hr : Received s i l cl req) (his : Is req "WHOWAS") (hty : (s.cl cl).type = .user ∨ (s.cl cl).type = .server) {a b e : Str}
    (hargs : req.argv = [a, b, e]) (hf : Originator s cl req f) (hfs : f.type ≠ .server) (hd : serverMeant s e = some d) (hne : d.ref ≠ s.this)
    (hp : s.conf.morePrivacy = false) (rnd : Int) :
    ∃ j, Behind s j d ∧ Emitted s (step s (.line i rnd l)) [⟨j, some (shownAs s f j), ⟨"WHOWAS", [a, b, d.ID]⟩⟩] := by
  have hb := h.reachable.base
  have hallow : CmdTypes.userServer.allows (s.cl cl).type = true := by
    rcases hty with h | h <;> rw [h] <;> rfl
  rw [step_do hr rnd his rfl hallow (by simp only [Command.argcOk, Request.argc, hargs]; rfl)]
  have e0 : req.arg 0 = a := by rw [Request.arg, hargs]; rfl
  have e1 : req.arg 1 = b := by rw [Request.arg, hargs]; rfl
  have e2 : req.arg 2 = e := by rw [Request.arg, hargs]; rfl
  have e3 : req.argc = 3 := by rw [Request.argc, hargs]; rfl
  obtain ⟨h1, -⟩ := sender_is h hr hf hfs rnd
  obtain ⟨-, h2, h3, h4⟩ := msgFrom_originator h hr hf
  have hm := meant_mem h hd
  obtain ⟨j, o, -, h5, -⟩ := behind_some hb (polite_kind h) _ d hm (Nat.le_refl _) hne
  refine ⟨j, h5, ?_⟩
  have e : (ircWHOWAS (s.roll rnd) cl req).1 = writePrefix (s.roll rnd) d f ⟨"WHOWAS", [a, b, d.ID]⟩ := by
    simp only [ircWHOWAS, h1]
    rw [if_neg (show ¬ req.argc < 1 by omega), if_neg (show ¬ req.argc > 3 by omega),
      target_eq h rnd 2 _ (by rw [hargs]; exact Nat.lt_succ_self _), e0, e1, e2, hd]
    simp only
    rw [if_neg (show ¬ (s.roll rnd).conf.morePrivacy = true by rw [roll_conf, hp]; decide), if_pos (show d.ref ≠ (s.roll rnd).this from hne), roll_cl, roll_cl, h2, cl_of_mem hb.cl.ord hm]
  exact (congrArg (fun z => Emitted s z _) e).mpr (emitted_to hb hm h5 f _)

/-- **C75** TRACE is passed on to the server named, and the asker is told over which server. -/
theorem C75_trace (h : PoliteRun s) (hr : Received s i l cl req) (his : Is req "TRACE") (hty : (s.cl cl).type = .user ∨ (s.cl cl).type = .server) {a : Str}
    (hargs : req.argv = [a]) (hf : Originator s cl req f) (hfs : f.type ≠ .server) (hd : serverMeant s a = some d) (hne : d.ref ≠ s.this) (rnd : Int) :
    ∃ j o, o ∈ s.clients ∧ o.conn = some j ∧ Behind s j d ∧ Emitted s (step s (.line i rnd l))
      [⟨j, some (shownAs s f j), ⟨"TRACE", [a]⟩⟩, ⟨i, some (shownAs s (s.cl s.this) i), ⟨"RPL_TRACELINK_MSG", [f.ID, d.ID, o.ID]⟩⟩] := by
  have hb := h.reachable.base
  have hallow : CmdTypes.userServer.allows (s.cl cl).type = true := by
    rcases hty with h | h <;> rw [h] <;> rfl
  rw [step_do hr rnd his rfl hallow (by simp only [Command.argcOk, Request.argc, hargs]; rfl)]
  have e0 : req.arg 0 = a := by rw [Request.arg, hargs]; rfl
  obtain ⟨h1, -⟩ := sender_is h hr hf hfs rnd
  obtain ⟨-, h2, h3, h4⟩ := msgFrom_originator h hr hf
  obtain ⟨g1, g2, g3, g4⟩ := hr.owner hb
  have hm := meant_mem h hd
  obtain ⟨j, o, -, h5, -⟩ := behind_some hb (polite_kind h) _ d hm (Nat.le_refl _) hne
  have h6 : (nextHop s d).conn = some j := (nextHop_conn hb hm).2 h5
  have h7 : nextHop s d ∈ s.clients := nextHop_mem hm (by rw [h6]; rfl)
  refine ⟨j, nextHop s d, h7, h6, h5, ?_⟩
  have e : (ircTRACE (s.roll rnd) cl req).1 =
      writePrefix (write (s.roll rnd) f ⟨"RPL_TRACELINK_MSG", [f.ID, d.ID, (nextHop s d).ID]⟩) d f ⟨"TRACE", [a]⟩ := by
    simp only [ircTRACE, h1]
    rw [target_eq h rnd 0 _ (by rw [hargs]; exact Nat.zero_lt_succ _), e0, hd]
    simp only
    rw [if_pos (show d.ref ≠ (s.roll rnd).this from hne)]
    simp only [roll_cl, h2, cl_of_mem hb.cl.ord hm, nextHop_core (s := s) (t := s.roll rnd) rfl d, g3, h6]
    have e4 : ∀ m r, (write (s.roll rnd) f m).cl r = s.cl r := fun m r => cl_congr (s := s) rfl r
    rw [if_neg (show ¬ ((some i).isNone || (some j).isNone) = true from Bool.false_ne_true)]
    simp only [e4, h2, cl_of_mem hb.cl.ord hm]
  refine (congrArg (fun z => Emitted s z _) e).mpr ?_
  have k1 := emitted_to hb (rnd := rnd) hf.1 ((nextHop_conn hb hf.1).1 h3) (s.cl s.this) ⟨"RPL_TRACELINK_MSG", [f.ID, d.ID, (nextHop s d).ID]⟩
  have k2 := emitted_then k1 h6 f ⟨"TRACE", [a]⟩
  have k3 : (if (nextHop s d).type = .server then f.ID else maskCloaked s f) = shownAs s f j := by
    unfold shownAs
    rw [isLink_iff hb h7 h6]
    by_cases hk : (nextHop s d).type = .server
    · rw [decide_eq_true hk]
      exact if_pos hk
    · rw [decide_eq_false hk]
      exact if_neg hk
  rw [k3] at k2
  exact k2

theorem Sample.forward_more :
    recv Sample.net 5 "LINKS far.* *.net".toList = some (3, ⟨none, "LINKS".toList, ["far.*".toList, "*.net".toList]⟩) ∧
    recv Sample.net 5 "WHOIS yan yan".toList = some (3, ⟨none, "WHOIS".toList, ["yan".toList, "yan".toList]⟩) ∧
    recv Sample.net 5 "WHOWAS x 3 far.*".toList = some (3, ⟨none, "WHOWAS".toList, ["x".toList, "3".toList, "far.*".toList]⟩) ∧
    recv Sample.net 5 "TRACE yan".toList = some (3, ⟨none, "TRACE".toList, ["yan".toList]⟩) ∧
    (serverMeant Sample.net "far.*".toList).any (fun d => decide (d.ref ≠ Sample.net.this)) = true ∧
    (serverMeant Sample.net "yan".toList).any (fun d => decide (d.ref ≠ Sample.net.this)) = true ∧
    Sample.net.conf.morePrivacy = false := by decide +kernel

example : ∃ req d, PoliteRun Sample.net ∧ Received Sample.net 5 "LINKS far.* *.net".toList 3 req ∧ Is req "LINKS" ∧ (Sample.net.cl 3).type = .user ∧
    req.argv = ["far.*".toList, "*.net".toList] ∧ Originator Sample.net 3 req (Sample.net.cl 3) ∧ serverMeant Sample.net "far.*".toList = some d ∧ d.ref ≠ Sample.net.this := by
  obtain ⟨-, -, -, f4, f5, f6, -⟩ := Sample.forward_facts
  obtain ⟨e1, e2, e3, e4, e5, e6, e7⟩ := Sample.forward_more
  obtain ⟨g1, g2⟩ := (Option.any_eq_true_iff_get _ _).1 e5
  exact ⟨_, _, Sample.polite_net, recv_sound e1, by simp only [Is]; decide, f4, rfl, ⟨f5, .inr ⟨fun h => (by rw [f4] at h; cases h.1), f6⟩⟩,
    (Option.some_get g1).symm, of_decide_eq_true g2⟩

example : ∃ req d, PoliteRun Sample.net ∧ Received Sample.net 5 "WHOIS yan yan".toList 3 req ∧ Is req "WHOIS" ∧ (Sample.net.cl 3).type = .user ∧
    req.argv = ["yan".toList, "yan".toList] ∧ Originator Sample.net 3 req (Sample.net.cl 3) ∧ serverMeant Sample.net "yan".toList = some d ∧ d.ref ≠ Sample.net.this := by
  obtain ⟨-, -, -, f4, f5, f6, -⟩ := Sample.forward_facts
  obtain ⟨e1, e2, e3, e4, e5, e6, e7⟩ := Sample.forward_more
  obtain ⟨g1, g2⟩ := (Option.any_eq_true_iff_get _ _).1 e6
  exact ⟨_, _, Sample.polite_net, recv_sound e2, by simp only [Is]; decide, f4, rfl, ⟨f5, .inr ⟨fun h => (by rw [f4] at h; cases h.1), f6⟩⟩,
    (Option.some_get g1).symm, of_decide_eq_true g2⟩

example : ∃ req d, PoliteRun Sample.net ∧ Received Sample.net 5 "WHOWAS x 3 far.*".toList 3 req ∧ Is req "WHOWAS" ∧ (Sample.net.cl 3).type = .user ∧
    req.argv = ["x".toList, "3".toList, "far.*".toList] ∧ Originator Sample.net 3 req (Sample.net.cl 3) ∧ serverMeant Sample.net "far.*".toList = some d ∧ d.ref ≠ Sample.net.this ∧
    Sample.net.conf.morePrivacy = false := by
  obtain ⟨-, -, -, f4, f5, f6, -⟩ := Sample.forward_facts
  obtain ⟨e1, e2, e3, e4, e5, e6, e7⟩ := Sample.forward_more
  obtain ⟨g1, g2⟩ := (Option.any_eq_true_iff_get _ _).1 e5
  exact ⟨_, _, Sample.polite_net, recv_sound e3, by simp only [Is]; decide, f4, rfl, ⟨f5, .inr ⟨fun h => (by rw [f4] at h; cases h.1), f6⟩⟩,
    (Option.some_get g1).symm, of_decide_eq_true g2, e7⟩

example : ∃ req d, PoliteRun Sample.net ∧ Received Sample.net 5 "TRACE yan".toList 3 req ∧ Is req "TRACE" ∧ (Sample.net.cl 3).type = .user ∧
    req.argv = ["yan".toList] ∧ Originator Sample.net 3 req (Sample.net.cl 3) ∧ serverMeant Sample.net "yan".toList = some d ∧ d.ref ≠ Sample.net.this := by
  obtain ⟨-, -, -, f4, f5, f6, -⟩ := Sample.forward_facts
  obtain ⟨e1, e2, e3, e4, e5, e6, e7⟩ := Sample.forward_more
  obtain ⟨g1, g2⟩ := (Option.any_eq_true_iff_get _ _).1 e6
  exact ⟨_, _, Sample.polite_net, recv_sound e4, by simp only [Is]; decide, f4, rfl, ⟨f5, .inr ⟨fun h => (by rw [f4] at h; cases h.1), f6⟩⟩,
    (Option.some_get g1).symm, of_decide_eq_true g2⟩

end Ngircd
