import Verif.Props.Refuse

/-!
# C88: PING is answered, PING and PONG for other servers are passed on
-/

set_option linter.unusedSimpArgs false

namespace Ngircd
open Spec

variable {s v t : Srv} {i j : Nat} {l : Str} {cl : Nat} {req : Request} {c d f p : Client}

/-- The command of a registered user or of a server link. -/
theorem ping_step (hr : Received s i l cl req) (his : Is req "PING") (hty : (s.cl cl).type = .user ∨ (s.cl cl).type = .server) (rnd : Int) :
    step s (.line i rnd l) = (ircPING (s.roll rnd) cl req).1 :=
  step_do hr rnd his rfl (by rcases hty with h | h <;> rw [h] <;> rfl) (by rfl)

/-- Whether the PING is for this server: it names no other one. -/
def Spec.PingHere (s : Srv) (req : Request) (a : Str) : Prop :=
  req.argv = [a] ∨ ∃ b r d, req.argv = a :: b :: r ∧ clientNamed s b = some d ∧ d.ref = s.this

theorem ping_reply (h : PoliteRun s) {a : Str} (hh : PingHere s req a) (rnd : Int) :
    ircPING (s.roll rnd) cl req =
      match (if (s.cl cl).type = .server then
        match req.prefix? with
        | some p => clientSearch s p
        | none => some (s.cl cl)
      else some (s.cl s.this)) with
      | none => (writeErr (s.roll rnd) (s.cl cl) ⟨"ERR_NOSUCHSERVER_MSG", [(s.cl cl).ID, req.prefix?.getD []]⟩, true)
      | some f => (write (s.roll rnd) (s.cl cl) ⟨"PONG", [f.ID, a]⟩, true) := by
  have hb := h.reachable.base
  unfold ircPING
  rcases hh with e | ⟨b, r, d, e, hd, hdt⟩
  · have e0 : req.arg 0 = a := by rw [Request.arg, e]; rfl
    have e1 : req.argc = 1 := by rw [Request.argc, e]; rfl
    simp only [e1, e0]
    rfl
  · have e0 : req.arg 0 = a := by rw [Request.arg, e]; rfl
    have e2 : req.arg 1 = b := by rw [Request.arg, e]; rfl
    have e1 : req.argc = r.length + 2 := by rw [Request.argc, e]; rfl
    have hm : d ∈ s.clients := List.mem_of_find?_eq_some hd
    have hdy : d.type = .server := by
      have := cl_of_mem' hb.cl.ord hm hdt
      rw [← this]; exact hb.this_mem.2.2.1
    simp only [e0, e2, roll_search, clientNamed_eq h, hd]
    rw [if_neg (by omega), if_pos (by omega), if_neg (fun x => x hdy), if_neg (show ¬ d.ref ≠ (s.roll rnd).this from fun x => x hdt)]
    rfl

/-- **C88** A user's PING is answered with one PONG of this server and the same text, and nothing else happens. -/
theorem C88_ping (h : PoliteRun s) (hr : Received s i l cl req) (his : Is req "PING") (hty : (s.cl cl).type = .user) {a : Str}
    (hh : PingHere s req a) (rnd : Int) :
    Emitted s (step s (.line i rnd l)) [⟨i, some (shownAs s (s.cl s.this) i), ⟨"PONG", [(s.cl s.this).ID, a]⟩⟩] := by
  have hb := h.reachable.base
  rw [ping_step hr his (.inl hty) rnd, ping_reply h hh rnd, if_neg (by rw [hty]; decide)]
  exact refused hr hb rnd _

/-- **C88** The PING of a linked server is answered with one PONG on the link, naming the server or client it came from. -/
theorem C88_ping_link (h : PoliteRun s) (hr : Received s i l cl req) (his : Is req "PING") (hty : (s.cl cl).type = .server) {a : Str}
    (hh : PingHere s req a) (hf : Originator s cl req f) (rnd : Int) :
    Emitted s (step s (.line i rnd l)) [⟨i, some (shownAs s (s.cl s.this) i), ⟨"PONG", [f.ID, a]⟩⟩] := by
  have hb := h.reachable.base
  rw [ping_step hr his (.inr hty) rnd, ping_reply h hh rnd, if_pos hty]
  obtain ⟨g1, g2, -⟩ := msgFrom_originator h hr hf
  unfold msgFrom at g1
  rw [if_pos hty] at g1
  cases hp : req.prefix? with
  | none =>
    rw [hp] at g1
    simp only [Option.some.injEq] at g1
    simp only
    rw [g1, g2]
    have := refused hr hb rnd ⟨"PONG", [f.ID, a]⟩
    rw [g1, g2] at this
    exact this
  | some p =>
    rw [hp] at g1
    simp only at g1 ⊢
    cases hx : clientSearch s p with
    | none => rw [hx] at g1; cases g1
    | some x =>
      rw [hx] at g1
      simp only [Option.map_some, Option.some.injEq] at g1
      rw [← g1, cl_of_mem hb.cl.ord (clientSearch_mem hx)] at g2
      rw [g2]
      exact refused hr hb rnd _

/-- **C88** PING without a text is refused. -/
theorem C88_ping_empty (h : PoliteRun s) (hr : Received s i l cl req) (his : Is req "PING") (hty : (s.cl cl).type = .user ∨ (s.cl cl).type = .server)
    (ha : req.argv = []) (rnd : Int) :
    Emitted s (step s (.line i rnd l)) [⟨i, some (shownAs s (s.cl s.this) i), ⟨"ERR_NOORIGIN_MSG", [(s.cl cl).ID]⟩⟩] := by
  have hb := h.reachable.base
  rw [ping_step hr his hty rnd]
  unfold ircPING
  have e1 : req.argc = 0 := by rw [Request.argc, ha]; rfl
  simp only [e1]
  exact refused hr hb rnd _

/-- **C88** A PING for another server is passed on, in the name of the client it came from, towards that server. -/
theorem C88_ping_on (h : PoliteRun s) (hr : Received s i l cl req) (his : Is req "PING") (hty : (s.cl cl).type = .user ∨ (s.cl cl).type = .server)
    {a b : Str} {r : List Str} (ha : req.argv = a :: b :: r) (hd : clientNamed s b = some d) (hds : d.type = .server) (hne : d.ref ≠ s.this)
    (hf : Originator s cl req f) (hfp : (s.cl cl).type = .server → req.prefix?.isSome = true) (rnd : Int) :
    ∃ j, Behind s j d ∧ Emitted s (step s (.line i rnd l)) [⟨j, some (shownAs s f j), ⟨"PING", [a, b]⟩⟩] := by
  have hb := h.reachable.base
  have hm : d ∈ s.clients := List.mem_of_find?_eq_some hd
  obtain ⟨j, o, -, h5, -⟩ := behind_some hb (polite_kind h) _ d hm (Nat.le_refl _) hne
  refine ⟨j, h5, ?_⟩
  rw [ping_step hr his hty rnd]
  have e0 : req.arg 0 = a := by rw [Request.arg, ha]; rfl
  have e2 : req.arg 1 = b := by rw [Request.arg, ha]; rfl
  have e1 : req.argc = r.length + 2 := by rw [Request.argc, ha]; rfl
  have hg : getSender (s.roll rnd) cl req = .ok f.ref := by
    obtain ⟨g1, g2, -⟩ := msgFrom_originator h hr hf
    unfold msgFrom at g1
    unfold getSender
    by_cases hs : (s.cl cl).type = .server
    · rw [if_pos hs] at g1
      rw [if_pos (show ((s.roll rnd).cl cl).type = .server from hs)]
      obtain ⟨p, hp⟩ := Option.isSome_iff_exists.1 (hfp hs)
      rw [hp] at g1 ⊢
      simp only at g1 ⊢
      rw [roll_search]
      cases hx : clientSearch s p with
      | none => rw [hx] at g1; cases g1
      | some x =>
        rw [hx] at g1
        simp only [Option.map_some, Option.some.injEq] at g1
        rw [← g1]
    · rw [if_neg hs] at g1
      rw [if_neg (show ¬ ((s.roll rnd).cl cl).type = .server from hs)]
      simp only [Option.some.injEq] at g1
      rw [← g1]
  unfold ircPING
  simp only [e0, e2, roll_search, clientNamed_eq h, hd]
  rw [if_neg (by omega), if_pos (by omega), if_neg (fun x => x hds), if_pos (show d.ref ≠ (s.roll rnd).this from hne), hg]
  simp only
  rw [roll_cl, (msgFrom_originator h hr hf).2.1]
  exact emitted_to hb hm h5 f _

/-- **C88** A PING for a server that does not exist is refused. -/
theorem C88_ping_nowhere (h : PoliteRun s) (hr : Received s i l cl req) (his : Is req "PING") (hty : (s.cl cl).type = .user ∨ (s.cl cl).type = .server)
    {a b : Str} {r : List Str} (ha : req.argv = a :: b :: r) (hd : ∀ d, clientNamed s b = some d → d.type ≠ .server) (rnd : Int) :
    Emitted s (step s (.line i rnd l)) [⟨i, some (shownAs s (s.cl s.this) i), ⟨"ERR_NOSUCHSERVER_MSG", [(s.cl cl).ID, b]⟩⟩] := by
  have hb := h.reachable.base
  rw [ping_step hr his hty rnd]
  have e0 : req.arg 0 = a := by rw [Request.arg, ha]; rfl
  have e2 : req.arg 1 = b := by rw [Request.arg, ha]; rfl
  have e1 : req.argc = r.length + 2 := by rw [Request.argc, ha]; rfl
  unfold ircPING
  simp only [e0, e2, roll_search, clientNamed_eq h]
  rw [if_neg (by omega), if_pos (by omega)]
  cases hc : clientNamed s b with
  | none => exact refused hr hb rnd _
  | some d =>
    simp only
    rw [if_pos (hd d hc)]
    exact refused hr hb rnd _

/-- **C88** A PONG from a linked server for somebody else is passed on, in the name of the server it came from. A user
gets it with the name of that server, a server as it is. -/
theorem C88_pong_on (h : PoliteRun s) (hr : Received s i l cl req) (his : Is req "PONG") (hty : (s.cl cl).type = .server)
    (hp : req.prefix?.isSome = true) (hf : Originator s cl req f) {a b : Str} (ha : req.argv = [a, b]) (hd : clientNamed s a = some d)
    (hne : d.ref ≠ s.this) (hnf : d.ref ≠ f.ref) (rnd : Int) :
    ∃ j, Behind s j d ∧ Emitted s (step s (.line i rnd l))
      [⟨j, some (shownAs s f j), ⟨"PONG", [if isLink s j then a else f.ID, b]⟩⟩] := by
  have hb := h.reachable.base
  have hm : d ∈ s.clients := List.mem_of_find?_eq_some hd
  obtain ⟨j, o, -, h5, -⟩ := behind_some hb (polite_kind h) _ d hm (Nat.le_refl _) hne
  refine ⟨j, h5, ?_⟩
  rw [step_do hr rnd his rfl rfl (by rfl)]
  show Emitted s (ircPONG (s.roll rnd) cl req).1 _
  have e0 : req.arg 0 = a := by rw [Request.arg, ha]; rfl
  have e2 : req.arg 1 = b := by rw [Request.arg, ha]; rfl
  have e1 : req.argc = 2 := by rw [Request.argc, ha]; rfl
  obtain ⟨p, hp'⟩ := Option.isSome_iff_exists.1 hp
  obtain ⟨g1, g2, -⟩ := msgFrom_originator h hr hf
  have hx : clientSearch s p = some f := by
    unfold msgFrom at g1
    rw [if_pos hty, hp'] at g1
    simp only at g1
    cases hx : clientSearch s p with
    | none => rw [hx] at g1; cases g1
    | some x =>
      rw [hx] at g1
      simp only [Option.map_some, Option.some.injEq] at g1
      rw [← g1, cl_of_mem hb.cl.ord (clientSearch_mem hx)] at g2
      rw [g2]
  have h1 : (nextHop s d).conn = some j := (nextHop_conn hb hm).2 h5
  have h0 : nextHop (s.roll rnd) d = nextHop s d := nextHop_core (s := s) (t := s.roll rnd) rfl d
  have h3 : nextHop s d ∈ s.clients := nextHop_mem hm (by rw [h1]; rfl)
  have hl : isLink s j = decide ((nextHop s d).type = .server) := isLink_iff hb h3 h1
  have e3 : (if (nextHop (s.roll rnd) d).type ≠ .server then f.ID else a) = if isLink s j then a else f.ID := by
    rw [h0, hl]
    by_cases hk : (nextHop s d).type = .server
    · rw [if_neg (fun x => x hk), decide_eq_true hk, if_pos rfl]
    · rw [if_pos hk, decide_eq_false hk, if_neg (by decide)]
  unfold ircPONG
  simp only [e1, e0, e2, hp', roll_search, clientNamed_eq h, hd]
  rw [clientNamed_eq h] at hx
  rw [if_neg (by omega), if_neg (by intro x; simp [show ((s.roll rnd).cl cl).type = .server from hty] at x),
    if_pos (by simp only [Bool.and_eq_true, decide_eq_true_eq]; exact ⟨trivial, hty⟩), hx]
  simp only
  rw [if_pos (by
    simp only [Bool.and_eq_true, decide_eq_true_eq, Option.map_some]
    exact ⟨hne, fun e => hnf (Option.some.inj e)⟩), e3]
  exact emitted_to hb hm h5 f _

theorem Sample.ping_facts :
    recv Sample.net 5 "PING :x".toList = some (3, ⟨none, "PING".toList, ["x".toList]⟩) ∧
    recv Sample.net 5 "PING".toList = some (3, ⟨none, "PING".toList, []⟩) ∧
    recv Sample.net 7 "PING :x".toList = some (6, ⟨none, "PING".toList, ["x".toList]⟩) ∧
    recv Sample.net 5 "PING x far.example.net".toList = some (3, ⟨none, "PING".toList, ["x".toList, "far.example.net".toList]⟩) ∧
    recv Sample.net 5 "PING x bob".toList = some (3, ⟨none, "PING".toList, ["x".toList, "bob".toList]⟩) ∧
    recv Sample.net 7 ":zed PONG alice x".toList = some (6, ⟨some "zed".toList, "PONG".toList, ["alice".toList, "x".toList]⟩) ∧
    (Sample.net.cl 3).type = .user ∧ (Sample.net.cl 6).type = .server ∧ Sample.net.cl 7 ∈ Sample.net.clients ∧ (Sample.net.cl 7).id = "zed".toList ∧
    Sample.net.cl 3 ∈ Sample.net.clients ∧ (Sample.net.cl 3).ref = 3 ∧ Sample.net.cl 6 ∈ Sample.net.clients ∧ (Sample.net.cl 6).ref = 6 ∧
    (clientNamed Sample.net "far.example.net".toList).any (fun d => decide (d.ref ≠ Sample.net.this) && decide (d.type = .server)) = true ∧
    (clientNamed Sample.net "bob".toList).all (fun d => decide (d.type ≠ .server)) = true ∧
    (clientNamed Sample.net "alice".toList).any (fun d => decide (d.ref ≠ Sample.net.this) && decide (d.ref ≠ (Sample.net.cl 7).ref)) = true := by decide +kernel

example : ∃ req, PoliteRun Sample.net ∧ Received Sample.net 5 "PING :x".toList 3 req ∧ Is req "PING" ∧ (Sample.net.cl 3).type = .user ∧
    PingHere Sample.net req "x".toList := by
  obtain ⟨f1, -, -, -, -, -, f7, -⟩ := Sample.ping_facts
  exact ⟨_, Sample.polite_net, recv_sound f1, by simp only [Is]; decide, f7, .inl rfl⟩

example : ∃ req, PoliteRun Sample.net ∧ Received Sample.net 5 "PING".toList 3 req ∧ Is req "PING" ∧ (Sample.net.cl 3).type = .user ∧ req.argv = [] := by
  obtain ⟨-, f2, -, -, -, -, f7, -⟩ := Sample.ping_facts
  exact ⟨_, Sample.polite_net, recv_sound f2, by simp only [Is]; decide, f7, rfl⟩

example : ∃ req, PoliteRun Sample.net ∧ Received Sample.net 7 "PING :x".toList 6 req ∧ Is req "PING" ∧ (Sample.net.cl 6).type = .server ∧
    PingHere Sample.net req "x".toList ∧ Originator Sample.net 6 req (Sample.net.cl 6) := by
  obtain ⟨-, -, f3, -, -, -, -, f8, -, -, -, -, f13, f14, -⟩ := Sample.ping_facts
  exact ⟨_, Sample.polite_net, recv_sound f3, by simp only [Is]; decide, f8, .inl rfl, f13, .inr ⟨fun h => (by cases h.2), f14⟩⟩

example : ∃ req d, PoliteRun Sample.net ∧ Received Sample.net 5 "PING x far.example.net".toList 3 req ∧ Is req "PING" ∧ (Sample.net.cl 3).type = .user ∧
    req.argv = ["x".toList, "far.example.net".toList] ∧ clientNamed Sample.net "far.example.net".toList = some d ∧ d.type = .server ∧ d.ref ≠ Sample.net.this ∧
    Originator Sample.net 3 req (Sample.net.cl 3) := by
  obtain ⟨-, -, -, f4, -, -, f7, -, -, -, f11, f12, -, -, f15, -⟩ := Sample.ping_facts
  obtain ⟨g1, g2⟩ := (Option.any_eq_true_iff_get _ _).1 f15
  simp only [Bool.and_eq_true, decide_eq_true_eq] at g2
  exact ⟨_, _, Sample.polite_net, recv_sound f4, by simp only [Is]; decide, f7, rfl, (Option.some_get g1).symm, g2.2, g2.1, f11, .inr ⟨fun h => (by cases h.2), f12⟩⟩

example : ∃ req, PoliteRun Sample.net ∧ Received Sample.net 5 "PING x bob".toList 3 req ∧ Is req "PING" ∧ (Sample.net.cl 3).type = .user ∧
    req.argv = ["x".toList, "bob".toList] ∧ ∀ d, clientNamed Sample.net "bob".toList = some d → d.type ≠ .server := by
  obtain ⟨-, -, -, -, f5, -, f7, -, -, -, -, -, -, -, -, f16, -⟩ := Sample.ping_facts
  refine ⟨_, Sample.polite_net, recv_sound f5, by simp only [Is]; decide, f7, rfl, fun d hd => ?_⟩
  rw [hd] at f16
  exact of_decide_eq_true f16

example : ∃ req d, PoliteRun Sample.net ∧ Received Sample.net 7 ":zed PONG alice x".toList 6 req ∧ Is req "PONG" ∧ (Sample.net.cl 6).type = .server ∧
    req.prefix?.isSome = true ∧ Originator Sample.net 6 req (Sample.net.cl 7) ∧ req.argv = ["alice".toList, "x".toList] ∧
    clientNamed Sample.net "alice".toList = some d ∧ d.ref ≠ Sample.net.this ∧ d.ref ≠ (Sample.net.cl 7).ref := by
  obtain ⟨-, -, -, -, -, f6, -, f8, f9, f10, -, -, -, -, -, -, f17⟩ := Sample.ping_facts
  obtain ⟨g1, g2⟩ := (Option.any_eq_true_iff_get _ _).1 f17
  simp only [Bool.and_eq_true, decide_eq_true_eq] at g2
  exact ⟨_, _, Sample.polite_net, recv_sound f6, by simp only [Is]; decide, f8, rfl, ⟨f9, .inl ⟨f8, _, rfl, by rw [f10]; decide⟩⟩, rfl,
    (Option.some_get g1).symm, g2.1, g2.2⟩

end Ngircd
