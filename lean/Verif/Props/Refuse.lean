import Verif.Spec.Refuse
import Verif.Props.Forward

/-!
# C87: what cannot be done is refused with the right reply, status codes are passed on
-/

set_option linter.unusedSimpArgs false

namespace Ngircd
open Spec

variable {s v t : Srv} {i j : Nat} {l : Str} {cl : Nat} {req : Request} {c d f p : Client}

instance (n : String) (t : CType) : Decidable (MayUse n t) := by unfold MayUse; infer_instance

def allTypes : List CType :=
  [.unknown, .gotPass, .gotNick, .gotUser, .user, .server, .service, .unknownServer, .gotPass2813, .waitAuthPing, .waitCapEnd]

theorem all_types (t : CType) : t ∈ allTypes := by cases t <;> decide

theorem table_is : ∀ e ∈ commands, ((findCommand e.1.toList).any (fun c => decide (c.min = e.2.1) && decide (c.max = e.2.2) &&
    allTypes.all (fun t => decide (c.types.allows t = decide (MayUse e.1 t))))) = true := by decide +kernel

theorem table_known : ∀ c ∈ myCommands, c.name ∈ commands.map Prod.fst :=
  table_forall (P := fun n _ => n ∈ commands.map Prod.fst) (by decide +kernel)

theorem table_upper : ∀ e ∈ commands, e.1.toList.head?.any (fun c => c.isUpper) = true := by decide +kernel

theorem command_is {n : String} {lo : Nat} {hi : Option Nat} (h : (n, lo, hi) ∈ commands) :
    ∃ cmd, findCommand n.toList = some cmd ∧ cmd.min = lo ∧ cmd.max = hi ∧ ∀ t, cmd.types.allows t = true ↔ MayUse n t := by
  have h1 := table_is _ h
  cases hf : findCommand n.toList with
  | none => simp only [hf] at h1; cases h1
  | some cmd =>
    simp only [hf, Option.any_some, Bool.and_eq_true, decide_eq_true_eq] at h1
    obtain ⟨⟨h1, h2⟩, h3⟩ := h1
    refine ⟨cmd, rfl, h1, h2, fun t => ?_⟩
    have := of_decide_eq_true (List.all_eq_true.1 h3 t (all_types t))
    rw [this]; exact decide_eq_true_iff

theorem unknown_command (h : ∀ e ∈ commands, ¬ Is req e.1) : findCommand req.command = none := by
  cases hf : findCommand req.command with
  | none => rfl
  | some c =>
    obtain ⟨h1, h2⟩ := findCommand_mem hf
    obtain ⟨e, he, e'⟩ := List.mem_map.1 (table_known c h1)
    exact absurd ((caseEq_same _ _).2 (by rw [e']; exact h2)) (h e he)

/-- A refusal: one line to the client itself, and nothing else. -/
theorem refused (hr : Received s i l cl req) (hb : Base s) (rnd : Int) (m : Msg) :
    Emitted s (writeErr (s.roll rnd) (s.cl cl) m) [⟨i, some (shownAs s (s.cl s.this) i), m⟩] := by
  obtain ⟨g1, -, g3, -⟩ := hr.owner hb
  exact emitted_to hb g1 (.direct g3) _ m

theorem hr_numeric {R : Srv} (hs : IsStatus req) (hty : (R.cl cl).type = .server ∨ (R.cl cl).type = .unknownServer) :
    handleRequest R cl req = handleNumeric R cl req := by
  unfold handleRequest
  refine if_pos ?_
  simp only [Bool.and_eq_true, Bool.or_eq_true, decide_eq_true_eq]
  exact ⟨⟨hty, hs.1⟩, hs.2⟩

theorem hr_other {R : Srv} (hs : ¬ (((R.cl cl).type = .server ∨ (R.cl cl).type = .unknownServer) ∧ IsStatus req))
    (hf : findCommand req.command = none) :
    handleRequest R cl req = if !isRegistered (R.cl cl).type then (R, true)
      else if (R.cl cl).type ≠ .server then (writeErr R (R.cl cl) ⟨"ERR_UNKNOWNCOMMAND_MSG", [(R.cl cl).ID, req.command]⟩, true)
      else (R, true) := by
  unfold handleRequest
  simp only
  rw [if_neg, hf]
  intro hh
  simp only [Bool.and_eq_true, Bool.or_eq_true, decide_eq_true_eq] at hh
  exact hs ⟨hh.1.1, hh.1.2, hh.2⟩

theorem rc_args {R : Srv} {cmd : Command} (h1 : cmd.types.allows (R.cl cl).type = true) (h2 : cmd.argcOk req = false) :
    runCommand R cl req cmd = needMoreParams R cl req := by
  unfold runCommand
  simp only
  rw [h1, h2]; rfl

theorem rc_type {R : Srv} {cmd : Command} (h1 : cmd.types.allows (R.cl cl).type = false) :
    runCommand R cl req cmd = (writeErr R (R.cl cl) ⟨if (R.cl cl).type = .user ∧ cmd.types.allows .server = true
      then "ERR_NOTREGISTEREDSERVER_MSG" else "ERR_NOTREGISTERED_MSG", [(R.cl cl).ID]⟩, true) := by
  unfold runCommand
  simp only
  rw [h1]
  by_cases hu : (R.cl cl).type = .user <;> cases h2 : cmd.types.allows .server <;> simp [hu]

/-- **C87** A command that does not exist: a user is told so, and nothing else happens. -/
theorem C87_unknown (h : PoliteRun s) (hr : Received s i l cl req) (hn : ∀ e ∈ commands, ¬ Is req e.1)
    (hty : (s.cl cl).type = .user ∨ (s.cl cl).type = .service) (rnd : Int) :
    Emitted s (step s (.line i rnd l)) [⟨i, some (shownAs s (s.cl s.this) i), ⟨"ERR_UNKNOWNCOMMAND_MSG", [(s.cl cl).ID, req.command]⟩⟩] := by
  have hb := h.reachable.base
  rw [step_line hr rnd, hr_other (R := s.roll rnd) (fun x => by rcases hty with e | e <;> rcases x.1 with g | g <;> (rw [roll_cl, e] at g; cases g)) (unknown_command hn)]
  have e1 : isRegistered ((s.roll rnd).cl cl).type = true := by
    rw [roll_cl]; rcases hty with e | e <;> rw [e] <;> rfl
  have e2 : ((s.roll rnd).cl cl).type ≠ .server := by
    rw [roll_cl]; rcases hty with e | e <;> rw [e] <;> decide
  rw [e1, if_neg (by decide), if_pos e2]
  exact refused hr hb rnd _

/-- **C87** A command that does not exist, from a server or before the registration, is ignored. -/
theorem C87_unknown_ignored (hr : Received s i l cl req) (hn : ∀ e ∈ commands, ¬ Is req e.1) (hs : ¬ IsStatus req)
    (hty : (s.cl cl).type ≠ .user ∧ (s.cl cl).type ≠ .service) (rnd : Int) :
    Emitted s (step s (.line i rnd l)) [] := by
  rw [step_line hr rnd, hr_other (R := s.roll rnd) (fun x => hs x.2) (unknown_command hn)]
  by_cases e : ((s.roll rnd).cl cl).type = .server
  · rw [if_neg (by rw [e]; decide), if_neg (fun x => x e)]; exact ⟨rnd, rfl⟩
  · rw [if_pos (by
      have h1 : (s.roll rnd).cl cl = s.cl cl := rfl
      rw [h1] at e ⊢
      simp [isRegistered, e, hty])]
    exact ⟨rnd, rfl⟩

/-- **C87** A command with too few or too many arguments: the client is told so, and nothing else
happens. -/
theorem C87_arguments {n : String} {lo : Nat} {hi : Option Nat} (h : PoliteRun s) (hr : Received s i l cl req) (hc : (n, lo, hi) ∈ commands)
    (his : Is req n) (hm : MayUse n (s.cl cl).type) (hw : WrongCount req lo hi) (rnd : Int) :
    Emitted s (step s (.line i rnd l)) [⟨i, some (shownAs s (s.cl s.this) i), ⟨"ERR_NEEDMOREPARAMS_MSG", [(s.cl cl).ID, req.command]⟩⟩] := by
  have hb := h.reachable.base
  obtain ⟨cmd, hf, h1, h2, h3⟩ := command_is hc
  rw [step_cmd hr rnd his hf (table_upper _ hc)]
  have : cmd.argcOk req = false := by
    unfold Command.argcOk
    rw [h1, h2]
    rcases hw with hw | ⟨m, e, hw⟩
    · rw [decide_eq_false (by show ¬ lo ≤ req.argv.length; omega)]; rfl
    · rw [e, Bool.and_eq_false_iff]
      exact .inr (decide_eq_false (by show ¬ req.argv.length ≤ m; omega))
  rw [rc_args (R := s.roll rnd) ((h3 _).2 hm) this]
  exact refused hr hb rnd _

/-- **C87** A command the client may not use: the client is told so, and nothing else happens. -/
theorem C87_forbidden {n : String} {lo : Nat} {hi : Option Nat} (h : PoliteRun s) (hr : Received s i l cl req) (hc : (n, lo, hi) ∈ commands)
    (his : Is req n) (hm : ¬ MayUse n (s.cl cl).type) (rnd : Int) :
    Emitted s (step s (.line i rnd l)) [⟨i, some (shownAs s (s.cl s.this) i),
      ⟨if (s.cl cl).type = .user ∧ n ∈ serverCommands then "ERR_NOTREGISTEREDSERVER_MSG" else "ERR_NOTREGISTERED_MSG", [(s.cl cl).ID]⟩⟩] := by
  have hb := h.reachable.base
  obtain ⟨cmd, hf, -, -, h3⟩ := command_is hc
  rw [step_cmd hr rnd his hf (table_upper _ hc)]
  have : cmd.types.allows (s.cl cl).type = false := by
    cases e : cmd.types.allows (s.cl cl).type with
    | false => rfl
    | true => exact absurd ((h3 _).1 e) hm
  rw [rc_type (R := s.roll rnd) this]
  have e : ((s.cl cl).type = .user ∧ n ∈ serverCommands) ↔ ((s.cl cl).type = .user ∧ cmd.types.allows .server = true) := by
    constructor
    · intro ⟨hu, hn⟩
      refine ⟨hu, (h3 _).2 ?_⟩
      unfold MayUse
      have : n ∉ openingCommands := by
        intro hx
        simp only [serverCommands, openingCommands, List.mem_cons, List.not_mem_nil, or_false] at hn hx
        rcases hx with rfl | rfl | rfl <;> exact absurd hn (by decide)
      rw [if_neg this, if_pos hn]
    · intro ⟨hu, hn⟩
      refine ⟨hu, ?_⟩
      have h6 := (h3 _).1 hn
      rw [hu] at hm
      by_cases hn : n ∈ serverCommands
      · exact hn
      exfalso
      apply hm
      unfold MayUse at h6 ⊢
      by_cases g1 : n ∈ openingCommands
      · rw [if_pos g1] at h6; cases h6
      by_cases g2 : n ∈ userCommands ∨ n = "SERVLIST"
      · rw [if_neg g1, if_neg hn, if_pos g2] at h6; cases h6
      rw [if_neg g1, if_neg hn, if_neg g2]
      split
      · trivial
      · exact .inl rfl
  have e2 := refused hr hb rnd ⟨if (s.cl cl).type = .user ∧ n ∈ serverCommands then "ERR_NOTREGISTEREDSERVER_MSG" else "ERR_NOTREGISTERED_MSG", [(s.cl cl).ID]⟩
  by_cases g : (s.cl cl).type = .user ∧ n ∈ serverCommands
  · rw [if_pos g] at e2 ⊢
    rw [if_pos (show ((s.roll rnd).cl cl).type = .user ∧ cmd.types.allows .server = true from e.1 g)]
    exact e2
  · rw [if_neg g] at e2 ⊢
    rw [if_neg (show ¬ (((s.roll rnd).cl cl).type = .user ∧ cmd.types.allows .server = true) from fun x => g (e.2 x))]
    exact e2

theorem numeric_step (hr : Received s i l cl req) (hs : IsStatus req) (hty : (s.cl cl).type = .server ∨ (s.cl cl).type = .unknownServer) (rnd : Int) :
    step s (.line i rnd l) = (handleNumeric (s.roll rnd) cl req).1 := by
  rw [step_line hr rnd, hr_numeric (R := s.roll rnd) hs hty]

/-- **C87** A status code for a client elsewhere or here is passed on as it is, in the name of its
sender, on the connection towards that client, and nothing else happens. -/
theorem C87_status (h : PoliteRun s) (hr : Received s i l cl req) (hs : IsStatus req) (hty : (s.cl cl).type = .server)
    (hp : req.prefix?.isSome = true) (hf : Originator s cl req f) {a : Str} {r : List Str} (ha : req.argv = a :: r) (hstar : a ≠ ['*'])
    (hd : clientNamed s a = some d) (hne : d.ref ≠ s.this) (rnd : Int) :
    ∃ j, Behind s j d ∧ Emitted s (step s (.line i rnd l)) [⟨j, some (shownAs s f j), ⟨"numeric", req.command :: req.argv⟩⟩] := by
  have hb := h.reachable.base
  have hm : d ∈ s.clients := List.mem_of_find?_eq_some hd
  obtain ⟨j, o, -, h5, -⟩ := behind_some hb (polite_kind h) _ d hm (Nat.le_refl _) hne
  refine ⟨j, h5, ?_⟩
  rw [numeric_step hr hs (.inl hty) rnd]
  unfold handleNumeric numericTarget
  have e0 : req.arg 0 = a := by rw [Request.arg, ha]; rfl
  have e1 : req.argc > 0 := by rw [Request.argc, ha]; exact Nat.zero_lt_succ _
  rw [if_pos e1, e0, if_pos (show a ≠ "*".toList from hstar), roll_search, clientNamed_eq h, hd]
  simp only
  rw [if_neg (show d.ref ≠ (s.roll rnd).this from hne)]
  obtain ⟨p, hp'⟩ := Option.isSome_iff_exists.1 hp
  rw [hp']
  have hpf : clientSearch s p = some f := by
    obtain ⟨g1, g2, -⟩ := msgFrom_originator h hr hf
    unfold msgFrom at g1
    rw [if_pos hty, hp'] at g1
    simp only at g1
    cases hx : clientSearch s p with
    | none => rw [hx] at g1; cases g1
    | some x =>
      rw [hx] at g1
      simp only [Option.map_some, Option.some.injEq] at g1
      rw [← g1, cl_of_mem hb.cl.ord (clientSearch_mem hx)] at g2
      rw [g2]
  simp only [roll_search, hpf]
  exact emitted_to hb hm h5 f _

/-- **C87** A status code without a known addressee is dropped. -/
theorem C87_status_nobody (h : PoliteRun s) (hr : Received s i l cl req) (hs : IsStatus req)
    (hty : (s.cl cl).type = .server ∨ (s.cl cl).type = .unknownServer)
    (ha : req.argv = [] ∨ ∃ a r, req.argv = a :: r ∧ a ≠ ['*'] ∧ clientNamed s a = none) (rnd : Int) :
    Emitted s (step s (.line i rnd l)) [] := by
  rw [numeric_step hr hs hty rnd]
  unfold handleNumeric numericTarget
  rcases ha with ha | ⟨a, r, ha, hstar, hd⟩
  · rw [if_neg (by rw [Request.argc, ha]; exact Nat.lt_irrefl 0)]
    exact ⟨rnd, rfl⟩
  · have e0 : req.arg 0 = a := by rw [Request.arg, ha]; rfl
    have e1 : req.argc > 0 := by rw [Request.argc, ha]; exact Nat.zero_lt_succ _
    rw [if_pos e1, e0, if_pos (show a ≠ "*".toList from hstar), roll_search, clientNamed_eq h, hd]
    exact ⟨rnd, rfl⟩

/-- **C87** A status code for this server, other than 005 and 376, is ignored. -/
theorem C87_status_here (h : PoliteRun s) (hr : Received s i l cl req) (hs : IsStatus req)
    (hty : (s.cl cl).type = .server ∨ (s.cl cl).type = .unknownServer) (hno : atoi req.command ≠ 5 ∧ atoi req.command ≠ 376)
    {a : Str} {r : List Str} (ha : req.argv = a :: r) (hd : a = ['*'] ∨ ∃ d, clientNamed s a = some d ∧ d.ref = s.this) (rnd : Int) :
    Emitted s (step s (.line i rnd l)) [] := by
  have hb := h.reachable.base
  rw [numeric_step hr hs hty rnd]
  have e0 : req.arg 0 = a := by rw [Request.arg, ha]; rfl
  have e1 : req.argc > 0 := by rw [Request.argc, ha]; exact Nat.zero_lt_succ _
  obtain ⟨d, h1, h2⟩ : ∃ d, numericTarget (s.roll rnd) req = some d ∧ d.ref = s.this := by
    unfold numericTarget
    rw [if_pos e1, e0, roll_search, clientNamed_eq h]
    by_cases hst : a = "*".toList
    · rw [if_neg (fun x => x hst)]
      exact ⟨_, rfl, hb.this_mem.2.1⟩
    · rw [if_pos hst]
      rcases hd with hd | hd
      · exact absurd hd hst
      · exact hd
  unfold handleNumeric
  rw [h1]
  simp only
  rw [if_pos (show d.ref = (s.roll rnd).this from h2), if_neg hno.1, if_neg hno.2]
  split <;> exact ⟨rnd, rfl⟩

theorem Sample.refuse_facts :
    recv Sample.net 5 "FROB x".toList = some (3, ⟨none, "FROB".toList, ["x".toList]⟩) ∧
    recv Sample.net 5 "KICK #c".toList = some (3, ⟨none, "KICK".toList, ["#c".toList]⟩) ∧
    recv Sample.net 5 "NJOIN #c :x".toList = some (3, ⟨none, "NJOIN".toList, ["#c".toList, "x".toList]⟩) ∧
    recv Sample.net 7 ":zed 311 alice x y".toList = some (6, ⟨some "zed".toList, "311".toList, ["alice".toList, "x".toList, "y".toList]⟩) ∧
    recv Sample.net 7 ":zed 311 nobody x".toList = some (6, ⟨some "zed".toList, "311".toList, ["nobody".toList, "x".toList]⟩) ∧
    recv Sample.net 7 ":zed 020 * x".toList = some (6, ⟨some "zed".toList, "020".toList, ["*".toList, "x".toList]⟩) ∧
    recv Sample.net 7 ":zed FROB".toList = some (6, ⟨some "zed".toList, "FROB".toList, []⟩) ∧
    (Sample.net.cl 3).type = .user ∧ (Sample.net.cl 6).type = .server ∧ Sample.net.cl 7 ∈ Sample.net.clients ∧ (Sample.net.cl 7).id = "zed".toList ∧
    (clientNamed Sample.net "alice".toList).any (fun d => decide (d.ref ≠ Sample.net.this)) = true ∧
    clientNamed Sample.net "nobody".toList = none := by decide +kernel

example : ∃ req, PoliteRun Sample.net ∧ Received Sample.net 5 "FROB x".toList 3 req ∧ (∀ e ∈ commands, ¬ Is req e.1) ∧ (Sample.net.cl 3).type = .user := by
  obtain ⟨f1, -, -, -, -, -, -, f8, -⟩ := Sample.refuse_facts
  exact ⟨_, Sample.polite_net, recv_sound f1, by simp only [Is]; decide +kernel, f8⟩

example : ∃ req, Received Sample.net 7 ":zed FROB".toList 6 req ∧ (∀ e ∈ commands, ¬ Is req e.1) ∧ ¬ IsStatus req ∧
    (Sample.net.cl 6).type ≠ .user ∧ (Sample.net.cl 6).type ≠ .service := by
  obtain ⟨-, -, -, -, -, -, f7, -, f9, -⟩ := Sample.refuse_facts
  exact ⟨_, recv_sound f7, by simp only [Is]; decide +kernel, fun h => absurd h.1 (by decide), by rw [f9]; decide, by rw [f9]; decide⟩

example : ∃ req, PoliteRun Sample.net ∧ Received Sample.net 5 "KICK #c".toList 3 req ∧ ("KICK", 2, some 3) ∈ commands ∧ Is req "KICK" ∧
    MayUse "KICK" (Sample.net.cl 3).type ∧ WrongCount req 2 (some 3) := by
  obtain ⟨-, f2, -, -, -, -, -, f8, -⟩ := Sample.refuse_facts
  exact ⟨_, Sample.polite_net, recv_sound f2, by decide, by simp only [Is]; decide, by rw [f8]; decide, .inl (by decide)⟩

example : ∃ req, PoliteRun Sample.net ∧ Received Sample.net 5 "NJOIN #c :x".toList 3 req ∧ ("NJOIN", 2, some 2) ∈ commands ∧ Is req "NJOIN" ∧
    ¬ MayUse "NJOIN" (Sample.net.cl 3).type := by
  obtain ⟨-, -, f3, -, -, -, -, f8, -⟩ := Sample.refuse_facts
  exact ⟨_, Sample.polite_net, recv_sound f3, by decide, by simp only [Is]; decide, by rw [f8]; decide⟩

example : ∃ req d, PoliteRun Sample.net ∧ Received Sample.net 7 ":zed 311 alice x y".toList 6 req ∧ IsStatus req ∧ (Sample.net.cl 6).type = .server ∧
    req.prefix?.isSome = true ∧ Originator Sample.net 6 req (Sample.net.cl 7) ∧ req.argv = ["alice".toList, "x".toList, "y".toList] ∧
    clientNamed Sample.net "alice".toList = some d ∧ d.ref ≠ Sample.net.this := by
  obtain ⟨-, -, -, f4, -, -, -, -, f9, f10, f11, f12, -⟩ := Sample.refuse_facts
  obtain ⟨g1, g2⟩ := (Option.any_eq_true_iff_get _ _).1 f12
  exact ⟨_, _, Sample.polite_net, recv_sound f4, ⟨by decide, by decide⟩, f9, rfl, ⟨f10, .inl ⟨f9, _, rfl, by rw [f11]; decide⟩⟩, rfl,
    (Option.some_get g1).symm, of_decide_eq_true g2⟩

example : ∃ req, PoliteRun Sample.net ∧ Received Sample.net 7 ":zed 311 nobody x".toList 6 req ∧ IsStatus req ∧ (Sample.net.cl 6).type = .server ∧
    req.argv = ["nobody".toList, "x".toList] ∧ clientNamed Sample.net "nobody".toList = none := by
  obtain ⟨-, -, -, -, f5, -, -, -, f9, -, -, -, f13⟩ := Sample.refuse_facts
  exact ⟨_, Sample.polite_net, recv_sound f5, ⟨by decide, by decide⟩, f9, rfl, f13⟩

example : ∃ req, PoliteRun Sample.net ∧ Received Sample.net 7 ":zed 020 * x".toList 6 req ∧ IsStatus req ∧ (Sample.net.cl 6).type = .server ∧
    atoi req.command ≠ 5 ∧ atoi req.command ≠ 376 ∧ req.argv = [['*'], "x".toList] := by
  obtain ⟨-, -, -, -, -, f6, -, -, f9, -⟩ := Sample.refuse_facts
  exact ⟨_, Sample.polite_net, recv_sound f6, ⟨by decide, by decide⟩, f9, by decide, by decide, rfl⟩

end Ngircd
