import Verif.Spec.NetInfo
import Verif.Props.Whois
import Verif.Props.Forward
import Verif.Props.Welcome

/-!
# C76: answers about the network and this server
-/

set_option linter.unusedSimpArgs false

namespace Ngircd
open Spec

variable {s v t : Srv} {i j : Nat} {l : Str} {cl : Nat} {req : Request} {c d f p : Client}

theorem told_map {α : Type} {g : Srv → α → Msg} {f : α → Msg} (hc : c.introducer = c.ref ∨ c.introducer = t.this) (hi : c.conn = some i)
    (hg : ∀ ms x, g (told t i c ms) x = f x) (xs : List α) (ms : List Msg) :
    xs.foldl (fun s x => write s c (g s x)) (told t i c ms) = told t i c (ms ++ xs.map f) := by
  rw [told_foldl (g := fun x => [f x]), List.map_eq_flatMap]
  intro x ms
  rw [hg, told_write hc hi]

theorem links_fold (hc : c.introducer = c.ref ∨ c.introducer = t.this) (hi : c.conn = some i) :
    ∀ (xs : List Client) (ms : List Msg), (∀ d ∈ xs, ∀ r, d.topserver = some r → ∃ f ∈ t.clients, f.ref = r) →
      xs.foldl (fun s d => match linksTop s d with
        | some u => write s c ⟨"RPL_LINKS_MSG", [c.ID, d.ID, u.ID, intStr d.hops, d.info]⟩
        | none => s.crash) (told t i c ms) =
      told t i c (ms ++ xs.map (fun d => ⟨"RPL_LINKS_MSG", [c.ID, d.ID, (via t d).ID, intStr d.hops, d.info]⟩))
  | [], ms, _ => by simp
  | x :: xs, ms, h => by
    have e : linksTop (told t i c ms) x = some (via t x) := by
      unfold linksTop via
      cases hx : x.topserver with
      | none => rfl
      | some r =>
        obtain ⟨f, h1, h2⟩ := h x (List.mem_cons_self ..) r hx
        have h3 : (t.cl? r).isSome = true := by
          unfold Srv.cl?
          rw [List.find?_isSome]
          exact ⟨f, h1, by simp [h2]⟩
        have h4 : t.cl? r = some (t.cl r) := by
          obtain ⟨y, hy⟩ := Option.isSome_iff_exists.1 h3
          rw [Srv.cl, hy]; rfl
        exact h4
    rw [List.foldl_cons, e]
    simp only
    rw [told_write hc hi, links_fold hc hi xs _ (fun d hd => h d (List.mem_cons_of_mem _ hd)), List.map_cons, List.append_assoc]
    rfl

/-- **C76** LINKS of a local user: exactly one line for each server of the network with a matching name. -/
theorem C76_links (h : PoliteRun s) (hroot : Rooted s) (hr : Received s i l cl req) (his : Is req "LINKS") (hu : (s.cl cl).type = .user)
    (hargs : req.argv.length ≤ 1) (rnd : Int) :
    Answers s i (step s (.line i rnd l)) (linksAnswer s (s.cl cl) (req.argv.headD ['*'])) := by
  have hb := h.reachable.base
  obtain ⟨g1, g2, g3, g4⟩ := hr.owner hb
  have hc : (s.cl cl).introducer = (s.cl cl).ref ∨ (s.cl cl).introducer = s.this := hb.cl.loc _ g1 (by rw [g3]; rfl)
  refine answers_of hb hr hu rnd ?_
  rw [step_do hr rnd his rfl (by rw [hu]; rfl) (by
    simp only [Command.argcOk, Request.argc]
    rw [Bool.and_eq_true]
    exact ⟨decide_eq_true (Nat.zero_le _), decide_eq_true (by omega)⟩)]
  show (ircLINKS (s.roll rnd) cl req).1 = _
  have e0 : (if req.argc > 0 then req.arg (req.argc - 1) else ['*']) = req.argv.headD ['*'] := by
    rcases hq : req.argv with _ | ⟨a, _ | ⟨b, xs⟩⟩
    · rw [Request.argc, hq]; rfl
    · rw [Request.argc, Request.arg, hq]; rfl
    · rw [hq] at hargs; simp only [List.length_cons] at hargs; omega
  simp only [ircLINKS, e0]
  rw [if_neg (show ¬ req.argc = 2 by rw [Request.argc]; omega), getSender_user (by exact hu)]
  simp only [linksHere, roll_cl]
  have e1 := links_fold (t := s.roll rnd) (i := i) hc g3
    ((s.roll rnd).clients.filter (fun c => c.type = .server && matchCaseInsensitive (req.argv.headD ['*']) c.ID)) [] (by
      intro d hd
      obtain ⟨h1, h2⟩ := List.mem_filter.1 hd
      simp only [Bool.and_eq_true, decide_eq_true_eq] at h2
      exact hroot d h1 h2.1)
  have e2 : told (s.roll rnd) i (s.cl cl) [] = s.roll rnd := rfl
  rw [e2] at e1
  exact (congrArg (fun z => write z (s.cl cl) ⟨"RPL_ENDOFLINKS_MSG", [(s.cl cl).ID, req.argv.headD ['*']]⟩) e1).trans (told_write (s := s.roll rnd) hc g3 _ _)

theorem match_star (n : Str) : matchCaseInsensitive ['*'] n = true := by
  unfold matchCaseInsensitive
  have e : lowerStr (strlcpy COMMAND_LEN ['*']) = ['*'] := by decide
  rw [e]
  generalize lowerStr (strlcpy COMMAND_LEN n) = m
  cases m <;> rfl

/-- **C76** SERVLIST: exactly one line for each service with a matching name. -/
theorem C76_servlist (h : PoliteRun s) (hr : Received s i l cl req) (his : Is req "SERVLIST") (hu : (s.cl cl).type = .user) (hargs : req.argv.length ≤ 2) (rnd : Int) :
    Answers s i (step s (.line i rnd l)) (servlistAnswer s (s.cl cl) (req.argv.getD 0 ['*']) (req.argv.getD 1 ['0'])) := by
  have hb := h.reachable.base
  obtain ⟨g1, g2, g3, g4⟩ := hr.owner hb
  have hc : (s.cl cl).introducer = (s.cl cl).ref ∨ (s.cl cl).introducer = s.this := hb.cl.loc _ g1 (by rw [g3]; rfl)
  refine answers_of hb hr hu rnd ?_
  rw [step_do hr rnd his rfl (by rw [hu]; rfl) (by
    simp only [Command.argcOk, Request.argc]
    rw [Bool.and_eq_true]
    exact ⟨decide_eq_true (Nat.zero_le _), decide_eq_true hargs⟩)]
  show (ircSERVLIST (s.roll rnd) cl req).1 = _
  have e0 : (if req.argc > 0 then req.arg 0 else ['*']) = req.argv.getD 0 ['*'] := by
    rcases hq : req.argv with _ | ⟨a, xs⟩ <;> rw [Request.argc, Request.arg, hq] <;> rfl
  have e1 : (if req.argc > 1 then req.arg 1 else ['0']) = req.argv.getD 1 ['0'] := by
    rcases hq : req.argv with _ | ⟨a, _ | ⟨b, xs⟩⟩ <;> rw [Request.argc, Request.arg, hq] <;> rfl
  have e2 : (req.argc < 2 || req.arg 1 = "0".toList) = decide (req.argv.getD 1 ['0'] = ['0']) := by
    rcases hq : req.argv with _ | ⟨a, _ | ⟨b, xs⟩⟩
    · rw [Request.argc, Request.arg, hq]; rfl
    · rw [Request.argc, Request.arg, hq]; rfl
    · rw [Request.argc, Request.arg, hq]
      simp only [List.length_cons]
      rw [decide_eq_false (by omega), Bool.false_or]
      rfl
  have e3 : ∀ x : Client, (x.type = .service && !(req.argc > 0 && !matchCaseInsensitive (req.arg 0) x.ID)) =
      (decide (x.type = .service) && matchCaseInsensitive (req.argv.getD 0 ['*']) x.ID) := by
    intro x
    rcases hq : req.argv with _ | ⟨a, xs⟩
    · rw [Request.argc, hq]
      have : matchCaseInsensitive (([] : List Str).getD 0 ['*']) x.ID = true := match_star _
      rw [this]
      rfl
    · rw [Request.argc, Request.arg, hq]
      simp only [List.length_cons, List.getD_cons_zero]
      rw [decide_eq_true (show xs.length + 1 > 0 by omega), Bool.true_and, Bool.not_not]
  simp only [ircSERVLIST, e0, e1, e2, e3, roll_cl, decide_eq_true_eq]
  have e4 := told_map (t := s.roll rnd) (i := i) (c := s.cl cl)
    (g := fun s' d => (⟨"RPL_SERVLIST_MSG", [(s.cl cl).ID, d.mask, (s'.cl d.introducer).mask, intStr d.hops, d.info]⟩ : Msg))
    (f := fun d => (⟨"RPL_SERVLIST_MSG", [(s.cl cl).ID, d.mask, (s.cl d.introducer).mask, intStr d.hops, d.info]⟩ : Msg)) hc g3 (fun _ _ => rfl)
    (if req.argv.getD 1 ['0'] = ['0'] then (s.roll rnd).clients.filter (fun d => decide (d.type = .service) && matchCaseInsensitive (req.argv.getD 0 ['*']) d.ID) else []) []
  exact (congrArg (fun z => write z (s.cl cl) ⟨"RPL_SERVLISTEND_MSG", [(s.cl cl).ID, req.argv.getD 0 ['*'], req.argv.getD 1 ['0']]⟩) e4).trans (told_write (s := s.roll rnd) hc g3 _ _)

theorem opCheck_op (hty : (s.cl cl).type ≠ .server) (ho : 'o' ∈ (s.cl cl).modes) (hi : (s.cl cl).conn = some i) : opCheck s cl req = some (s.cl cl) := by
  simp only [opCheck, hty, if_false]
  simp only [decide_false, Bool.false_and, Bool.false_eq_true, if_false]
  rw [hasMode_iff.2 ho, hi]
  rfl

theorem noPriv_own (h : PoliteRun s) (hr : Received s i l cl req) (hu : (s.cl cl).type ≠ .server) (rnd : Int) :
    (opNoPrivileges (s.roll rnd) cl req).1 = writeErr (s.roll rnd) (s.cl cl) ⟨"ERR_NOPRIVILEGES_MSG", [(s.cl cl).ID]⟩ := by
  unfold opNoPrivileges
  cases hp : req.prefix? with
  | none => rfl
  | some p =>
    rw [Option.bind_some, roll_search, (C10_user_prefix h hr hp hu).2]

/-- **C76** STATS: the lists that are for IRC operators only are refused to others, and each answer is exact. -/
theorem C76_stats (h : PoliteRun s) (hr : Received s i l cl req) (his : Is req "STATS") (hu : (s.cl cl).type = .user) (hargs : req.argv.length ≤ 1) (rnd : Int) :
    Answers s i (step s (.line i rnd l)) (statsAnswer s (s.cl cl) ((req.arg 0).headD '*')) := by
  have hb := h.reachable.base
  obtain ⟨g1, g2, g3, g4⟩ := hr.owner hb
  have hc : (s.cl cl).introducer = (s.cl cl).ref ∨ (s.cl cl).introducer = s.this := hb.cl.loc _ g1 (by rw [g3]; rfl)
  refine answers_of hb hr hu rnd ?_
  rw [step_do hr rnd his rfl (by rw [hu]; rfl) (by
    simp only [Command.argcOk, Request.argc]
    rw [Bool.and_eq_true]
    exact ⟨decide_eq_true (Nat.zero_le _), decide_eq_true (by omega)⟩)]
  show (ircSTATS (s.roll rnd) cl req).1 = _
  simp only [ircSTATS, answerHere]
  rw [getSender_user (by exact hu)]
  simp only [getTarget]
  rw [if_neg (show ¬ req.argc > 1 by rw [Request.argc]; omega)]
  simp only [ne_eq, not_true_eq_false, if_false, statsHere, roll_cl]
  generalize (req.arg 0).headD '*' = q
  have ew : ∀ ms m, write (told (s.roll rnd) i (s.cl cl) ms) (s.cl cl) m = told (s.roll rnd) i (s.cl cl) (ms ++ [m]) := fun ms m => told_write (s := s.roll rnd) hc g3 ms m
  have ee : ∀ m, writeErr (s.roll rnd) (s.cl cl) m = told (s.roll rnd) i (s.cl cl) [m] := fun m => ew [] m
  have hus : (s.cl cl).type ≠ .server := by rw [hu]; decide
  have e0 : told (s.roll rnd) i (s.cl cl) [] = s.roll rnd := rfl
  have ex : ∀ xs : List ListElem, xs.foldl (fun s' e => write s' (s.cl cl) ⟨"RPL_STATSXLINE_MSG", [(s.cl cl).ID, [q], e.mask, intStr e.validUntil, e.reason.getD []]⟩) (s.roll rnd) =
      told (s.roll rnd) i (s.cl cl) (xs.map (fun e => ⟨"RPL_STATSXLINE_MSG", [(s.cl cl).ID, [q], e.mask, intStr e.validUntil, e.reason.getD []]⟩)) := fun xs =>
    told_map (t := s.roll rnd) (i := i) (c := s.cl cl) (g := fun _ e => (⟨"RPL_STATSXLINE_MSG", [(s.cl cl).ID, [q], e.mask, intStr e.validUntil, e.reason.getD []]⟩ : Msg)) hc g3 (fun _ _ => rfl) xs []
  have el : ∀ xs : List Client, xs.foldl (fun s' d => write s' (s.cl cl) ⟨"RPL_STATSLINKINFO_MSG", [(s.cl cl).ID, d.mask]⟩) (s.roll rnd) =
      told (s.roll rnd) i (s.cl cl) (xs.map (fun d => ⟨"RPL_STATSLINKINFO_MSG", [(s.cl cl).ID, d.mask]⟩)) := fun xs =>
    told_map (t := s.roll rnd) (i := i) (c := s.cl cl) (g := fun _ d => (⟨"RPL_STATSLINKINFO_MSG", [(s.cl cl).ID, d.mask]⟩ : Msg)) hc g3 (fun _ _ => rfl) xs []
  have em : (s.cl cl).hasMode 'o' = decide ('o' ∈ (s.cl cl).modes) := clMode_dec _ _
  have eo : 'o' ∈ (s.cl cl).modes → opCheck (s.roll rnd) cl req = some (s.cl cl) := fun ho => opCheck_op (s := s.roll rnd) hus ho g3
  have en : 'o' ∉ (s.cl cl).modes → opCheck (s.roll rnd) cl req = none := fun ho => opCheck_user (s := s.roll rnd) hus ho
  have hL : ∀ b : Bool, statsLinks (s.roll rnd) cl b = (s.conns.map (fun k => s.cl k.client)).filter
      (fun d => decide (d.type = .server) || decide (d.ref = (s.cl cl).ref) || (b && decide (d.type = .user))) := fun b => by
    rw [g2]; rfl
  have ew0 : ∀ m, write (s.roll rnd) (s.cl cl) m = told (s.roll rnd) i (s.cl cl) [m] := fun m => ew [] m
  have ep := noPriv_own h hr hus rnd
  have eg : (s.roll rnd).glines = s.glines := rfl
  have ek : (s.roll rnd).klines = s.klines := rfl
  simp only [em, ee, ex, el, hL, ep, ew, ew0, eg, ek]
  unfold statsAnswer
  by_cases hq : q ∈ ['g', 'G', 'k', 'K', 'l', 'L', 'u', 'U', 'm', 'M']
  · simp only [List.mem_cons, List.not_mem_nil, or_false] at hq
    by_cases ho : 'o' ∈ (s.cl cl).modes
    · have hop := eo ho
      rcases hq with rfl | rfl | rfl | rfl | rfl | rfl | rfl | rfl | rfl | rfl <;> simp [ho, hop]
    · have hop := en ho
      rcases hq with rfl | rfl | rfl | rfl | rfl | rfl | rfl | rfl | rfl | rfl <;> simp [ho, hop]
  · simp only [List.mem_cons, List.not_mem_nil, or_false, not_or] at hq
    obtain ⟨h1, h2, h3, h4, h5, h6, h7, h8, h9, h10⟩ := hq
    simp [h1, h2, h3, h4, h5, h6, h7, h8, h9, h10]

/-- **C76** MOTD: the message of the day, or the notice that there is none. -/
theorem C76_motd (h : PoliteRun s) (hr : Received s i l cl req) (his : Is req "MOTD") (hu : (s.cl cl).type = .user) (hargs : req.argv = []) (rnd : Int) :
    Answers s i (step s (.line i rnd l)) (motdLines s i (s.cl cl)) := by
  have hb := h.reachable.base
  obtain ⟨g1, g2, g3, g4⟩ := hr.owner hb
  have hc : (s.cl cl).introducer = (s.cl cl).ref ∨ (s.cl cl).introducer = s.this := hb.cl.loc _ g1 (by rw [g3]; rfl)
  refine answers_of hb hr hu rnd ?_
  rw [step_do hr rnd his rfl (by rw [hu]; rfl) (by simp only [Command.argcOk, Request.argc, hargs]; rfl)]
  show (ircMOTD (s.roll rnd) cl req).1 = _
  simp only [ircMOTD, answerHere]
  rw [getSender_user (by exact hu)]
  simp only [getTarget, Request.argc, hargs, List.length_nil]
  rw [if_neg (by decide)]
  simp only [ne_eq, not_true_eq_false, if_false, roll_cl]
  exact motd_out (t := s.roll rnd) (Base.of_core (s := s) rfl hb) hc g3

/-- **C76** TRACE: the servers linked directly and the IRC operators connected to this server. -/
theorem C76_trace (h : PoliteRun s) (hr : Received s i l cl req) (his : Is req "TRACE") (hu : (s.cl cl).type = .user) (hargs : req.argv = []) (rnd : Int) :
    Answers s i (step s (.line i rnd l)) (traceAnswer s (s.cl cl)) := by
  have hb := h.reachable.base
  obtain ⟨g1, g2, g3, g4⟩ := hr.owner hb
  have hc : (s.cl cl).introducer = (s.cl cl).ref ∨ (s.cl cl).introducer = s.this := hb.cl.loc _ g1 (by rw [g3]; rfl)
  refine answers_of hb hr hu rnd ?_
  rw [step_do hr rnd his rfl (by rw [hu]; rfl) (by simp only [Command.argcOk, Request.argc, hargs]; rfl)]
  show (ircTRACE (s.roll rnd) cl req).1 = _
  simp only [ircTRACE]
  rw [getSender_user (by exact hu)]
  simp only [getTarget, Request.argc, hargs, List.length_nil]
  rw [if_neg (by decide)]
  simp only [ne_eq, not_true_eq_false, if_false]
  have e1 : ∀ d ms, traceLine (told (s.roll rnd) i (s.cl cl) ms) ((told (s.roll rnd) i (s.cl cl) ms).cl cl) d = told (s.roll rnd) i (s.cl cl) (ms ++
      (if d.conn = none then []
       else if d.type = .server then [⟨"RPL_TRACESERVER_MSG", [(s.cl cl).ID, d.ID, d.host]⟩]
       else if d.type = .user ∧ 'o' ∈ d.modes then [⟨"RPL_TRACEOPERATOR_MSG", [(s.cl cl).ID, d.ID]⟩]
       else [])) := by
    intro d ms
    have e0 : (told (s.roll rnd) i (s.cl cl) ms).cl cl = s.cl cl := rfl
    have ew : ∀ m, write (told (s.roll rnd) i (s.cl cl) ms) (s.cl cl) m = told (s.roll rnd) i (s.cl cl) (ms ++ [m]) := fun m => told_write (s := s.roll rnd) hc g3 ms m
    rw [e0, traceLine, ew, ew, clMode_dec]
    cases hd : d.conn with
    | none => simp
    | some k =>
      by_cases h1 : d.type = .server
      · simp [h1]
      · by_cases h2 : d.type = .user
        · by_cases h3 : 'o' ∈ d.modes <;> simp [h2, h3]
        · simp [h1, h2]
  have e2 := told_foldl (t := s.roll rnd) (i := i) (c := s.cl cl) (f := fun s' d => traceLine s' (s'.cl cl) d) e1 s.clients []
  have e3 : told (s.roll rnd) i (s.cl cl) [] = s.roll rnd := rfl
  rw [e3] at e2
  have e4 : (s.roll rnd).clients.foldl (fun s' d => traceLine s' (s'.cl cl) d) (s.roll rnd) = _ := e2
  rw [e4]
  exact told_write (s := s.roll rnd) hc g3 _ _

/-- A server behind `far` is announced, then `far` is gone. -/
def Sample.dangling : Srv :=
  Sample.lines Sample.net 7 [":far.example.net SERVER deep.example.net 3 77 :Deep", ":peer.example.net SQUIT far.example.net :gone"]

theorem Sample.fine_dangling : FineRun Sample.dangling := Sample.fine_lines Sample.fine_net _ _ (by decide +kernel)

/-- **C76** needs the servers to be known together with the server they are behind: a peer may announce that a server has gone while one behind it is still known.  LINKS then reads
the client structure that has been freed. -/
theorem C76_links_violated_by_split : ∃ s, FineRun s ∧ s.fault = false ∧ (step s (.line 5 0 "LINKS".toList)).fault = true :=
  ⟨Sample.dangling, Sample.fine_dangling, by decide +kernel, by decide +kernel⟩

theorem Sample.netinfo_facts :
    recv Sample.net 5 "LINKS *.net".toList = some (3, ⟨none, "LINKS".toList, ["*.net".toList]⟩) ∧
    recv Sample.net 5 "SERVLIST".toList = some (3, ⟨none, "SERVLIST".toList, []⟩) ∧
    recv Sample.net 5 "STATS l".toList = some (3, ⟨none, "STATS".toList, ["l".toList]⟩) ∧
    recv Sample.net 5 "MOTD".toList = some (3, ⟨none, "MOTD".toList, []⟩) ∧
    recv Sample.net 5 "TRACE".toList = some (3, ⟨none, "TRACE".toList, []⟩) ∧
    (Sample.net.cl 3).type = .user ∧
    Sample.net.clients.all (fun d => d.topserver.all (fun r => Sample.net.clients.any (fun f => f.ref == r))) = true ∧
    (linksAnswer Sample.net (Sample.net.cl 3) "*.net".toList).length = 5 ∧ (statsAnswer Sample.net (Sample.net.cl 3) 'l').length = 4 ∧
    (statsAnswer Sample.net (Sample.net.cl 3) 'L').length = 1 ∧ (traceAnswer Sample.net (Sample.net.cl 3)).length = 3 := by decide +kernel

theorem Sample.net_rooted : Rooted Sample.net := by
  obtain ⟨-, -, -, -, -, -, f, -⟩ := Sample.netinfo_facts
  intro d hd _ r hr
  have := List.all_eq_true.1 f d hd
  rw [hr, Option.all_some] at this
  obtain ⟨g, h1, h2⟩ := List.any_eq_true.1 this
  exact ⟨g, h1, beq_iff_eq.1 h2⟩

example : ∃ req, PoliteRun Sample.net ∧ Rooted Sample.net ∧ Received Sample.net 5 "LINKS *.net".toList 3 req ∧ Is req "LINKS" ∧ (Sample.net.cl 3).type = .user ∧ req.argv.length ≤ 1 := by
  obtain ⟨f1, f2, f3, f4, f5, f6, -⟩ := Sample.netinfo_facts
  exact ⟨_, Sample.polite_net, Sample.net_rooted, recv_sound f1, by simp only [Is]; decide, f6, by decide⟩

example : ∃ req, PoliteRun Sample.net ∧ Received Sample.net 5 "SERVLIST".toList 3 req ∧ Is req "SERVLIST" ∧ (Sample.net.cl 3).type = .user ∧ req.argv.length ≤ 2 := by
  obtain ⟨f1, f2, f3, f4, f5, f6, -⟩ := Sample.netinfo_facts
  exact ⟨_, Sample.polite_net, recv_sound f2, by simp only [Is]; decide, f6, by decide⟩

example : ∃ req, PoliteRun Sample.net ∧ Received Sample.net 5 "STATS l".toList 3 req ∧ Is req "STATS" ∧ (Sample.net.cl 3).type = .user ∧ req.argv.length ≤ 1 := by
  obtain ⟨f1, f2, f3, f4, f5, f6, -⟩ := Sample.netinfo_facts
  exact ⟨_, Sample.polite_net, recv_sound f3, by simp only [Is]; decide, f6, by decide⟩

example : ∃ req, PoliteRun Sample.net ∧ Received Sample.net 5 "MOTD".toList 3 req ∧ Is req "MOTD" ∧ (Sample.net.cl 3).type = .user ∧ req.argv = [] := by
  obtain ⟨f1, f2, f3, f4, f5, f6, -⟩ := Sample.netinfo_facts
  exact ⟨_, Sample.polite_net, recv_sound f4, by simp only [Is]; decide, f6, rfl⟩

example : ∃ req, PoliteRun Sample.net ∧ Received Sample.net 5 "TRACE".toList 3 req ∧ Is req "TRACE" ∧ (Sample.net.cl 3).type = .user ∧ req.argv = [] := by
  obtain ⟨f1, f2, f3, f4, f5, f6, -⟩ := Sample.netinfo_facts
  exact ⟨_, Sample.polite_net, recv_sound f5, by simp only [Is]; decide, f6, rfl⟩

end Ngircd
