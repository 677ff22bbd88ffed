import Verif.Spec.Modes
import Verif.Props.Registration
import Verif.Props.Wallops

/-!
# C65: WEBIRC
-/

set_option linter.unusedSimpArgs false

namespace Ngircd
open Spec

variable {s : Srv} {i : Nat} {l : Str} {cl : Nat} {req : Request}

/-- **C65** WEBIRC without the password, or when none is configured, gets an error, and nothing else happens. -/
theorem C65_refused (h : Reachable s) (hr : Received s i l cl req) (his : Is req "WEBIRC") (rnd : Int)
    (hty : (s.cl cl).type = .unknown) (hargs : 4 ≤ req.argv.length ∧ req.argv.length ≤ 5)
    (hp : s.conf.webircPwd = [] ∨ req.arg 0 ≠ s.conf.webircPwd) :
    ∃ src, Emitted s (step s (.line i rnd l)) [⟨i, src, ⟨"ERR_PASSWDMISMATCH_MSG", [(s.cl cl).ID]⟩⟩] := by
  have hb := h.base
  have hst : step s (.line i rnd l) = (ircWEBIRC (s.roll rnd) cl req).1 :=
    step_do hr rnd his rfl (by rw [hty]; rfl) (by
      simp only [Command.argcOk, Bool.and_eq_true, decide_eq_true_eq]; exact hargs)
  obtain ⟨hmem, href, hci, -⟩ := hr.owner hb
  have hloc := hb.cl.loc (s.cl cl) hmem (by rw [hci]; rfl)
  have hc : ((s.roll rnd).conf.webircPwd.isEmpty || decide (req.arg 0 ≠ (s.roll rnd).conf.webircPwd)) = true := by
    rcases hp with hp | hp
    · rw [show (s.roll rnd).conf.webircPwd = [] from hp]; rfl
    · rw [decide_eq_true (show req.arg 0 ≠ (s.roll rnd).conf.webircPwd from hp), Bool.or_true]
  have hrun : (ircWEBIRC (s.roll rnd) cl req).1 = write (s.roll rnd) (s.cl cl) ⟨"ERR_PASSWDMISMATCH_MSG", [(s.cl cl).ID]⟩ := by
    unfold ircWEBIRC
    rw [if_pos hc]
    rfl
  rw [hst, hrun, write_local (u := s.roll rnd) (c := s.cl cl) (i := i) hloc hci]
  exact ⟨some (getPrefix (s.roll rnd) (s.cl cl) ((s.roll rnd).cl s.this)), rnd, rfl⟩

theorem setHostC_known (conf : Conf) (c : Client) (h : Str) : setHostC conf c h = { c with host := knownHost conf c.host h } := by
  unfold setHostC knownHost
  cases conf.cloakHost with
  | none => rfl
  | some fmt =>
    simp only
    have e : (c.host.isEmpty || hasChar c.host '.' || hasChar c.host ':') = true ↔ (c.host = [] ∨ '.' ∈ c.host ∨ ':' ∈ c.host) := by
      rw [Bool.or_eq_true, Bool.or_eq_true, hasChar_iff, hasChar_iff, List.isEmpty_iff, or_assoc]
    by_cases g : c.host = [] ∨ '.' ∈ c.host ∨ ':' ∈ c.host
    · rw [if_pos (e.2 g), if_pos g, strlcat_eq GETID_LEN (strlcpy GETID_LEN h) conf.cloakHostSalt (by simp only [strlcpy, List.length_take, GETID_LEN]; omega)]
      simp only [strlcpy, CLIENT_HOST_LEN, GETID_LEN, List.take_take]
      rfl
    · rw [if_neg (fun x => g (e.1 x)), if_neg g]
      rfl

/-- **C65** WEBIRC with the password sets the user name, the host name and the address of this client to the ones given,
and nothing else changes. -/
theorem C65_accepted (h : Reachable s) (hr : Received s i l cl req) (his : Is req "WEBIRC") (rnd : Int)
    (hty : (s.cl cl).type = .unknown) (hargs : 4 ≤ req.argv.length ∧ req.argv.length ≤ 5)
    (hp : s.conf.webircPwd ≠ [] ∧ req.arg 0 = s.conf.webircPwd) :
    Emitted (withClient s cl (fun d => { d with
      user := (if s.conf.cloakUserToNick then d.id else req.arg 1).take 19,
      host := knownHost s.conf d.host (if s.conf.dns then req.arg 2 else req.arg 3),
      ipaText := some (req.arg 3) })) (step s (.line i rnd l)) [] := by
  have hst : step s (.line i rnd l) = (ircWEBIRC (s.roll rnd) cl req).1 :=
    step_do hr rnd his rfl (by rw [hty]; rfl) (by
      simp only [Command.argcOk, Bool.and_eq_true, decide_eq_true_eq]; exact hargs)
  have hc : ¬ ((s.roll rnd).conf.webircPwd.isEmpty || decide (req.arg 0 ≠ (s.roll rnd).conf.webircPwd)) = true := by
    rw [Bool.or_eq_true, List.isEmpty_iff, decide_eq_true_eq]
    exact fun g => g.elim hp.1 (fun g => g hp.2)
  have hrun : (ircWEBIRC (s.roll rnd) cl req).1 =
      (clientSetHostname (clientSetUser (s.roll rnd) cl (req.arg 1) true) cl (if s.conf.dns then req.arg 2 else req.arg 3)).updCl cl
        (fun c => { c with ipaText := some (req.arg 3) }) := by
    unfold ircWEBIRC
    rw [if_neg hc]
    rfl
  rw [hst, hrun]
  refine ⟨rnd, ?_⟩
  generalize (if s.conf.dns then req.arg 2 else req.arg 3) = hn
  simp only [clientSetHostname, clientSetUser, Srv.updCl, withClient, List.map_map, List.nil_append]
  have : ∀ d : Client, ((fun c : Client => if c.ref = cl then { c with ipaText := some (req.arg 3) } else c) ∘
      (fun c : Client => if c.ref = cl then setHostC (s.roll rnd).conf c hn else c) ∘
      (fun c : Client => if c.ref = cl then setUserC (s.roll rnd).conf c (req.arg 1) true else c)) d =
      (fun d : Client => if d.ref = cl then { d with user := (if s.conf.cloakUserToNick then d.id else req.arg 1).take 19, host := knownHost s.conf d.host hn, ipaText := some (req.arg 3) } else d) d := by
    intro d
    simp only [Function.comp]
    have hu : setUserC (s.roll rnd).conf d (req.arg 1) true = { d with user := (if s.conf.cloakUserToNick then d.id else req.arg 1).take 19 } := by
      unfold setUserC
      show (if s.conf.cloakUserToNick = true then _ else if true = true then _ else _) = _
      by_cases hk : s.conf.cloakUserToNick = true
      · rw [if_pos hk, if_pos hk]; rfl
      · rw [if_neg hk, if_pos rfl, if_neg hk]; rfl
    by_cases e : d.ref = cl
    · rw [if_pos e, if_pos e, hu, setHostC_known]
      simp only [e, if_true]
      rfl
    · simp only [if_neg e]
  rw [show (fun c : Client => if c.ref = cl then ({ c with ipaText := some (req.arg 3) } : Client) else c) ∘
      (fun c : Client => if c.ref = cl then setHostC (s.roll rnd).conf c hn else c) ∘
      (fun c : Client => if c.ref = cl then setUserC (s.roll rnd).conf c (req.arg 1) true else c) = _ from funext this]
  rfl

/-! ## Cases -/

/-- A server with a WEBIRC password, and a connection. -/
def Sample.s1p : Srv := step (Srv.init { Sample.conf with webircPwd := "pw".toList } "host".toList 1000) (.accept 5 "1.2.3.4".toList "1.2.3.4".toList false)

theorem reach_s1p : Reachable Sample.s1p := .step _ (.init _ _ _) (by decide +kernel)

example : ∃ req, Reachable Sample.s1p ∧ Received Sample.s1p 5 "WEBIRC pw joe host.example 8.8.8.8".toList 3 req ∧ Is req "WEBIRC" ∧
    (Sample.s1p.cl 3).type = .unknown ∧ (4 ≤ req.argv.length ∧ req.argv.length ≤ 5) ∧ Sample.s1p.conf.webircPwd ≠ [] ∧ req.arg 0 = Sample.s1p.conf.webircPwd ∧
    ((step Sample.s1p (.line 5 0 "WEBIRC pw joe host.example 8.8.8.8".toList)).cl 3).host = (if Sample.s1p.conf.dns then "host.example" else "8.8.8.8").toList :=
  ⟨⟨none, "WEBIRC".toList, ["pw".toList, "joe".toList, "host.example".toList, "8.8.8.8".toList]⟩, reach_s1p, recv_sound (by decide +kernel), by simp only [Is]; decide,
    by decide +kernel, by decide, by decide +kernel, by decide +kernel, by decide +kernel⟩

example : ∃ req, Reachable Sample.s1p ∧ Received Sample.s1p 5 "WEBIRC pv joe host.example 8.8.8.8".toList 3 req ∧ Is req "WEBIRC" ∧
    (Sample.s1p.cl 3).type = .unknown ∧ (4 ≤ req.argv.length ∧ req.argv.length ≤ 5) ∧ (Sample.s1p.conf.webircPwd = [] ∨ req.arg 0 ≠ Sample.s1p.conf.webircPwd) :=
  ⟨⟨none, "WEBIRC".toList, ["pv".toList, "joe".toList, "host.example".toList, "8.8.8.8".toList]⟩, reach_s1p, recv_sound (by decide +kernel), by simp only [Is]; decide,
    by decide +kernel, by decide, .inr (by decide +kernel)⟩

end Ngircd
