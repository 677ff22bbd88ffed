import Verif.Lemmas.Split
import Verif.Props.Links
import Verif.Spec.SampleNet

/-!
# C66: netsplits
-/

set_option linter.unusedSimpArgs false

namespace Ngircd
open Spec

variable {s : Srv} {i cl : Nat} {l : Str} {req : Request} {c f : Client}

/-- **C66** When the link to a server is lost, every other link is told once about every server lost with it, and every
local user once about every user lost with it who was on a channel with them; nobody is told anything else.
The lost peer gets at most a farewell.  (A server that is shutting down, after DIE or RESTART, says nothing about
the servers it loses.) -/
theorem C66_lost (h : Reachable s) (hsig : s.sigQuit = false) (hc : c ∈ s.clients) (hct : c.type = .server) (hcc : c.conn = some i)
    (reason : Option Str) (inform : Bool) :
    ∃ o bye, (step s (.lost i reason inform)).out = o ++ bye ++ s.out ∧ SplitTold s i c.ref reason o ∧
      bye = if inform then [⟨i, none, ⟨"ERROR", [c.ID, c.User, c.host, reason.getD "\"\"".toList]⟩⟩] else [] := by
  obtain ⟨o, h1, h2⟩ := close_server_out h.base hsig hc hct hcc reason inform
  obtain ⟨k, hk, -⟩ := conn?_of_mem h.base.cl hc hcc
  refine ⟨o, _, ?_, h2, rfl⟩
  simp only [step, hk, Option.isSome_some, if_true]
  exact h1

/-- The link to `peer` (connection 7) is lost: the other link, at connection 8, hears of `peer` and of `far` behind it, and
`alice` and `bob` see `zed` quit. -/
example : Reachable Sample.net ∧ Sample.net.sigQuit = false ∧ (∃ c ∈ Sample.net.clients, c.type = .server ∧ c.conn = some 7) ∧
    isLink Sample.net 8 = true ∧
    (step Sample.net (.lost 7 (some "bye".toList) true)).out.length = Sample.net.out.length + 5 ∧
    (((step Sample.net (.lost 7 (some "bye".toList) true)).out.take 5).map (fun y => (y.conn, y.src, y.msg.cmd, y.msg.args)) =
      [(8, some "peer.example.net".toList, "SQUIT", ["peer.example.net".toList, "bye".toList]),
       (5, some "zed!zed@host.example".toList, "QUIT", ["irc.example.net peer.example.net".toList]),
       (6, some "zed!zed@host.example".toList, "QUIT", ["irc.example.net peer.example.net".toList]),
       (8, some "far.example.net".toList, "SQUIT", ["far.example.net".toList, "irc.example.net peer.example.net".toList]),
       (7, none, "ERROR", ["peer.example.net".toList, "~".toList, "5.5.5.5".toList, "bye".toList])]) :=
  ⟨Sample.polite_net.reachable, by decide +kernel, by decide +kernel, by decide +kernel, by decide +kernel, by decide +kernel⟩

theorem SplitTold.roll {o : List Sent} {r : Nat} {reason : Option Str} (rnd : Int) (h : SplitTold (s.roll rnd) i r reason o) :
    SplitTold s i r reason o where
  links j hj hl := by
    obtain ⟨ds, h1, h2, h3⟩ := h.links j hj hl
    exact ⟨ds, h1, fun d => (h2 d).trans (and_congr_left (fun _ => under_congr (t := s.roll rnd) (s := s) rfl)), h3⟩
  users j hl := by
    obtain ⟨ds, h1, h2, h3⟩ := h.users j hl
    exact ⟨ds, h1, fun d => (h2 d).trans (and_congr_left (fun _ => under_congr (t := s.roll rnd) (s := s) rfl)), h3⟩
  own := h.own

/-- **C66** When a linked server reports that a server behind it has gone, all other links and the local users are told in
the same way.  Nothing is sent back to where the lost server was. -/
theorem C66_squit (h : PoliteRun s) (hr : Received s i l cl req) (his : Is req "SQUIT") {name text : Str} (hargs : req.argv = [name, text])
    (hsig : s.sigQuit = false) (hsrv : (s.cl cl).type = .server) (hf : Originator s cl req f) (hft : f.type = .server)
    (hc : c ∈ s.clients) (hct : c.type = .server) (hcn : c.conn = none) (hid : c.id ≠ []) (hname : SameCase c.id (nickPart name)) (hbe : Behind s i c) (rnd : Int) :
    ∃ o, (step s (.line i rnd l)).out = o ++ s.out ∧
      SplitTold s i c.ref (some (if text = [] then "Got SQUIT from ".toList ++ f.ID else text)) o := by
  have hb := h.reachable.base
  obtain ⟨g1, g2, g3, g4⟩ := hr.owner hb
  have hne := hbe.ne_this hb hc
  have hrun : step s (.line i rnd l) = (ircSQUIT (s.roll rnd) cl req).1 :=
    step_do hr rnd his rfl (by rw [hsrv]; rfl) (by simp only [Command.argcOk, Request.argc, hargs]; rfl)
  have hb' : Base (s.roll rnd) := Base.of_core (s := s) rfl hb
  have ha0 : req.arg 0 = name := by simp only [Request.arg, hargs]; rfl
  have ha1 : req.arg 1 = text := by simp only [Request.arg, hargs]; rfl
  obtain ⟨k1, k2, k3, k4⟩ := msgFrom_originator h hr hf
  have hsc : clientSearch (s.roll rnd) name = some c := (C13_lookup h name c).2 ⟨hc, hid, hname⟩
  have hfrom : squitFrom (s.roll rnd) cl req = some (some f) := by
    simp only [squitFrom, roll_cl, hsrv, if_true]
    simp only [msgFrom, hsrv, if_true] at k1
    cases hp : req.prefix? with
    | none =>
      rw [hp] at k1
      injection k1 with k1
      rw [k1, k2]
    | some p =>
      rw [hp] at k1
      simp only at k1
      obtain ⟨g, hg, hgr⟩ := Option.map_eq_some_iff.1 k1
      have hgf : g = f := hb.cl.ord.eq_of_ref (clientSearch_mem hg) hf.1 hgr
      subst hgf
      have : clientSearch (s.roll rnd) p = some g := hg
      simp only [this, hft, ne_eq, not_true_eq_false, decide_false, Bool.false_and, Bool.false_eq_true, if_false]
  have hmsg : squitMsg (s.roll rnd) cl f none text = if text = [] then "Got SQUIT from ".toList ++ f.ID else text := by
    have hh : (nextHop (s.roll rnd) f).ref = cl := by
      have hm := nextHop_mem hf.1 (by rw [k3]; rfl)
      rw [show nextHop (s.roll rnd) f = nextHop s f from (Like.hop (v := s) (t := s.roll rnd) ⟨rfl, rfl, rfl, rfl, rfl⟩ f)]
      rw [conn_owner hb hm g1 k3 g3, g2]
    simp only [squitMsg, hh, Option.isSome_none, ne_eq, not_true_eq_false, decide_false, Bool.or_self, Bool.false_eq_true, if_false]
    cases text <;> rfl
  have hrun2 : step s (.line i rnd l) = clientDestroy (s.roll rnd) c.ref
      (some (if text = [] then "Got SQUIT from ".toList ++ f.ID else text)) false := by
    rw [hrun]
    simp only [ircSQUIT, roll_cl, hsrv, ne_eq, not_true_eq_false, decide_false, Bool.false_and, Bool.false_eq_true, if_false, hfrom]
    simp only [squitDo, ha0, ha1, hsc, roll_cl, hsrv, ne_eq, not_true_eq_false, decide_false, Bool.false_and, Bool.false_eq_true, if_false, hcn, hft, hmsg]
    rw [roll_this, if_neg hne]
  have hG := (clientDestroy_gone hb' hc hne hcn (some (if text = [] then "Got SQUIT from ".toList ++ f.ID else text)) false).clients
  obtain ⟨o, h1, h2⟩ := destroy_server_out (s := s.roll rnd) (t := s.roll rnd) (i := i) hb' (P := fun _ => true) (fun _ _ => rfl) rfl
    (List.filter_eq_self.2 (fun _ _ => rfl)).symm hsig g1 hsrv g3 hc hct (behind_roll.2 hbe) (some (if text = [] then "Got SQUIT from ".toList ++ f.ID else text)) false hG
  exact ⟨o, by rw [hrun2]; exact h1, SplitTold.roll rnd h2⟩

example : ∃ req c f, PoliteRun Sample.net ∧ Received Sample.net 7 ":peer.example.net SQUIT far.example.net :gone".toList 6 req ∧ Is req "SQUIT" ∧
    req.argv = ["far.example.net".toList, "gone".toList] ∧ Sample.net.sigQuit = false ∧ (Sample.net.cl 6).type = .server ∧
    Originator Sample.net 6 req f ∧ f.type = .server ∧ c ∈ Sample.net.clients ∧ c.type = .server ∧ c.conn = none ∧ c.id ≠ [] ∧
    SameCase c.id (nickPart "far.example.net".toList) ∧ Behind Sample.net 7 c ∧
    (step Sample.net (.line 7 0 ":peer.example.net SQUIT far.example.net :gone".toList)).out.length = Sample.net.out.length + 1 :=
  ⟨⟨some "peer.example.net".toList, "SQUIT".toList, ["far.example.net".toList, "gone".toList]⟩, Sample.net.cl 8, Sample.net.cl 6,
    Sample.polite_net, recv_sound (by decide +kernel), by simp only [Is]; decide +kernel, rfl, by decide +kernel, by decide +kernel,
    ⟨by decide +kernel, .inl ⟨by decide +kernel, _, rfl, (caseEq_same _ _).1 (by decide +kernel)⟩⟩, by decide +kernel, by decide +kernel,
    by decide +kernel, by decide +kernel, by decide +kernel, (caseEq_same _ _).1 (by decide +kernel),
    .via (p := Sample.net.cl 6) (by decide +kernel) (by decide +kernel) (by decide +kernel) (.direct (by decide +kernel)), by decide +kernel⟩

end Ngircd
