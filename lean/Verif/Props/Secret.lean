import Verif.Lemmas.Hidden
import Verif.Props.Queries
import Verif.Props.Join
import Verif.Props.Messages
import Verif.Props.Targets
import Verif.Props.Registration

/-!
# Secret channels

Queries do not reveal a secret channel to users that are not on it (C40).
-/

set_option linter.unusedSimpArgs false

namespace Ngircd

open Spec

variable {s t u : Srv} {i cl : Nat} {l : Str} {req : Request}

/-- A query that does not ask for the channel `ch` in one of the two ways that reveal it: WHO with
its name, and NAMES for everything while a visible user is on `ch` and on no other channel. -/
def Spec.Unasked (s : Srv) (ch : Chan) (req : Request) : Prop :=
  (Is req "WHO" → ¬ SameCase (req.arg 0) ch.name) ∧
  (Is req "NAMES" → req.argv = [] → ∀ c ∈ s.clients, isUser c → 'i' ∉ c.modes → OnChannel s ch.ref c.ref →
    ∃ d, d ≠ ch.ref ∧ OnChannel s d c.ref)

theorem mem_channelsOf {c r : Nat} : c ∈ channelsOf s r ↔ OnChannel s c r := by
  simp only [channelsOf, List.mem_map, List.mem_filter, beq_iff_eq, OnChannel]
  constructor
  · rintro ⟨m, ⟨h1, h2⟩, h3⟩; exact ⟨m, h1, h3, h2⟩
  · rintro ⟨m, h1, h2, h3⟩; exact ⟨m, ⟨h1, h3⟩, h2⟩

theorem w_prefix {ch : Nat} (i cl : Nat) (req req' : Request) :
    validatePrefix (without s ch) i cl req = .pass req' ↔ validatePrefix s i cl req = .pass req' := by
  have hr : isRfc1459 (without s ch) i = isRfc1459 s i := rfl
  simp only [validatePrefix]
  rw [w_cl, hr]
  cases req.prefix? with
  | none =>
    simp only
    split
    · exact ⟨fun h => (by cases h), fun h => (by cases h)⟩
    · exact Iff.rfl
  | some p =>
    simp only
    split
    · exact Iff.rfl
    · rw [w_search]
      cases clientSearch s p with
      | none =>
        simp only
        split <;> exact ⟨fun h => (by cases h), fun h => (by cases h)⟩
      | some x =>
        simp only [w_hop]
        split
        · split <;> exact ⟨fun h => (by cases h), fun h => (by cases h)⟩
        · exact Iff.rfl

/-- The request is received in the state without the channel as well. -/
theorem Spec.Received.without (hr : Received s i l cl req) (ch : Nat) :
    Received (Spec.without s ch) i l cl req := by
  obtain ⟨k, req0, h1, h2, h3, h4⟩ := hr
  exact ⟨k, req0, h1, h2, h3, (w_prefix _ _ _ _).2 h4⟩

/-- **C40** A query by a user that is neither on a secret channel nor IRC operator is answered
exactly as if the channel did not exist, the exceptions being a WHO with the name of the channel
and a NAMES for everything when a visible user is on no other channel. -/
theorem C40_hidden (h : PoliteRun s) (hr : Received s i l cl req) (hu : (s.cl cl).type = .user) {ch : Chan}
    (hch : ch ∈ s.chans) (hs : 's' ∈ ch.modes) (hno : ¬ OnChannel s ch.ref cl) (hop : 'o' ∉ (s.cl cl).modes)
    {n : String} (hn : n ∈ queries) (his : Is req n) (hask : Unasked s ch req) (rnd : Int) :
    step (without s ch.ref) (.line i rnd l) = without (step s (.line i rnd l)) ch.ref := by
  have hb := h.reachable.base
  obtain ⟨hmem, href, hcon, hth⟩ := hr.owner hb
  have hi := polite_chan h
  have hid : Hid cl ch.ref (s.roll rnd) := by
    refine ⟨isMemberOf_false.2 (fun m hm h1 h2 => hno ⟨m, hm, h1, h2⟩), ?_, ⟨ch, hch, rfl⟩, ?_, hb.ch.chan⟩
    · intro c hc he
      rw [chan_eq_of_ref hb.ch hc hch he]
      simpa [Chan.hasMode, hasChar] using hs
    · intro a ha b hb' hab
      rw [(C17_names_unique h).1 a ha b hb' ((caseEq_same _ _).1 hab)]
  have ho : ((s.roll rnd).cl cl).hasMode 'o' = false := by
    cases e : (s.cl cl).hasMode 'o' with
    | false => exact e
    | true => exact absurd (hasMode_iff.1 e) hop
  have key : ∀ (n : String) (cmd : Command), Is req n → findCommand n.toList = some cmd →
      n.toList.head?.any (fun c => c.isUpper) = true →
      (cmd.run (without (s.roll rnd) ch.ref) cl req).1 = without (cmd.run (s.roll rnd) cl req).1 ch.ref →
      step (without s ch.ref) (.line i rnd l) = without (step s (.line i rnd l)) ch.ref := by
    intro n cmd h1 h2 h3 h4
    rw [step_cmd hr rnd h1 h2 h3, step_cmd (hr.without ch.ref) rnd h1 h2 h3, w_roll]
    simp only [runCommand]
    rw [w_cl, w_writeErr, w_writeErr, w_needMore]
    split
    · split <;> rfl
    · split
      · rfl
      · exact h4
  simp only [queries, List.mem_cons, List.not_mem_nil, or_false] at hn
  rcases hn with rfl | rfl | rfl | rfl | rfl | rfl | rfl | rfl | rfl | rfl | rfl | rfl | rfl | rfl | rfl | rfl | rfl |
    rfl | rfl | rfl | rfl
  · exact key _ _ his rfl (by decide) (w_ircADMIN hid hu)
  · exact key _ _ his rfl (by decide) w_ircHELP
  · exact key _ _ his rfl (by decide) (w_ircINFO hid hu)
  · exact key _ _ his rfl (by decide) w_ircISON
  · exact key _ _ his rfl (by decide) (w_ircLINKS hid hu)
  · exact key _ _ his rfl (by decide) (w_ircLIST hid hu ho href)
  · exact key _ _ his rfl (by decide) (w_ircLUSERS hid hu href)
  · exact key _ _ his rfl (by decide) (w_ircMOTD hid hu)
  · refine key _ _ his rfl (by decide) (w_ircNAMES hid hu href ?_)
    intro ha c hc hcu hci hm
    have hargs : req.argv = [] := List.eq_nil_of_length_eq_zero ha
    obtain ⟨d, hd, hon⟩ := hask.2 his hargs c hc hcu (fun e => by rw [hasMode_iff.2 e] at hci; cases hci) (mem_channelsOf.1 hm)
    exact ⟨d, mem_channelsOf.2 hon, hd⟩
  · exact key _ _ his rfl (by decide) (w_ircPING hid hu)
  · exact key _ _ his rfl (by decide) w_ircSERVLIST
  · exact key _ _ his rfl (by decide) (w_ircSTATS hid hu)
  · exact key _ _ his rfl (by decide) (w_ircSUMMON (req := req))
  · exact key _ _ his rfl (by decide) (w_ircTIME hid hu)
  · exact key _ _ his rfl (by decide) (w_ircTRACE hid hu)
  · exact key _ _ his rfl (by decide) w_ircUSERHOST
  · exact key _ _ his rfl (by decide) (w_ircUSERS (req := req))
  · exact key _ _ his rfl (by decide) (w_ircVERSION hid hu)
  · refine key _ _ his rfl (by decide) (w_ircWHO hid hu href ?_)
    intro ha c hc he
    refine hask.1 his ?_
    rw [← chan_eq_of_ref hb.ch (channelSearch_mem hc) hch he]
    exact channelSearch_case hc
  · exact key _ _ his rfl (by decide) (w_ircWHOIS hid hu href)
  · exact key _ _ his rfl (by decide) (w_ircWHOWAS hid hu)

/-- **C40** A WHO with the name of the secret channel does not reveal its members or anything else
about it except its name: the answer is one line, the end of the list. -/
theorem C40_who (h : PoliteRun s) (hr : Received s i l cl req) (hu : (s.cl cl).type = .user) {ch : Chan}
    (hch : ch ∈ s.chans) (hs : 's' ∈ ch.modes) (hno : ¬ OnChannel s ch.ref cl) (hop : 'o' ∉ (s.cl cl).modes)
    (his : Is req "WHO") (hargs : req.argv.length ≤ 2) (hsame : SameCase (req.arg 0) ch.name) (rnd : Int) :
    ∃ src, Emitted s (step s (.line i rnd l)) [⟨i, src, ⟨"RPL_ENDOFWHO_MSG", [(s.cl cl).ID, ch.name]⟩⟩] := by
  have hb := h.reachable.base
  obtain ⟨hmem, href, hcon, hth⟩ := hr.owner hb
  have hfind : channelSearch s (req.arg 0) = some ch := by
    exact (C13_channel_lookup h _ _).2 ⟨hch, hsame.symm⟩
  have hne : req.argc ≥ 1 := by
    rcases Nat.eq_zero_or_pos req.argv.length with e | e
    · exfalso
      have e := List.eq_nil_of_length_eq_zero e
      have := (caseEq_same _ _).2 hsame
      have hl := congrArg List.length ((caseEq_iff _ _).1 this)
      simp only [Request.arg, e, List.getD_nil, lowerStr, List.map_nil, List.length_nil, List.length_map] at hl
      exact ((polite_chan h).good ch hch).2 (List.eq_nil_of_length_eq_zero hl.symm)
    · exact e
  rw [step_do hr rnd his rfl (by rw [hu]; rfl) (by
    simp only [Command.argcOk, Bool.and_eq_true, decide_eq_true_eq]
    exact ⟨Nat.zero_le _, hargs⟩)]
  have hs' : ch.hasMode 's' = true := by simpa [Chan.hasMode, hasChar] using hs
  have hoff : isMemberOf (s.roll rnd) ch.ref cl = false := isMemberOf_false.2 (fun m hm h1 h2 => hno ⟨m, hm, h1, h2⟩)
  have ho : (s.cl cl).hasMode 'o' = false := by
    cases e : (s.cl cl).hasMode 'o' with
    | false => rfl
    | true => exact absurd (hasMode_iff.1 e) hop
  simp only [ircWHO]
  rw [if_pos hne, roll_chan, hfind]
  simp only [whoChannel]
  rw [roll_cl, href, hoff, ho, hs']
  exact ⟨_, emitted_write (by rw [nextHop_self (by exact hb.cl.loc _ hmem (by rw [hcon]; rfl))]; exact hcon) _ _⟩

/-- The state `s5` after alice has made the channel secret and bob has left it. -/
def Sample.s5s : Srv := Sample.lines (Sample.lines Sample.s5 5 ["MODE #c +s"]) 6 ["PART #c"]

theorem Sample.polite_s5s : PoliteRun Sample.s5s :=
  (Sample.fine_lines (Sample.fine_lines Sample.fine_s5 _ _ (by decide +kernel)) _ _ (by decide +kernel)).mono
    (fun _ h => h.1) (fun _ _ h => h.1)

example : ∃ req, PoliteRun Sample.s5s ∧ Received Sample.s5s 6 "WHOIS alice".toList 4 req ∧
    (Sample.s5s.cl 4).type = .user ∧ (∃ ch ∈ Sample.s5s.chans, 's' ∈ ch.modes ∧ ¬ OnChannel Sample.s5s ch.ref 4 ∧
      OnChannel Sample.s5s ch.ref 3 ∧ Unasked Sample.s5s ch req) ∧ 'o' ∉ (Sample.s5s.cl 4).modes ∧
    "WHOIS" ∈ queries ∧ Is req "WHOIS" ∧ (step Sample.s5s (.line 6 0 "WHOIS alice".toList)).out ≠ Sample.s5s.out := by
  refine ⟨⟨none, "WHOIS".toList, ["alice".toList]⟩, Sample.polite_s5s, recv_sound (by decide +kernel), by decide +kernel, ?_,
    by decide +kernel, by decide, by simp only [Is]; decide, by decide +kernel⟩
  have : ∃ ch ∈ Sample.s5s.chans, 's' ∈ ch.modes ∧ ¬ OnChannel Sample.s5s ch.ref 4 ∧ OnChannel Sample.s5s ch.ref 3 := by
    decide +kernel
  obtain ⟨ch, h1, h2, h3, h4⟩ := this
  exact ⟨ch, h1, h2, h3, h4, fun h => absurd h (by simp only [Is]; decide), fun h => absurd h (by simp only [Is]; decide)⟩

example : ∃ req, PoliteRun Sample.s5s ∧ Received Sample.s5s 6 "WHO #C o".toList 4 req ∧ Is req "WHO" ∧
    req.argv.length ≤ 2 ∧ (∃ ch ∈ Sample.s5s.chans, 's' ∈ ch.modes ∧ SameCase (req.arg 0) ch.name) := by
  refine ⟨⟨none, "WHO".toList, ["#C".toList, "o".toList]⟩, Sample.polite_s5s, recv_sound (by decide +kernel),
    by simp only [Is]; decide, by decide, ?_⟩
  have : ∃ ch ∈ Sample.s5s.chans, 's' ∈ ch.modes ∧ caseEq "#C".toList ch.name = true := by decide +kernel
  obtain ⟨ch, h1, h2, h3⟩ := this
  exact ⟨ch, h1, h2, (caseEq_same _ _).1 h3⟩

/-- The members of the channel are not told the same: alice sees the channel. -/
example : step (without Sample.s5s 5) (.line 5 0 "WHOIS zed".toList) ≠
    without (step Sample.s5s (.line 5 0 "WHOIS zed".toList)) 5 := by
  intro h
  have := congrArg Srv.out h
  revert this
  decide +kernel

/-- The state `s5` after alice has created another secret channel. -/
def Sample.s5w : Srv := Sample.lines Sample.s5 5 ["JOIN #Secret", "MODE #Secret +s"]

theorem Sample.polite_s5w : PoliteRun Sample.s5w :=
  (Sample.fine_lines Sample.fine_s5 _ _ (by decide +kernel)).mono (fun _ h => h.1) (fun _ _ h => h.1)

/-- **C40 is violated** by WHO with the name of the channel: the name in the answer is written the
way the channel is named if it exists, and in small letters otherwise. -/
theorem C40_violated_by_who : ∃ s i l cl req ch, PoliteRun s ∧ Received s i l cl req ∧ (s.cl cl).type = .user ∧
    ch ∈ s.chans ∧ 's' ∈ ch.modes ∧ ¬ OnChannel s ch.ref cl ∧ 'o' ∉ (s.cl cl).modes ∧ Is req "WHO" ∧
    (step (without s ch.ref) (.line i 0 l)).out ≠ (step s (.line i 0 l)).out := by
  refine ⟨Sample.s5w, 6, "WHO #SECRET".toList, 4, ⟨none, "WHO".toList, ["#SECRET".toList]⟩, Sample.s5w.chan 8, Sample.polite_s5w,
    recv_sound (by decide +kernel), by decide +kernel, by decide +kernel, by decide +kernel, by decide +kernel,
    by decide +kernel, by simp only [Is]; decide, by decide +kernel⟩

/-- **C40 is violated** by NAMES for everything: a visible user that is on the secret channel only is
not listed among those on no channel. -/
theorem C40_violated_by_names : ∃ s i l cl req ch, PoliteRun s ∧ Received s i l cl req ∧ (s.cl cl).type = .user ∧
    ch ∈ s.chans ∧ 's' ∈ ch.modes ∧ ¬ OnChannel s ch.ref cl ∧ 'o' ∉ (s.cl cl).modes ∧ Is req "NAMES" ∧
    (step (without s ch.ref) (.line i 0 l)).out ≠ (step s (.line i 0 l)).out := by
  refine ⟨Sample.s5s, 6, "NAMES".toList, 4, ⟨none, "NAMES".toList, []⟩, Sample.s5s.chan 5, Sample.polite_s5s,
    recv_sound (by decide +kernel), by decide +kernel, by decide +kernel, by decide +kernel, by decide +kernel,
    by decide +kernel, by simp only [Is]; decide, by decide +kernel⟩

end Ngircd
