import Verif.Props.Answers

/-!
# C73: the answer to WHO
-/

set_option linter.unusedSimpArgs false

namespace Ngircd
open Spec

variable {s v t : Srv} {i j : Nat} {l : Str} {cl : Nat} {req : Request} {c d p : Client}

theorem presence_eq (u : Client) : whoFlags u = presence u := by
  simp only [whoFlags, presence, clMode_dec, decide_eq_true_eq]

theorem whoReply_eq (s : Srv) (c u : Client) (n f : Str) : whoReply s c u n f = whoLine s c u n f := by
  simp only [whoReply, whoLine, displayedHost_public]

theorem whoChannel_told (hb : Base s) (hc : c.introducer = c.ref ∨ c.introducer = s.this) (hi : c.conn = some i) (ch : Chan) (ops : Bool) :
    whoChannel s c ch ops = told s i c (whoOnChannel s c ch ops ++ [⟨"RPL_ENDOFWHO_MSG", [c.ID, ch.name]⟩]) := by
  have hm : (whoMembers s c ch ops).foldl (fun v r => write v c (whoReply v c (v.cl r) ch.name
        (whoFlags (v.cl r) ++ flagsQualifier c (userModes v ch.ref r)))) s =
      told s i c (((channelMembers s ch).filter (fun m => (!ops || decide ('o' ∈ (s.cl m.client).modes)) &&
        (decide (OnChannel s ch.ref c.ref) || (decide ('i' ∉ (s.cl m.client).modes) || decide ('o' ∈ c.modes))))).map
        (fun m => whoLine s c (s.cl m.client) ch.name (presence (s.cl m.client) ++ signs c m.modes))) := by
    have h1 : whoMembers s c ch ops = ((channelMembers s ch).filter (fun m => (!ops || decide ('o' ∈ (s.cl m.client).modes)) &&
        (decide (OnChannel s ch.ref c.ref) || (decide ('i' ∉ (s.cl m.client).modes) || decide ('o' ∈ c.modes))))).map (fun m => m.client) := by
      simp only [whoMembers, membersOf, channelMembers, List.filter_map, List.filter_filter]
      congr 1
      refine List.filter_congr (fun m _ => ?_)
      simp only [Function.comp, onChan_iff, clMode_dec, decide_not, Bool.or_assoc]
      congr 1
    rw [h1, List.foldl_map]
    have key : ∀ (ms : List Cl2Chan), (∀ m ∈ ms, m ∈ s.cl2 ∧ m.chan = ch.ref) → ∀ acc : List Msg,
        ms.foldl (fun v m => write v c (whoReply v c (v.cl m.client) ch.name
          (whoFlags (v.cl m.client) ++ flagsQualifier c (userModes v ch.ref m.client)))) (told s i c acc) =
        told s i c (acc ++ ms.map (fun m => whoLine s c (s.cl m.client) ch.name (presence (s.cl m.client) ++ signs c m.modes))) := by
      intro ms
      induction ms with
      | nil => intro _ acc; simp
      | cons m ms ih =>
        intro hms acc
        obtain ⟨h2, h3⟩ := hms m (List.mem_cons_self)
        rw [List.foldl_cons, told_write hc hi, ih (fun x hx => hms x (List.mem_cons_of_mem _ hx))]
        have e : whoReply (told s i c acc) c ((told s i c acc).cl m.client) ch.name
            (whoFlags ((told s i c acc).cl m.client) ++ flagsQualifier c (userModes (told s i c acc) ch.ref m.client)) =
            whoLine s c (s.cl m.client) ch.name (presence (s.cl m.client) ++ signs c m.modes) := by
          show whoReply s c (s.cl m.client) ch.name (whoFlags (s.cl m.client) ++ flagsQualifier c (userModes s ch.ref m.client)) = _
          rw [whoReply_eq, presence_eq, signs_eq, ← h3, userModes_mem hb.ch h2]
        rw [e, List.map_cons, List.append_assoc]
        rfl
    refine key _ (fun m hm => ?_) []
    obtain ⟨h2, -⟩ := List.mem_filter.1 hm
    obtain ⟨h3, h4⟩ := List.mem_filter.1 h2
    exact ⟨h3, by simpa using h4⟩
  simp only [whoChannel, hm]
  have e2 : (if (!isMemberOf s ch.ref c.ref && !c.hasMode 'o' && ch.hasMode 's') = true then s else
      told s i c (((channelMembers s ch).filter (fun m => (!ops || decide ('o' ∈ (s.cl m.client).modes)) &&
        (decide (OnChannel s ch.ref c.ref) || (decide ('i' ∉ (s.cl m.client).modes) || decide ('o' ∈ c.modes))))).map
        (fun m => whoLine s c (s.cl m.client) ch.name (presence (s.cl m.client) ++ signs c m.modes)))) = told s i c (whoOnChannel s c ch ops) := by
    rw [onChan_iff, chanMode_dec, clMode_dec]
    unfold whoOnChannel
    by_cases hk : ¬ OnChannel s ch.ref c.ref ∧ 'o' ∉ c.modes ∧ 's' ∈ ch.modes
    · rw [if_pos hk, if_pos (by simpa [and_assoc] using hk)]
      rfl
    · rw [if_neg hk, if_neg (by simpa [and_assoc] using hk)]
  rw [e2, told_write hc hi]

theorem match_lower (m x : Str) : matchCaseInsensitive (lowerStr m) x = matchCaseInsensitive m x := by
  unfold matchCaseInsensitive
  have : lowerStr (strlcpy COMMAND_LEN (lowerStr m)) = lowerStr (strlcpy COMMAND_LEN m) := by
    simp only [strlcpy, lowerStr, ← List.map_take]
    exact lowerStr_idem _
  rw [this]

theorem shares_eq (a b : Client) : (channelsOf s a.ref).any (fun ch => isMemberOf s ch b.ref) = shares s a b := by
  simp only [channelsOf, shares, List.any_map, List.any_filter, Function.comp_def, onChan_iff]
  rfl

theorem whoUsers_eq (mask : Option Str) (ops : Bool) :
    s.clients.filter (fun u => decide (u.type = .user) && (!ops || u.hasMode 'o') && whoMatch s (mask.map lowerStr) u && whoVisible s c (mask.map lowerStr) u) =
      whoUsers s c mask ops := by
  refine List.filter_congr (fun u _ => ?_)
  have h1 : whoMatch s (mask.map lowerStr) u = mask.all (fun m => [u.host, (s.cl u.introducer).ID, u.info, u.ID].any (matchCaseInsensitive m)) := by
    cases mask with
    | none => rfl
    | some m => simp only [whoMatch, Option.map_some, match_lower, Option.all_some, List.any_cons, List.any_nil, Bool.or_false, Bool.or_assoc]
  have h2 : whoVisible s c (mask.map lowerStr) u = (decide ('i' ∉ u.modes) || mask.any (fun m => decide (SameCase u.ID m)) || shares s c u) := by
    simp only [whoVisible, shares_eq, clMode_dec, decide_not]
    congr 2
    cases mask with
    | none => rfl
    | some m =>
      simp only [Option.map_some, Option.any_some]
      rw [Bool.eq_iff_iff, decide_eq_true_eq, caseEq_same]
      have : SameCase (lowerStr m) m := (caseEq_same _ _).1 (by simp [caseEq])
      exact ⟨fun h => h.trans this, fun h => h.trans this.symm⟩
  rw [h1, h2, clMode_dec]

theorem whoMask_told (hc : c.introducer = c.ref ∨ c.introducer = s.this) (hi : c.conn = some i) (mask : Option Str) (ops : Bool) :
    whoMask s c mask ops = told s i c (whoAnswer s c mask ops) := by
  have e1 := whoUsers_eq (s := s) (c := c) mask ops
  simp only [whoMask, whoAnswer, e1]
  have e2 : ((whoUsers s c mask ops).take MAX_RPL_WHO).foldl (fun v u => write v c (whoReply v c u "*".toList (whoFlags u))) s =
      told s i c (((whoUsers s c mask ops).take 25).map (fun u => whoLine s c u ['*'] (presence u))) := by
    rw [List.map_eq_flatMap]
    refine told_foldl (t := s) (i := i) (c := c) (g := fun u => [whoLine s c u ['*'] (presence u)]) (fun u ms => ?_) _ []
    rw [told_write hc hi, presence_eq]
    show told s i c (ms ++ [whoReply s c u "*".toList (presence u)]) = _
    rw [whoReply_eq]
    rfl
  rw [e2]
  by_cases hl : 25 < (whoUsers s c mask ops).length
  · rw [if_pos (show (whoUsers s c mask ops).length > MAX_RPL_WHO from hl), if_pos hl, told_write hc hi, told_write hc hi]
    rfl
  · rw [if_neg (show ¬ (whoUsers s c mask ops).length > MAX_RPL_WHO from hl), if_neg hl, told_write hc hi, List.append_nil]
    rfl

/-- The arguments of a WHO command: whom it is about, and whether only about IRC operators. -/
def Spec.whoArgs (argv : List Str) : Str × Bool :=
  match argv with
  | [] => (['0'], false)
  | [a] => (a, false)
  | a :: b :: _ => (a, decide (b = ['o']))

theorem who_step (h : PoliteRun s) (hr : Received s i l cl req) (his : Is req "WHO") (hu : (s.cl cl).type = .user) (hargs : req.argv.length ≤ 2) (rnd : Int) :
    step s (.line i rnd l) = match channelNamed s (req.argv.headD ['0']) with
      | some ch => if req.argv = [] then whoMask (s.roll rnd) (s.cl cl) none false else whoChannel (s.roll rnd) (s.cl cl) ch (whoArgs req.argv).2
      | none => whoMask (s.roll rnd) (s.cl cl) (if (whoArgs req.argv).1 = ['0'] then none else some (whoArgs req.argv).1) (whoArgs req.argv).2 := by
  rw [step_do hr rnd his rfl (by rw [hu]; rfl) (by
    simp only [Command.argcOk, Request.argc]
    rw [Bool.and_eq_true]
    exact ⟨decide_eq_true (Nat.zero_le _), decide_eq_true hargs⟩)]
  show (ircWHO (s.roll rnd) cl req).1 = _
  have hch : ∀ n, channelSearch (s.roll rnd) n = channelNamed s n := fun n => channelNamed_eq h n
  rcases hq : req.argv with _ | ⟨a, _ | ⟨b, _ | ⟨x, xs⟩⟩⟩
  · simp only [ircWHO, Request.argc, hq, List.length_nil]
    rw [if_neg (by decide)]
    cases channelNamed s (([] : List Str).headD ['0']) <;> rfl
  · simp only [ircWHO, Request.argc, Request.arg, hq, List.length_cons, List.length_nil, List.getD_cons_zero, List.headD_cons]
    rw [if_pos (by decide), hch]
    cases channelNamed s a with
    | some ch => rfl
    | none =>
      have e : (if a ≠ "0".toList then some a else none) = (if (whoArgs [a]).1 = ['0'] then none else some (whoArgs [a]).1) := by
        by_cases h0 : a = ['0']
        · subst h0; rfl
        · exact (if_pos h0).trans (if_neg h0).symm
      simp only
      rw [e]
      rfl
  · simp only [ircWHO, Request.argc, Request.arg, hq, List.length_cons, List.length_nil, List.getD_cons_zero, List.headD_cons]
    rw [if_pos (by decide), hch]
    cases channelNamed s a with
    | some ch => rfl
    | none =>
      have e : (if a ≠ "0".toList then some a else none) = (if (whoArgs [a, b]).1 = ['0'] then none else some (whoArgs [a, b]).1) := by
        by_cases h0 : a = ['0']
        · subst h0; rfl
        · exact (if_pos h0).trans (if_neg h0).symm
      simp only
      rw [e]
      rfl
  · rw [hq] at hargs
    simp at hargs

/-- **C73** WHO for a channel: the members the client may see, and nothing else happens. -/
theorem C73_channel (h : PoliteRun s) (hr : Received s i l cl req) (his : Is req "WHO") (hu : (s.cl cl).type = .user) {a : Str} {as : List Str}
    (hargs : req.argv = a :: as) (has : as.length ≤ 1) {ch : Chan} (hch : channelNamed s a = some ch) (rnd : Int) :
    Answers s i (step s (.line i rnd l))
      (whoOnChannel s (s.cl cl) ch (whoArgs req.argv).2 ++ [⟨"RPL_ENDOFWHO_MSG", [(s.cl cl).ID, ch.name]⟩]) := by
  have hb := h.reachable.base
  obtain ⟨g1, g2, g3, g4⟩ := hr.owner hb
  have hc : (s.cl cl).introducer = (s.cl cl).ref ∨ (s.cl cl).introducer = s.this := hb.cl.loc _ g1 (by rw [g3]; rfl)
  refine answers_of hb hr hu rnd ?_
  rw [who_step h hr his hu (by rw [hargs]; simp; omega) rnd, hargs, List.headD_cons, hch]
  simp only
  rw [if_neg (by simp)]
  exact whoChannel_told (s := s.roll rnd) (Base.of_core (s := s) rfl hb) hc g3 ch _

/-- **C73** WHO for anything else, or without argument (or "0") for all users: the first 25 visible users that match, and nothing else happens. -/
theorem C73_mask (h : PoliteRun s) (hr : Received s i l cl req) (his : Is req "WHO") (hu : (s.cl cl).type = .user) (hargs : req.argv.length ≤ 2)
    (hch : req.argv = [] ∨ channelNamed s (whoArgs req.argv).1 = none) (rnd : Int) :
    Answers s i (step s (.line i rnd l))
      (whoAnswer s (s.cl cl) (if (whoArgs req.argv).1 = ['0'] then none else some (whoArgs req.argv).1) (whoArgs req.argv).2) := by
  have hb := h.reachable.base
  obtain ⟨g1, g2, g3, g4⟩ := hr.owner hb
  have hc : (s.cl cl).introducer = (s.cl cl).ref ∨ (s.cl cl).introducer = s.this := hb.cl.loc _ g1 (by rw [g3]; rfl)
  refine answers_of hb hr hu rnd ?_
  rw [who_step h hr his hu hargs rnd]
  have e : ∀ m o, whoMask (s.roll rnd) (s.cl cl) m o = told (s.roll rnd) i (s.cl cl) (whoAnswer s (s.cl cl) m o) := fun m o =>
    whoMask_told (s := s.roll rnd) hc g3 m o
  rcases hch with h0 | h0
  · rw [h0]
    cases channelNamed s (([] : List Str).headD ['0']) <;> exact e _ _
  · cases hq : req.argv with
    | nil => cases channelNamed s (([] : List Str).headD ['0']) <;> exact e _ _
    | cons a as =>
      have : (whoArgs req.argv).1 = a := by rw [hq]; cases as <;> rfl
      rw [this] at h0
      rw [List.headD_cons, h0]
      exact e _ _

/-- **C73** An invisible user that is on no common channel with the client is not shown by WHO, unless the client knows the nick name. -/
theorem C73_hidden {u : Client} {mask : Option Str} {ops : Bool} (hi : 'i' ∈ u.modes)
    (hno : ¬ ∃ ch, OnChannel s ch c.ref ∧ OnChannel s ch u.ref) (hm : ∀ m, mask = some m → ¬ SameCase u.ID m) : u ∉ whoUsers s c mask ops := by
  intro h
  obtain ⟨-, h⟩ := List.mem_filter.1 h
  simp only [Bool.and_eq_true, Bool.or_eq_true, decide_eq_true_eq] at h
  rcases h.2 with (h | h) | h
  · exact h hi
  · cases mask with
    | none => cases h
    | some m => exact hm m rfl (by simpa using h)
  · obtain ⟨m, h1, h2⟩ := List.any_eq_true.1 h
    simp only [Bool.and_eq_true, decide_eq_true_eq] at h2
    exact hno ⟨m.chan, ⟨m, h1, rfl, h2.1⟩, h2.2⟩

theorem Sample.who_facts :
    recv Sample.s5 5 "WHO #c".toList = some (3, ⟨none, "WHO".toList, ["#c".toList]⟩) ∧
    recv Sample.s5 5 "WHO *.example".toList = some (3, ⟨none, "WHO".toList, ["*.example".toList]⟩) ∧
    (Sample.s5.cl 3).type = .user ∧
    (channelNamed Sample.s5 "#c".toList).any (fun ch => decide ((whoOnChannel Sample.s5 (Sample.s5.cl 3) ch false).length = 3)) = true ∧
    channelNamed Sample.s5 "*.example".toList = none ∧
    (whoUsers Sample.s5 (Sample.s5.cl 3) (some "*.example".toList) false).length = 1 := by decide +kernel

example : ∃ req a as ch, PoliteRun Sample.s5 ∧ Received Sample.s5 5 "WHO #c".toList 3 req ∧ Is req "WHO" ∧ (Sample.s5.cl 3).type = .user ∧ req.argv = a :: as ∧ as.length ≤ 1 ∧
    channelNamed Sample.s5 a = some ch ∧ (whoOnChannel Sample.s5 (Sample.s5.cl 3) ch (whoArgs req.argv).2).length = 3 := by
  obtain ⟨f1, f2, f3, f4, f5, f6⟩ := Sample.who_facts
  cases hch : channelNamed Sample.s5 "#c".toList with
  | none => rw [hch] at f4; cases f4
  | some ch =>
    rw [hch, Option.any_some, decide_eq_true_eq] at f4
    exact ⟨_, _, _, ch, polite_s5, recv_sound f1, by simp only [Is]; decide, f3, rfl, by simp, hch, f4⟩

example : ∃ req, PoliteRun Sample.s5 ∧ Received Sample.s5 5 "WHO *.example".toList 3 req ∧ Is req "WHO" ∧ (Sample.s5.cl 3).type = .user ∧ req.argv.length ≤ 2 ∧
    channelNamed Sample.s5 (whoArgs req.argv).1 = none ∧ (whoUsers Sample.s5 (Sample.s5.cl 3) (some (whoArgs req.argv).1) false).length = 1 := by
  obtain ⟨f1, f2, f3, f4, f5, f6⟩ := Sample.who_facts
  exact ⟨_, polite_s5, recv_sound f2, by simp only [Is]; decide, f3, by simp, f5, f6⟩

/-- Bob has made itself invisible and has left the channel. -/
def Sample.s5h : Srv := Sample.lines Sample.s5 6 ["MODE bob +i", "PART #c"]

example : 'i' ∈ (Sample.s5h.cl 4).modes ∧ (Sample.s5h.cl2.all (fun m => decide (m.client ≠ (Sample.s5h.cl 4).ref)) = true) ∧ ¬ SameCase (Sample.s5h.cl 4).ID ['*'] ∧
    Sample.s5h.cl 4 ∈ Sample.s5h.clients := by
  decide +kernel

end Ngircd
