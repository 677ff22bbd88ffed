import Verif.Spec.Answers
import Verif.Props.Burst
import Verif.Props.Welcome
import Verif.Props.UserTold
import Verif.Props.Secret

/-!
# C71: the answers to NAMES and LIST
-/

set_option linter.unusedSimpArgs false

namespace Ngircd
open Spec

variable {s v t : Srv} {i j : Nat} {l : Str} {cl : Nat} {req : Request} {c d p : Client}

theorem channelNamed_eq (h : PoliteRun s) (n : Str) : channelSearch s n = channelNamed s n := by
  cases hc : channelSearch s n with
  | some ch =>
    obtain ⟨h1, h2⟩ := (C13_channel_lookup h n ch).1 hc
    cases hf : channelNamed s n with
    | none =>
      have := (List.find?_eq_none.1 hf) ch h1
      exact absurd (decide_eq_true h2) this
    | some ch' =>
      have h3 := List.mem_of_find?_eq_some hf
      have h4 : SameCase ch'.name n := by simpa using List.find?_some hf
      have := (C13_channel_lookup h n ch').2 ⟨h3, h4⟩
      rw [hc] at this
      exact this
  | none =>
    symm
    rw [channelNamed, List.find?_eq_none]
    intro ch hch hs
    have := (C13_channel_lookup h n ch).2 ⟨hch, by simpa using hs⟩
    rw [hc] at this; cases this

theorem clientNamed_eq (h : PoliteRun s) (n : Str) : clientSearch s n = clientNamed s n := by
  cases hc : clientSearch s n with
  | some ch =>
    obtain ⟨h1, h2, h3⟩ := (C13_lookup h n ch).1 hc
    cases hf : clientNamed s n with
    | none =>
      have := (List.find?_eq_none.1 hf) ch h1
      exact absurd (by rw [decide_eq_true h2, decide_eq_true h3]; rfl) this
    | some ch' =>
      have h3 := List.mem_of_find?_eq_some hf
      have h4 : ch'.id ≠ [] ∧ SameCase ch'.id (nickPart n) := by simpa using List.find?_some hf
      have := (C13_lookup h n ch').2 ⟨h3, h4⟩
      rw [hc] at this
      exact this
  | none =>
    symm
    rw [clientNamed, List.find?_eq_none]
    intro ch hch hs
    have := (C13_lookup h n ch).2 ⟨hch, by simpa using hs⟩
    rw [hc] at this; cases this

theorem signs_eq (c : Client) (ms : Str) : flagsQualifier c ms = signs c ms := by
  have e : ∀ x, hasChar ms x = decide (x ∈ ms) := fun x => by simp [hasChar]
  simp only [flagsQualifier, signs, rankSigns, e, Bool.true_or, Bool.and_true]

/-- Lines told to a local user are an answer. -/
theorem answers_of (hb : Base s) (hr : Received s i l cl req) (hu : (s.cl cl).type = .user) (rnd : Int) {ms : List Msg} {u : Srv}
    (h : u = told (s.roll rnd) i (s.cl cl) ms) : Answers s i u ms := by
  obtain ⟨ho1, ho2, ho3, ho4⟩ := hr.owner hb
  refine ⟨rnd, ?_⟩
  rw [h]
  have e1 : getPrefix (s.roll rnd) (s.cl cl) ((s.roll rnd).cl (s.roll rnd).this) = shownAs s (s.cl s.this) i := by
    have hl : isLink s i = false := by
      cases hl : isLink s i with
      | false => rfl
      | true => rw [isLink_iff hb ho1 ho3, hu] at hl; cases hl
    simp only [shownAs, getPrefix, hl, hu]
    rfl
  simp only [told]
  rw [e1]
  rfl

theorem onChan_iff {ch r : Nat} : isMemberOf s ch r = decide (OnChannel s ch r) := by
  rw [Bool.eq_iff_iff, decide_eq_true_eq]
  exact isMemberOf_iff

theorem chanMode_dec (ch : Chan) (m : Char) : ch.hasMode m = decide (m ∈ ch.modes) := by simp [Chan.hasMode, hasChar]

theorem clMode_dec (c : Client) (m : Char) : c.hasMode m = decide (m ∈ c.modes) := by simp [Client.hasMode, hasChar]

theorem sendNAMES_told (hb : Base s) (hc : c.introducer = c.ref ∨ c.introducer = s.this) (hi : c.conn = some i) (ms : List Msg) (ch : Chan) :
    sendNAMES (told s i c ms) c ch = told s i c (ms ++ namesOf s c ch) := by
  have hv : (visibleMembers s c ch).map (fun r => flagsQualifier c (userModes s ch.ref r) ++ (s.cl r).ID) =
      (seenMembers s c ch).map (fun m => signs c m.modes ++ (s.cl m.client).ID) := by
    simp only [visibleMembers, membersOf, seenMembers, channelMembers, List.filter_map, List.map_map, List.filter_filter]
    have e1 : s.cl2.filter (fun m => (((fun r => isMemberOf s ch.ref c.ref || !(s.cl r).hasMode 'i') ∘ fun m : Cl2Chan => m.client) m) && (m.chan == ch.ref)) =
        s.cl2.filter (fun m => (decide (OnChannel s ch.ref c.ref) || decide ('i' ∉ (s.cl m.client).modes)) && decide (m.chan = ch.ref)) := by
      refine List.filter_congr (fun m _ => ?_)
      simp only [Function.comp, onChan_iff, clMode_dec]
      congr 1
      · congr 1
        rw [decide_not]
    rw [e1]
    refine List.map_congr_left (fun m hm => ?_)
    obtain ⟨h1, h2⟩ := List.mem_filter.1 hm
    have h3 : m.chan = ch.ref := by
      rw [Bool.and_eq_true] at h2
      simpa using h2.2
    simp only [Function.comp, signs_eq]
    rw [← h3, userModes_mem hb.ch h1]
  have e0 : ∀ x r, isMemberOf (told s i c ms) x r = isMemberOf s x r := fun _ _ => rfl
  have e2 : visibleMembers (told s i c ms) c ch = visibleMembers s c ch := rfl
  have e3 : ∀ x r, userModes (told s i c ms) x r = userModes s x r := fun _ _ => rfl
  have e4 : ∀ r, (told s i c ms).cl r = s.cl r := fun _ => rfl
  have e5 : (told s i c ms).conf = s.conf := rfl
  simp only [sendNAMES, e0, e2, e3, e4, e5, hv, namesOf]
  rw [onChan_iff, chanMode_dec]
  by_cases ho : OnChannel s ch.ref c.ref
  · simp only [ho, decide_true, Bool.not_true, Bool.and_false, Bool.false_and, Bool.false_eq_true, if_false, not_true_eq_false, false_and]
    by_cases hn : seenMembers s c ch = []
    · rw [hn]; simp
    · rw [if_neg (by simpa using hn), if_neg hn, told_write hc hi]
      simp only [decide_eq_true_eq]
  · simp only [ho, decide_false, Bool.not_false, Bool.and_true, Bool.true_and, not_false_eq_true, true_and]
    by_cases hp : s.conf.morePrivacy = true
    · rw [if_pos hp, if_pos (.inl hp), List.append_nil]
    · rw [if_neg hp]
      by_cases hs : 's' ∈ ch.modes
      · rw [if_pos (decide_eq_true hs), if_pos (.inr hs), List.append_nil]
      · rw [if_neg (show ¬ decide ('s' ∈ ch.modes) = true from by simpa using hs),
          if_neg (show ¬ (s.conf.morePrivacy = true ∨ 's' ∈ ch.modes) from fun h => h.elim hp hs)]
        by_cases hn : seenMembers s c ch = []
        · rw [hn]; simp
        · rw [if_neg (by simpa using hn), if_neg hn, told_write hc hi]
          simp only [decide_eq_true_eq]

/-- **C71** NAMES for a list of channels: for each of them the members the client may see, with the signs of their ranks; nothing else happens. -/
theorem C71_names (h : PoliteRun s) (hr : Received s i l cl req) (his : Is req "NAMES") (hu : (s.cl cl).type = .user) {a : Str}
    (hargs : req.argv = [a]) (rnd : Int) :
    Answers s i (step s (.line i rnd l))
      ((items a).flatMap (fun n => (match channelNamed s n with | some ch => namesOf s (s.cl cl) ch | none => []) ++
        [⟨"RPL_ENDOFNAMES_MSG", [(s.cl cl).ID, n]⟩])) := by
  have hb := h.reachable.base
  obtain ⟨g1, g2, g3, g4⟩ := hr.owner hb
  have hc : (s.cl cl).introducer = (s.cl cl).ref ∨ (s.cl cl).introducer = s.this := hb.cl.loc _ g1 (by rw [g3]; rfl)
  refine answers_of hb hr hu rnd ?_
  rw [step_do hr rnd his rfl (by rw [hu]; rfl) (by simp only [Command.argcOk, Request.argc, hargs]; rfl)]
  show (ircNAMES (s.roll rnd) cl req).1 = _
  simp only [ircNAMES, answerHere]
  rw [getSender_user (by exact hu)]
  simp only [getTarget, Request.argc, hargs, List.length_cons, List.length_nil]
  rw [if_neg (by decide)]
  simp only [ne_eq, not_true_eq_false, if_false, namesHere, Request.argc, Request.arg, hargs, List.length_cons, List.length_nil, List.getD_cons_zero]
  rw [if_pos (by decide), strtok_items]
  have hbr : Base (s.roll rnd) := Base.of_core (s := s) rfl hb
  have key : ∀ (ns : List Str) (ms : List Msg),
      ns.foldl (fun v n => write (match channelSearch v n with | some ch => sendNAMES v (s.cl cl) ch | none => v) (s.cl cl) ⟨"RPL_ENDOFNAMES_MSG", [(s.cl cl).ID, n]⟩)
        (told (s.roll rnd) i (s.cl cl) ms) =
      told (s.roll rnd) i (s.cl cl) (ms ++ ns.flatMap (fun n => (match channelNamed s n with | some ch => namesOf s (s.cl cl) ch | none => []) ++
        [⟨"RPL_ENDOFNAMES_MSG", [(s.cl cl).ID, n]⟩])) := by
    intro ns
    induction ns with
    | nil => intro ms; simp
    | cons n ns ih =>
      intro ms
      rw [List.foldl_cons, List.flatMap_cons]
      have e : channelSearch (told (s.roll rnd) i (s.cl cl) ms) n = channelNamed s n := channelNamed_eq h n
      rw [e]
      cases hn : channelNamed s n with
      | none =>
        simp only
        rw [told_write (s := s.roll rnd) hc g3, ih]
        simp
      | some ch =>
        simp only
        rw [sendNAMES_told hbr hc g3, told_write (s := s.roll rnd) hc g3, ih]
        simp only [List.append_assoc, List.cons_append, List.nil_append]
        rfl
  exact key (items a) []

theorem told_foldl {α : Type} {f : Srv → α → Srv} {g : α → List Msg} (h : ∀ x ms, f (told t i c ms) x = told t i c (ms ++ g x)) :
    ∀ (xs : List α) (ms : List Msg), xs.foldl f (told t i c ms) = told t i c (ms ++ xs.flatMap g)
  | [], ms => by simp
  | x :: xs, ms => by rw [List.foldl_cons, h, told_foldl h xs, List.flatMap_cons, List.append_assoc]

/-- **C71** NAMES without argument: the members of all channels the client may see, then the visible users on no channel. -/
theorem C71_names_all (h : PoliteRun s) (hr : Received s i l cl req) (his : Is req "NAMES") (hu : (s.cl cl).type = .user) (hargs : req.argv = []) (rnd : Int) :
    Answers s i (step s (.line i rnd l))
      (s.chans.flatMap (namesOf s (s.cl cl)) ++ homeless s (s.cl cl) ++ [⟨"RPL_ENDOFNAMES_MSG", [(s.cl cl).ID, ['*']]⟩]) := by
  have hb := h.reachable.base
  obtain ⟨g1, g2, g3, g4⟩ := hr.owner hb
  have hc : (s.cl cl).introducer = (s.cl cl).ref ∨ (s.cl cl).introducer = s.this := hb.cl.loc _ g1 (by rw [g3]; rfl)
  refine answers_of hb hr hu rnd ?_
  rw [step_do hr rnd his rfl (by rw [hu]; rfl) (by simp only [Command.argcOk, Request.argc, hargs]; rfl)]
  show (ircNAMES (s.roll rnd) cl req).1 = _
  simp only [ircNAMES, answerHere]
  rw [getSender_user (by exact hu)]
  simp only [getTarget, Request.argc, hargs, List.length_nil]
  rw [if_neg (by decide)]
  simp only [ne_eq, not_true_eq_false, if_false, namesHere, Request.argc, hargs, List.length_nil]
  rw [if_neg (by decide)]
  have hbr : Base (s.roll rnd) := Base.of_core (s := s) rfl hb
  have e1 : (s.roll rnd).chans.foldl (fun v ch => sendNAMES v ((s.roll rnd).cl cl) ch) (s.roll rnd) =
      told (s.roll rnd) i (s.cl cl) (s.chans.flatMap (namesOf s (s.cl cl))) :=
    told_foldl (t := s.roll rnd) (i := i) (c := s.cl cl) (g := namesOf s (s.cl cl)) (fun ch ms => sendNAMES_told hbr hc g3 ms ch) s.chans []
  rw [e1]
  have e2 : (told (s.roll rnd) i (s.cl cl) (s.chans.flatMap (namesOf s (s.cl cl)))).clients.filter (fun c => c.type = .user &&
      (channelsOf (told (s.roll rnd) i (s.cl cl) (s.chans.flatMap (namesOf s (s.cl cl)))) c.ref).isEmpty && !c.hasMode 'i') =
      s.clients.filter (fun u => decide (u.type = .user) && (s.cl2.all (fun m => decide (m.client ≠ u.ref)) && decide ('i' ∉ u.modes))) := by
    refine List.filter_congr (fun u _ => ?_)
    have h1 : (channelsOf (told (s.roll rnd) i (s.cl cl) (s.chans.flatMap (namesOf s (s.cl cl)))) u.ref).isEmpty = s.cl2.all (fun m => decide (m.client ≠ u.ref)) := by
      show ((s.cl2.filter (fun m => m.client == u.ref)).map (fun m => m.chan)).isEmpty = _
      rw [Bool.eq_iff_iff, List.isEmpty_iff, List.map_eq_nil_iff, List.filter_eq_nil_iff, List.all_eq_true]
      simp
    rw [h1, clMode_dec, Bool.and_assoc, decide_not]
  simp only [e2, homeless]
  cases hf : s.clients.filter (fun u => decide (u.type = .user) && (s.cl2.all (fun m => decide (m.client ≠ u.ref)) && decide ('i' ∉ u.modes))) with
  | nil =>
    simp only [List.isEmpty_nil, if_true]
    rw [roll_cl, told_write (s := s.roll rnd) hc g3, List.append_nil]
  | cons x xs =>
    simp only [List.isEmpty_cons, Bool.false_eq_true, if_false]
    rw [roll_cl, told_write (s := s.roll rnd) hc g3, told_write (s := s.roll rnd) hc g3]

/-! ### LIST -/

theorem listVisible_eq (f : Client) (ch : Chan) :
    listVisible s f ch = (decide ('s' ∉ ch.modes) || (decide (OnChannel s ch.ref f.ref) || decide ('o' ∈ f.modes))) := by
  simp only [listVisible, onChan_iff, chanMode_dec, clMode_dec, decide_not, Bool.or_assoc]

theorem listLoop_told (hc : c.introducer = c.ref ∨ c.introducer = s.this) (hi : c.conn = some i) :
    ∀ (ps : List Str) (n : Nat) (ms : List Msg),
      (s.conf.maxListSize ≤ 0 ∨ (n + (ps.flatMap (listed s c)).length : Int) ≤ s.conf.maxListSize) →
      listLoop c ps n (told s i c ms) = told s i c (ms ++ (ps.flatMap (listed s c)).map (listLine s c))
  | [], n, ms, _ => by simp [listLoop]
  | p :: ps, n, ms, hlim => by
    have e1 : (told s i c ms).chans.filter (fun ch => matchCaseInsensitive p ch.name && listVisible (told s i c ms) c ch) = listed s c p :=
      List.filter_congr (fun ch _ => by rw [show listVisible (told s i c ms) c ch = listVisible s c ch from rfl, listVisible_eq])
    simp only [listLoop, e1]
    have e2 : (if (told s i c ms).conf.maxListSize > 0 then (listed s c p).take ((told s i c ms).conf.maxListSize.toNat - n) else listed s c p) = listed s c p := by
      split
      · rename_i hpos
        have hpos' : s.conf.maxListSize > 0 := hpos
        refine List.take_of_length_le ?_
        rcases hlim with h | h
        · omega
        · rw [List.flatMap_cons, List.length_append] at h
          show _ ≤ s.conf.maxListSize.toNat - n
          omega
      · rfl
    rw [e2]
    have e3 : (listed s c p).foldl (fun v ch => write v c ⟨"RPL_LIST_MSG", [c.ID, ch.name, intStr (memberCount v ch.ref), ch.topic]⟩) (told s i c ms) =
        told s i c (ms ++ (listed s c p).map (listLine s c)) := by
      have := told_foldl (t := s) (i := i) (c := c) (f := fun v ch => write v c ⟨"RPL_LIST_MSG", [c.ID, ch.name, intStr (memberCount v ch.ref), ch.topic]⟩)
        (g := fun ch => [listLine s c ch]) (fun ch ms => by
          rw [told_write hc hi]
          have : memberCount (told s i c ms) ch.ref = (channelMembers s ch).length := by
            show (s.cl2.filter (fun m => m.chan == ch.ref)).length = _
            rw [channelMembers]
            congr 1
          rw [this]; rfl) (listed s c p) ms
      rw [this]
      congr 2
      induction listed s c p with
      | nil => rfl
      | cons a as ih => rw [List.flatMap_cons, ih]; rfl
    rw [e3, if_neg (Nat.lt_irrefl _), listLoop_told hc hi ps _ _ (by
      rcases hlim with h | h
      · exact .inl h
      · refine .inr ?_
        rw [List.flatMap_cons, List.length_append] at h
        omega), List.flatMap_cons, List.map_append, List.append_assoc]

/-- **C71** LIST with a list of masks: for each mask the channels that match it and that the client may know of, with the number of their members and
the topic - as long as they are not more than the configured limit. -/
theorem C71_list (h : Reachable s) (hr : Received s i l cl req) (his : Is req "LIST") (hu : (s.cl cl).type = .user) {masks : List Str}
    (hargs : (req.argv = [] ∧ masks = [['*']]) ∨ ∃ a, req.argv = [a] ∧ masks = items a)
    (hlim : s.conf.maxListSize ≤ 0 ∨ ((masks.flatMap (listed s (s.cl cl))).length : Int) ≤ s.conf.maxListSize) (rnd : Int) :
    Answers s i (step s (.line i rnd l))
      (⟨"RPL_LISTSTART_MSG", [(s.cl cl).ID]⟩ :: (masks.flatMap (listed s (s.cl cl))).map (listLine s (s.cl cl)) ++ [⟨"RPL_LISTEND_MSG", [(s.cl cl).ID]⟩]) := by
  have hb := h.base
  obtain ⟨g1, g2, g3, g4⟩ := hr.owner hb
  have hc : (s.cl cl).introducer = (s.cl cl).ref ∨ (s.cl cl).introducer = s.this := hb.cl.loc _ g1 (by rw [g3]; rfl)
  refine answers_of hb hr hu rnd ?_
  rw [step_do hr rnd his rfl (by rw [hu]; rfl) (by rcases hargs with ⟨h, -⟩ | ⟨a, h, -⟩ <;> simp only [Command.argcOk, Request.argc, h] <;> rfl)]
  show (ircLIST (s.roll rnd) cl req).1 = _
  simp only [ircLIST]
  rw [getSender_user (by exact hu)]
  simp only
  rw [if_neg (by rcases hargs with ⟨h, -⟩ | ⟨a, h, -⟩ <;> simp [Request.argc, h])]
  have e1 : (if req.argc > 0 then strtok (req.arg 0) [','] else [['*']]) = masks := by
    rcases hargs with ⟨h, rfl⟩ | ⟨a, h, rfl⟩
    · rw [if_neg (by simp [Request.argc, h])]
    · rw [if_pos (by simp [Request.argc, h]), strtok_items, Request.arg, h]; rfl
  rw [e1, roll_cl]
  have e2 : write (s.roll rnd) (s.cl cl) ⟨"RPL_LISTSTART_MSG", [(s.cl cl).ID]⟩ = told (s.roll rnd) i (s.cl cl) [⟨"RPL_LISTSTART_MSG", [(s.cl cl).ID]⟩] :=
    told_write (s := s.roll rnd) hc g3 [] _
  rw [e2, listLoop_told (s := s.roll rnd) hc g3 masks 0 _ (by
    rcases hlim with h | h
    · exact .inl h
    · refine .inr ?_
      rw [Int.natCast_zero, Int.zero_add]
      exact h), told_write (s := s.roll rnd) hc g3]
  rfl

/-- What `listLoop` writes when the number of channels is limited. -/
theorem listLoop_limited (hc : c.introducer = c.ref ∨ c.introducer = s.this) (hi : c.conn = some i) (hmax : 0 < s.conf.maxListSize) :
    ∀ (ps : List Str) (n : Nat) (ms : List Msg), ∃ xs, listLoop c ps n (told s i c ms) = told s i c (ms ++ xs) ∧
      xs.filter (fun m => decide (m.cmd = "RPL_LIST_MSG")) = ((ps.flatMap (listed s c)).take (s.conf.maxListSize.toNat - n)).map (listLine s c) ∧
      (∀ m ∈ xs, m.cmd = "RPL_LIST_MSG" ∨ m = ⟨"NOTICE", [c.ID, "LIST list limit reached!".toList]⟩) ∧
      ((⟨"NOTICE", [c.ID, "LIST list limit reached!".toList]⟩ : Msg) ∈ xs ↔ s.conf.maxListSize.toNat - n < (ps.flatMap (listed s c)).length)
  | [], n, ms => ⟨[], by simp [listLoop], by simp, by simp, by simp⟩
  | p :: ps, n, ms => by
    have e1 : (told s i c ms).chans.filter (fun ch => matchCaseInsensitive p ch.name && listVisible (told s i c ms) c ch) = listed s c p :=
      List.filter_congr (fun ch _ => by rw [show listVisible (told s i c ms) c ch = listVisible s c ch from rfl, listVisible_eq])
    simp only [listLoop, e1]
    have e2 : (if (told s i c ms).conf.maxListSize > 0 then (listed s c p).take ((told s i c ms).conf.maxListSize.toNat - n) else listed s c p) =
        (listed s c p).take (s.conf.maxListSize.toNat - n) := if_pos hmax
    rw [e2]
    generalize hX : listed s c p = X
    generalize hk : s.conf.maxListSize.toNat - n = k
    have e3 : ∀ X : List Chan, X.foldl (fun v ch => write v c ⟨"RPL_LIST_MSG", [c.ID, ch.name, intStr (memberCount v ch.ref), ch.topic]⟩) (told s i c ms) =
        told s i c (ms ++ X.map (listLine s c)) := by
      intro X
      have := told_foldl (t := s) (i := i) (c := c) (f := fun v ch => write v c ⟨"RPL_LIST_MSG", [c.ID, ch.name, intStr (memberCount v ch.ref), ch.topic]⟩)
        (g := fun ch => [listLine s c ch]) (fun ch ms => by
          rw [told_write hc hi]
          have : memberCount (told s i c ms) ch.ref = (channelMembers s ch).length := by
            show (s.cl2.filter (fun m => m.chan == ch.ref)).length = _
            rw [channelMembers]
            congr 1
          rw [this]; rfl) X ms
      rw [this]
      congr 2
      exact List.map_eq_flatMap.symm
    rw [e3]
    have hf : ∀ Y : List Chan, (Y.map (listLine s c)).filter (fun m => decide (m.cmd = "RPL_LIST_MSG")) = Y.map (listLine s c) := fun Y =>
      List.filter_eq_self.2 (fun m hm => by
        obtain ⟨ch, -, rfl⟩ := List.mem_map.1 hm
        exact decide_eq_true rfl)
    have hnot : ∀ Y : List Chan, ∀ m ∈ Y.map (listLine s c), m.cmd = "RPL_LIST_MSG" := fun Y m hm => by
      obtain ⟨ch, -, rfl⟩ := List.mem_map.1 hm
      rfl
    have hnot2 : ∀ Y : List Chan, (⟨"NOTICE", [c.ID, "LIST list limit reached!".toList]⟩ : Msg) ∉ Y.map (listLine s c) := fun Y hm => by
      exact absurd (show "NOTICE" = "RPL_LIST_MSG" from hnot Y _ hm) (by decide)
    by_cases hlt : (X.take k).length < X.length
    · rw [if_pos hlt, told_write hc hi]
      obtain ⟨ys, h1, h2, h3, h4⟩ := listLoop_limited hc hi hmax ps (n + (X.take k).length)
        (ms ++ (X.take k).map (listLine s c) ++ [⟨"NOTICE", [c.ID, "LIST list limit reached!".toList]⟩])
      have hkl : k < X.length := by rw [List.length_take] at hlt; omega
      have hz : s.conf.maxListSize.toNat - (n + (X.take k).length) = 0 := by rw [List.length_take]; omega
      rw [hz, List.take_zero, List.map_nil] at h2
      refine ⟨(X.take k).map (listLine s c) ++ [⟨"NOTICE", [c.ID, "LIST list limit reached!".toList]⟩] ++ ys, ?_, ?_, ?_, ?_⟩
      · rw [h1]; simp only [List.append_assoc]
      · rw [List.filter_append, List.filter_append, h2, hf, List.append_nil, List.flatMap_cons, hX, List.take_append_of_le_length (by omega)]
        exact List.append_nil _
      · intro m hm
        rcases List.mem_append.1 hm with hm | hm
        · rcases List.mem_append.1 hm with hm | hm
          · exact .inl (hnot _ _ hm)
          · exact .inr (by simpa using hm)
        · exact h3 m hm
      · refine ⟨fun _ => ?_, fun _ => ?_⟩
        · rw [List.flatMap_cons, hX, List.length_append]; omega
        · exact List.mem_append_left _ (List.mem_append_right _ (List.mem_singleton.2 rfl))
    · rw [if_neg hlt]
      have hkl : X.length ≤ k := by rw [List.length_take] at hlt; omega
      rw [List.take_of_length_le hkl]
      obtain ⟨ys, h1, h2, h3, h4⟩ := listLoop_limited hc hi hmax ps (n + X.length) (ms ++ X.map (listLine s c))
      have hz : s.conf.maxListSize.toNat - (n + X.length) = k - X.length := by omega
      rw [hz] at h2 h4
      refine ⟨X.map (listLine s c) ++ ys, ?_, ?_, ?_, ?_⟩
      · rw [h1, List.append_assoc]
      · rw [List.filter_append, h2, hf, List.flatMap_cons, hX, List.take_append, List.take_of_length_le hkl, List.map_append]
      · intro m hm
        rcases List.mem_append.1 hm with hm | hm
        · exact .inl (hnot _ _ hm)
        · exact h3 m hm
      · rw [List.mem_append, or_iff_right (hnot2 X), h4, List.flatMap_cons, hX, List.length_append]; omega

theorem list_step (h : Reachable s) (hr : Received s i l cl req) (his : Is req "LIST") (hu : (s.cl cl).type = .user) {masks : List Str}
    (hargs : (req.argv = [] ∧ masks = [['*']]) ∨ ∃ a, req.argv = [a] ∧ masks = items a) (rnd : Int) :
    step s (.line i rnd l) = write (listLoop (s.cl cl) masks 0 (told (s.roll rnd) i (s.cl cl) [⟨"RPL_LISTSTART_MSG", [(s.cl cl).ID]⟩])) (s.cl cl)
      ⟨"RPL_LISTEND_MSG", [(s.cl cl).ID]⟩ := by
  have hb := h.base
  obtain ⟨g1, g2, g3, g4⟩ := hr.owner hb
  have hc : (s.cl cl).introducer = (s.cl cl).ref ∨ (s.cl cl).introducer = s.this := hb.cl.loc _ g1 (by rw [g3]; rfl)
  rw [step_do hr rnd his rfl (by rw [hu]; rfl) (by rcases hargs with ⟨h, -⟩ | ⟨a, h, -⟩ <;> simp only [Command.argcOk, Request.argc, h] <;> rfl)]
  show (ircLIST (s.roll rnd) cl req).1 = _
  simp only [ircLIST]
  rw [getSender_user (by exact hu)]
  simp only
  rw [if_neg (by rcases hargs with ⟨h, -⟩ | ⟨a, h, -⟩ <;> simp [Request.argc, h])]
  have e1 : (if req.argc > 0 then strtok (req.arg 0) [','] else [['*']]) = masks := by
    rcases hargs with ⟨h, rfl⟩ | ⟨a, h, rfl⟩
    · rw [if_neg (by simp [Request.argc, h])]
    · rw [if_pos (by simp [Request.argc, h]), strtok_items, Request.arg, h]; rfl
  rw [e1, roll_cl]
  have e2 : write (s.roll rnd) (s.cl cl) ⟨"RPL_LISTSTART_MSG", [(s.cl cl).ID]⟩ = told (s.roll rnd) i (s.cl cl) [⟨"RPL_LISTSTART_MSG", [(s.cl cl).ID]⟩] :=
    told_write (s := s.roll rnd) hc g3 [] _
  rw [e2]

/-- **C71** LIST with a limit on the number of channels: the first channels up to the limit are shown, the client is told that there are more exactly if there are, and
nothing else happens. -/
theorem C71_list_limited (h : Reachable s) (hr : Received s i l cl req) (his : Is req "LIST") (hu : (s.cl cl).type = .user) {masks : List Str}
    (hargs : (req.argv = [] ∧ masks = [['*']]) ∨ ∃ a, req.argv = [a] ∧ masks = items a) (hmax : 0 < s.conf.maxListSize) (rnd : Int) :
    ∃ xs : List Msg, Answers s i (step s (.line i rnd l)) (⟨"RPL_LISTSTART_MSG", [(s.cl cl).ID]⟩ :: xs ++ [⟨"RPL_LISTEND_MSG", [(s.cl cl).ID]⟩]) ∧
      xs.filter (fun m => decide (m.cmd = "RPL_LIST_MSG")) = ((masks.flatMap (listed s (s.cl cl))).take s.conf.maxListSize.toNat).map (listLine s (s.cl cl)) ∧
      (∀ m ∈ xs, m.cmd = "RPL_LIST_MSG" ∨ m = ⟨"NOTICE", [(s.cl cl).ID, "LIST list limit reached!".toList]⟩) ∧
      ((⟨"NOTICE", [(s.cl cl).ID, "LIST list limit reached!".toList]⟩ : Msg) ∈ xs ↔ s.conf.maxListSize < (masks.flatMap (listed s (s.cl cl))).length) := by
  have hb := h.base
  obtain ⟨g1, g2, g3, g4⟩ := hr.owner hb
  have hc : (s.cl cl).introducer = (s.cl cl).ref ∨ (s.cl cl).introducer = s.this := hb.cl.loc _ g1 (by rw [g3]; rfl)
  obtain ⟨xs, h1, h2, h3, h4⟩ := listLoop_limited (s := s.roll rnd) (i := i) hc g3 hmax masks 0 [⟨"RPL_LISTSTART_MSG", [(s.cl cl).ID]⟩]
  refine ⟨xs, answers_of hb hr hu rnd ?_, h2, h3, h4.trans ?_⟩
  · rw [list_step h hr his hu hargs rnd, h1, told_write (s := s.roll rnd) hc g3]
    rfl
  · show s.conf.maxListSize.toNat - 0 < (masks.flatMap (listed s (s.cl cl))).length ↔ _
    omega

/-- Without argument, LIST shows all channels the client may know of. -/
theorem C71_list_all (s : Srv) (c : Client) :
    listed s c ['*'] = s.chans.filter (fun ch => decide ('s' ∉ ch.modes) || (decide (OnChannel s ch.ref c.ref) || decide ('o' ∈ c.modes))) := by
  refine List.filter_congr (fun ch hch => ?_)
  have : matchCaseInsensitive ['*'] ch.name = true := by
    unfold matchCaseInsensitive
    have e : lowerStr (strlcpy COMMAND_LEN ['*']) = ['*'] := by decide
    rw [e]
    exact C02_match_complete_partial _ _ (goodMask_of_simple _ (by decide) (fun pre post e => by
      have := congrArg List.length e
      simp only [List.length_cons, List.length_nil, List.length_append] at this
      omega)) (glob_stars _)
  rw [this]; rfl

theorem Sample.names_facts :
    recv Sample.s5 5 "NAMES #c,#d".toList = some (3, ⟨none, "NAMES".toList, ["#c,#d".toList]⟩) ∧
    recv Sample.s5 5 "NAMES".toList = some (3, ⟨none, "NAMES".toList, []⟩) ∧
    recv Sample.s5 5 "LIST".toList = some (3, ⟨none, "LIST".toList, []⟩) ∧
    (Sample.s5.cl 3).type = .user ∧
    (items "#c,#d".toList).flatMap (fun n => (match channelNamed Sample.s5 n with | some ch => namesOf Sample.s5 (Sample.s5.cl 3) ch | none => [])) ≠ [] ∧
    (listed Sample.s5 (Sample.s5.cl 3) ['*']).length = 2 ∧
    (listed Sample.s5 (Sample.s5.cl 3) ['*']).length ≤ Sample.s5.conf.maxListSize := by decide +kernel

example : ∃ req a, PoliteRun Sample.s5 ∧ Received Sample.s5 5 "NAMES #c,#d".toList 3 req ∧ Is req "NAMES" ∧ (Sample.s5.cl 3).type = .user ∧ req.argv = [a] ∧
    (items a).flatMap (fun n => (match channelNamed Sample.s5 n with | some ch => namesOf Sample.s5 (Sample.s5.cl 3) ch | none => [])) ≠ [] := by
  obtain ⟨f1, f2, f3, f4, f5, f6, f7⟩ := Sample.names_facts
  exact ⟨_, _, polite_s5, recv_sound f1, by simp only [Is]; decide, f4, rfl, f5⟩

example : ∃ req, PoliteRun Sample.s5 ∧ Received Sample.s5 5 "NAMES".toList 3 req ∧ Is req "NAMES" ∧ (Sample.s5.cl 3).type = .user ∧ req.argv = [] := by
  obtain ⟨f1, f2, f3, f4, f5, f6, f7⟩ := Sample.names_facts
  exact ⟨_, polite_s5, recv_sound f2, by simp only [Is]; decide, f4, rfl⟩

example : ∃ req masks, PoliteRun Sample.s5 ∧ Received Sample.s5 5 "LIST".toList 3 req ∧ Is req "LIST" ∧ (Sample.s5.cl 3).type = .user ∧
    ((req.argv = [] ∧ masks = [['*']]) ∨ ∃ a, req.argv = [a] ∧ masks = items a) ∧
    ((masks.flatMap (listed Sample.s5 (Sample.s5.cl 3))).length : Int) ≤ Sample.s5.conf.maxListSize ∧
    0 < Sample.s5.conf.maxListSize ∧ (masks.flatMap (listed Sample.s5 (Sample.s5.cl 3))).length = 2 := by
  obtain ⟨f1, f2, f3, f4, f5, f6, f7⟩ := Sample.names_facts
  refine ⟨_, [['*']], polite_s5, recv_sound f3, by simp only [Is]; decide, f4, .inl ⟨rfl, rfl⟩, ?_, ?_⟩
  · simpa using f7
  · refine ⟨?_, by simpa using f6⟩
    omega

end Ngircd
