import Verif.Props.Answers
import Verif.Props.Ping
import Verif.Lemmas.ModeLocal
import Verif.Lemmas.ModeLimit

/-!
# C90: a MODE command about a channel touches that channel only
-/

set_option linter.unusedSimpArgs false

namespace Ngircd
open Spec

variable {s t : Srv} {i : Nat} {l : Str} {cl : Nat} {req : Request} {c : Chan}

theorem chan_not_nick {n : Nat} {name : Str} (h : isValidChanName name = true) : isValidNick n name = false := by
  cases name with
  | nil => rfl
  | cons a as => exact chanName_not_nick h (by simp)

/-- **C90** Whatever the parameters and whoever sends it (a member of any rank, an outsider, a
linked server): a MODE command whose first parameter names an existing channel changes at most the
modes, the key, the limit, the lists and the members' ranks of that channel. -/
theorem C90_mode (h : PoliteRun s) (hr : Received s i l cl req) (his : Is req "MODE") (hc : channelNamed s (req.arg 0) = some c) (rnd : Int) :
    ChannelOnly c.ref s (step s (.line i rnd l)) := by
  have hb := h.reachable.base
  have hs : channelSearch s (req.arg 0) = some c := by rw [channelNamed_eq h]; exact hc
  obtain ⟨hm, hname⟩ := (C13_channel_lookup h _ c).1 hs
  obtain ⟨hv, hne⟩ := (polite_chan h).good c hm
  have hv2 : isValidChanName (req.arg 0) = true := by
    rw [← isValidChanName_lower] at hv ⊢
    rw [← (sameCase_iff _ _).1 hname]; exact hv
  have h0 : ChannelOnly c.ref s (s.roll rnd) := ⟨⟨[], s.fault, (s.roll rnd).rnd, rfl⟩,
    ⟨id, by simp [Srv.roll], fun _ => ⟨fun _ => rfl, rfl⟩⟩, ⟨id, by simp [Srv.roll], fun _ => ⟨fun _ => rfl, rfl⟩⟩⟩
  rcases step_run hr hb rnd his rfl with ⟨he, -⟩ | ha
  · rw [he]
    exact h0.trans (ircMODE_only ⟨c, hm, rfl⟩ (chan_not_nick hv2) hs)
  · obtain ⟨o, r, e, -⟩ := ha
    rw [e]
    exact ⟨⟨o, s.fault, r, rfl⟩, ⟨id, (List.map_id _).symm, fun _ => ⟨fun _ => rfl, rfl⟩⟩, ⟨id, (List.map_id _).symm, fun _ => ⟨fun _ => rfl, rfl⟩⟩⟩

/-- **C90** A MODE command that names neither a client nor a channel changes nothing. -/
theorem C90_nobody (h : PoliteRun s) (hr : Received s i l cl req) (his : Is req "MODE") (hc : channelNamed s (req.arg 0) = none)
    (hn : clientNamed s (req.arg 0) = none) (rnd : Int) : Unchanged s (step s (.line i rnd l)) := by
  have hb := h.reachable.base
  have hs : channelSearch (s.roll rnd) (req.arg 0) = none := by
    show channelSearch s (req.arg 0) = none
    rw [channelNamed_eq h]; exact hc
  have hs2 : clientSearch (s.roll rnd) (req.arg 0) = none := by
    rw [roll_search, clientNamed_eq h]; exact hn
  rcases step_run hr hb rnd his rfl with ⟨he, -⟩ | ⟨o, r, e, -⟩
  · rw [he]
    have : OnlyOutput (s.roll rnd) (ircMODE (s.roll rnd) cl req).1 := by
      unfold ircMODE
      cases hg : getSender (s.roll rnd) cl req with
      | err t => exact oo_getSender hg
      | ok o =>
        simp only [hs, hs2, ite_self]
        exact oo_writeErr _ _ _
    obtain ⟨o, f, e⟩ := this
    exact ⟨o, f, (s.roll rnd).rnd, e⟩
  · exact ⟨o, s.fault, r, e⟩

/-- **C90** A MODE command of a user adds at most five entries to the lists (bans, exceptions, invitations) of the channel,
however long it is. -/
theorem C90_limit (h : PoliteRun s) (hr : Received s i l cl req) (his : Is req "MODE") (hty : (s.cl cl).type = .user)
    (hc : channelNamed s (req.arg 0) = some c) (rnd : Int) : Grow 5 s (step s (.line i rnd l)) := by
  have hb := h.reachable.base
  have hs : channelSearch s (req.arg 0) = some c := by rw [channelNamed_eq h]; exact hc
  obtain ⟨hm, hname⟩ := (C13_channel_lookup h _ c).1 hs
  obtain ⟨hv, hne⟩ := (polite_chan h).good c hm
  have hv2 : isValidChanName (req.arg 0) = true := by
    rw [← isValidChanName_lower] at hv ⊢
    rw [← (sameCase_iff _ _).1 hname]; exact hv
  have hs' : channelSearch (s.roll rnd) (req.arg 0) = some c := hs
  have h0 : Grow 0 s (s.roll rnd) := ⟨id, by simp [Srv.roll], fun _ => ⟨rfl, Nat.le_refl _⟩⟩
  have hty' : ((s.roll rnd).cl cl).type = .user := hty
  rcases step_run hr hb rnd his rfl with ⟨he, -⟩ | ⟨o, r, e, -⟩
  · rw [he]
    refine h0.first0 ?_
    show Grow 5 (s.roll rnd) (ircMODE (s.roll rnd) cl req).1
    have ha := hr.asker hb rnd
    have hg : getSender (s.roll rnd) cl req = .ok cl := by
      unfold getSender
      rw [hty']; rfl
    have hmc : modeCl (s.roll rnd) cl req = cl := by
      simp only [modeCl]
      split
      · rename_i d hd
        split
        · rename_i he
          exfalso
          cases hp : req.prefix? with
          | none => rw [hp] at hd; cases hd
          | some p =>
            rw [hp] at hd
            have hd : clientSearch (s.roll rnd) p = some d := hd
            have h1 := (nextHop_iff ha.base ha.conn (clientSearch_mem hd)).1 (ha.pre p d hp hd)
            exact h1.ne_this ha.base (clientSearch_mem hd) he
        · rfl
      · rfl
    simp only [ircMODE, hg, hmc, chan_not_nick hv2, Bool.false_eq_true, if_false, hv2, if_true, hs']
    exact channelMode_count ⟨c, hm, rfl⟩ hty'
  · rw [e]
    exact ⟨id, (List.map_id _).symm, fun _ => ⟨rfl, Nat.le_add_right _ _⟩⟩

/-! ## Examples -/

theorem Sample.modelocal_facts :
    recv Sample.net 5 "MODE #C +mo-v bob alice".toList = some (3, ⟨none, "MODE".toList, ["#C".toList, "+mo-v".toList, "bob".toList, "alice".toList]⟩) ∧
    (channelNamed Sample.net "#C".toList).isSome = true ∧ ((channelNamed Sample.net "#C".toList).any fun c => c.ref = 4) = true ∧
    recv Sample.net 5 "MODE #nowhere +m".toList = some (3, ⟨none, "MODE".toList, ["#nowhere".toList, "+m".toList]⟩) ∧
    (channelNamed Sample.net "#nowhere".toList).isNone = true ∧ (clientNamed Sample.net "#nowhere".toList).isNone = true ∧
    ((step Sample.net (.line 5 0 "MODE #C +mo-v bob alice".toList)).chans.any fun c => c.ref = 4 && c.modes.contains 'm') = true ∧
    (Sample.net.cl 3).type = .user ∧
    recv Sample.net 5 "MODE #c +bebIbbb a b c d e f g".toList = some (3, ⟨none, "MODE".toList, ["#c".toList, "+bebIbbb".toList, "a".toList, "b".toList,
      "c".toList, "d".toList, "e".toList, "f".toList, "g".toList]⟩) ∧ (channelNamed Sample.net "#c".toList).isSome = true ∧
    listSize ((step Sample.net (.line 5 0 "MODE #c +bebIbbb a b c d e f g".toList)).chan 4) = listSize (Sample.net.chan 4) + 5 ∧
    ((step Sample.net (.line 5 0 "MODE #C +mo-v bob alice".toList)).cl2.any fun m => m.client = 5 && m.chan = 4 && m.modes.contains 'o') = true := by
  decide +kernel

/-- alice changes the modes of `#c` and the ranks of its members (`Sample.modelocal_facts` shows
that `m` is set and bob becomes operator), and asks for a channel that does not exist. -/
example : (∃ req c, PoliteRun Sample.net ∧ Received Sample.net 5 "MODE #C +mo-v bob alice".toList 3 req ∧ Is req "MODE" ∧
      channelNamed Sample.net (req.arg 0) = some c) ∧
    (∃ req, PoliteRun Sample.net ∧ Received Sample.net 5 "MODE #nowhere +m".toList 3 req ∧ Is req "MODE" ∧
      channelNamed Sample.net (req.arg 0) = none ∧ clientNamed Sample.net (req.arg 0) = none) := by
  obtain ⟨f1, f2, -, f4, f5, f6, -⟩ := Sample.modelocal_facts
  exact ⟨⟨_, _, Sample.polite_net, recv_sound f1, by simp only [Is]; decide, (Option.some_get f2).symm⟩,
    ⟨_, Sample.polite_net, recv_sound f4, by simp only [Is]; decide, Option.isNone_iff_eq_none.1 f5, Option.isNone_iff_eq_none.1 f6⟩⟩

/-- alice sends seven masks; five are added (`Sample.modelocal_facts`). -/
example : ∃ req c, PoliteRun Sample.net ∧ Received Sample.net 5 "MODE #c +bebIbbb a b c d e f g".toList 3 req ∧ Is req "MODE" ∧
    (Sample.net.cl 3).type = .user ∧ channelNamed Sample.net (req.arg 0) = some c := by
  obtain ⟨-, -, -, -, -, -, -, f1, f2, f3, -⟩ := Sample.modelocal_facts
  exact ⟨_, _, Sample.polite_net, recv_sound f2, by simp only [Is]; decide, f1, (Option.some_get f3).symm⟩

end Ngircd
