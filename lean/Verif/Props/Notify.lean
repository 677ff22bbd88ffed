import Verif.Lemmas.Notify
import Verif.Props.Targets

/-!
# C22: who is told about users that leave or change their nick
-/

set_option linter.unusedSimpArgs false

namespace Ngircd
open Spec

variable {s t u : Srv} {i j cl r : Nat} {c : Client} {l n p : Str} {req : Request}

/-- **C22** When the connection of a user is lost, every local client that shares a channel with it is told
once, every other server is told once, nobody else is, and the user is gone. -/
theorem C22_lost (h : Reachable s) (ho : Owner s i r) (hu : (s.cl r).type = .user) (hin : (s.cl r).introducer ≠ r)
    (reason : Option Str) (inform : Bool) :
    (∀ c ∈ (step s (.lost i reason inform)).clients, c.ref ≠ r) ∧
    (∀ ch, ¬ OnChannel (step s (.lost i reason inform)) ch r) ∧
    ∃ o, (step s (.lost i reason inform)).out = o ++ s.out ∧ Notified s i (s.cl r)
      ⟨"QUIT", [if s.conf.morePrivacy then [] else reason.getD (s.cl r).id]⟩ ⟨"QUIT", [reason.getD []]⟩ o := by
  have hb := h.base
  obtain ⟨k, hk, rfl⟩ := ho.conn hb
  obtain ⟨g1, g2, g3, g4⟩ := conn?_mem hb.cl hk
  have hs : step s (.lost i reason inform) = connClose s i reason inform := by
    simp only [step]; rw [if_pos (by rw [hk]; rfl)]
  rw [hs]
  have hG := connClose_gone hb hk reason inform
  have hun : Under s k.client (s.cl k.client) := .self g1 g2
  refine ⟨fun c hc he => ?_, ?_, close_user_out hb hk hu hin reason inform⟩
  · have := (hG.clients c).1 hc
    have e : c = s.cl k.client := hb.cl.ord.eq_of_ref this.1 g1 (by rw [he, g2])
    exact this.2 (by rw [e]; exact hun)
  · rintro ch ⟨m, hm, -, h2⟩
    exact hG.gone m hm _ g1 hun (.inl hu) (by rw [g2]; exact h2.symm)

/-- bob, connected at 6, is lost; alice (5) and the peer (7) are told. -/
example : Reachable Sample.s5 ∧ Owner Sample.s5 6 4 ∧ (Sample.s5.cl 4).type = .user ∧ (Sample.s5.cl 4).introducer ≠ 4 ∧
    Related Sample.s5 4 5 ∧ isLink Sample.s5 7 = true :=
  ⟨Sample.reach_s5, by simp only [Owner]; decide +kernel, by decide +kernel, by decide +kernel,
    by simp only [Related, OnChannel]; exact ⟨Sample.s5.cl 3, by decide +kernel, by decide +kernel, by decide +kernel, by decide +kernel,
      5, by decide +kernel, by decide +kernel⟩, by decide +kernel⟩

theorem quitText_eq {a : Str} (ha : a.length < 511) : quitText a = quoted a := by
  have e : strlcpy COMMAND_LEN a = a := List.take_of_length_le (by simp only [COMMAND_LEN]; omega)
  simp only [quitText, quoted, e]
  split
  · rfl
  · rw [strlcat_fits (a := ['"']) (b := a) (by simp only [COMMAND_LEN, List.length_cons, List.length_nil]; omega),
      strlcat_fits (by simp only [COMMAND_LEN, List.length_append, List.length_cons, List.length_nil]; omega)]
    rfl

/-- **C22** When a user quits, its text, in quotes, is what the others are told; without a text the clients
are shown its nick. -/
theorem C22_quit (h : Reachable s) (hr : Received s i l cl req) (hn : Is req "QUIT") (hu : (s.cl cl).type = .user)
    (hin : (s.cl cl).introducer ≠ cl) {fwd : Option Str}
    (ha : (req.argv = [] ∧ fwd = none) ∨ ∃ a, req.argv = [a] ∧ a.length < 511 ∧ fwd = some (quoted a)) (rnd : Int) :
    (∀ c ∈ (step s (.line i rnd l)).clients, c.ref ≠ cl) ∧
    (∀ ch, ¬ OnChannel (step s (.line i rnd l)) ch cl) ∧
    ∃ o, (step s (.line i rnd l)).out = o ++ s.out ∧ Notified s i (s.cl cl)
      ⟨"QUIT", [if s.conf.morePrivacy then [] else fwd.getD (s.cl cl).id]⟩ ⟨"QUIT", [fwd.getD []]⟩ o := by
  have hb := h.base
  obtain ⟨h1, h2, h3, h4⟩ := hr.owner hb
  have hst : step s (.line i rnd l) = (ircQUIT (s.roll rnd) cl req).1 :=
    step_do hr rnd hn rfl (by rw [hu]; rfl) (by
      rcases ha with ⟨e, -⟩ | ⟨a, e, -⟩ <;> simp only [Command.argcOk, Request.argc, e] <;> rfl)
  have hq : (if req.argc = 1 then some (quitText (req.arg 0)) else none) = fwd := by
    rcases ha with ⟨e, e2⟩ | ⟨a, e, hl, e2⟩
    · simp [Request.argc, e, e2]
    · simp [Request.argc, Request.arg, e, e2, quitText_eq hl]
  have hrun : step s (.line i rnd l) = connClose (s.roll rnd) i fwd true := by
    rw [hst]
    simp only [ircQUIT, roll_cl, hu, closeClient, h3, hq]
    rfl
  obtain ⟨k, hk, hkc⟩ := conn?_of_mem hb.cl h1 h3
  rw [h2] at hkc
  subst hkc
  rw [hrun]
  have hb' : Base (s.roll rnd) := Base.of_core (s := s) rfl hb
  have hk' : (s.roll rnd).conn? i = some k := hk
  have hG := connClose_gone hb' hk' fwd true
  have hun : Under (s.roll rnd) k.client ((s.roll rnd).cl k.client) := .self h1 h2
  refine ⟨fun c hc he => ?_, ?_, ?_⟩
  · have := (hG.clients c).1 hc
    have e : c = s.cl k.client := hb.cl.ord.eq_of_ref this.1 h1 (by rw [he, h2])
    exact this.2 (by rw [e]; exact hun)
  · rintro ch ⟨m, hm, -, g2⟩
    exact hG.gone m hm _ h1 hun (.inl hu) (h2.trans g2.symm)
  · obtain ⟨o, e, g⟩ := close_user_out hb' hk' hu hin fwd true
    exact ⟨o, e, ⟨g.related, g.links, g.others⟩⟩

/-- alice quits with a text. -/
example : ∃ req, Reachable Sample.s5 ∧ Received Sample.s5 5 "QUIT :gone".toList 3 req ∧ Is req "QUIT" ∧
    (Sample.s5.cl 3).type = .user ∧ (Sample.s5.cl 3).introducer ≠ 3 ∧ req.argv = ["gone".toList] ∧
    ((step Sample.s5 (.line 5 0 "QUIT :gone".toList)).out.filter (fun y => y.conn == 6)).take 1 =
      [⟨6, some "alice!~alice@1.2.3.4".toList, ⟨"QUIT", ["\"gone\"".toList]⟩⟩] :=
  ⟨⟨none, "QUIT".toList, ["gone".toList]⟩, Sample.reach_s5, recv_sound (by decide +kernel),
    by simp only [Is]; decide, by decide +kernel, by decide +kernel, by decide, by decide +kernel⟩

theorem rename_reply {rnd : Int} (hb : Base s) (hbe : Behind s i c) (hm : c ∈ s.clients) {m : Msg} :
    Answered i s (writeErr (s.roll rnd) c m) :=
  (rp_writeErr (s := s.roll rnd) (t := s.roll rnd) ((nextHop_conn (s := s.roll rnd) (Base.of_core (s := s) rfl hb) hm).2 (behind_roll.2 hbe)) (rp_refl _ _)).ans

/-- The check of the new name. -/
def FreeNick (s : Srv) (c : Client) (n : Str) : Prop :=
  n ≠ c.id ∧ (SameCase c.id n ∨ (ValidNick s.conf.maxNickLength n ∧ ¬ Reserved s n ∧ ∀ d ∈ s.clients, ¬ SameCase d.id n))

theorem good_copy {n : Str} (h : GoodName n) : strlcpy CLIENT_ID_LEN n = n :=
  List.take_of_length_le (by have := h.2.2; simp only [CLIENT_ID_LEN] at *; omega)

theorem good_part {n : Str} (h : GoodName n) : nickPart n = n := by
  rw [← nickPart_eq, good_copy h]; exact cutAt_of_not_mem h.2.1

theorem nickTarget_ok (h : PoliteRun s) (hm : c ∈ s.clients) (hu : c.type = .user) (hne : c.id ≠ []) (hbe : Behind s i c) (rnd : Int)
    (n : Str) (cl : Nat) :
    (FreeNick s c n → nickTarget (s.roll rnd) cl c.ref n = nickChange (s.roll rnd) cl c.ref n ∧ strlcpy CLIENT_ID_LEN n = n) ∧
    (¬ FreeNick s c n → Answered i s (nickTarget (s.roll rnd) cl c.ref n).1) := by
  have hb := h.reachable.base
  have hni := polite_name h
  have hcl : (s.roll rnd).cl c.ref = c := cl_of_mem hb.cl.ord hm
  have hID : c.ID = c.id := by
    simp only [Client.ID]; rw [if_neg]; simpa using hne
  have hgood : FreeNick s c n → strlcpy CLIENT_ID_LEN n = n := by
    rintro ⟨-, h1 | ⟨h1, -⟩⟩
    · have := (hni.good c hm).resolve_left hne
      refine List.take_of_length_le ?_
      have e : c.id.length = n.length := by
        have := (sameCase_iff _ _).1 h1
        have := congrArg List.length this
        simpa [lowerStr] using this
      have := this.2.2
      simp only [CLIENT_ID_LEN] at *; omega
    · exact good_copy (isValidNick_good hni.nick.1 ((isValidNick_iff _ _).2 h1))
  have hchk : ∀ m b, clientCheckNick (s.roll rnd) c n = (m, b) →
      (b = true ∧ m = s.roll rnd ∧ (ValidNick s.conf.maxNickLength n ∧ ¬ Reserved s n ∧ ∀ d ∈ s.clients, ¬ SameCase d.id n)) ∨
      (b = false ∧ Answered i s m ∧ ¬ (ValidNick s.conf.maxNickLength n ∧ ¬ Reserved s n ∧ ∀ d ∈ s.clients, ¬ SameCase d.id n)) := by
    intro m b hr
    simp only [clientCheckNick] at hr
    rw [roll_conf, roll_search] at hr
    split at hr
    · rename_i hv
      have hv' : ¬ ValidNick s.conf.maxNickLength n := by
        rw [← isValidNick_iff]; simpa using hv
      split at hr
      · injection hr with e1 e2; subst e1 e2
        exact .inr ⟨rfl, rename_reply hb hbe hm, fun g => hv' g.1⟩
      · injection hr with e1 e2; subst e1 e2
        exact .inr ⟨rfl, rename_reply hb hbe hm, fun g => hv' g.1⟩
    · rename_i hv
      have hv' : ValidNick s.conf.maxNickLength n := by
        rw [← isValidNick_iff]; simpa using hv
      have hg := isValidNick_good hni.nick.1 ((isValidNick_iff _ _).2 hv')
      have hrs : nickIsBlocked (s.roll rnd) n = true ↔ Reserved s n := by
        simp only [nickIsBlocked, List.any_eq_true, Reserved, roll_conf]
      split at hr
      · rename_i hk
        simp only [Bool.and_eq_true] at hk
        injection hr with e1 e2; subst e1 e2
        exact .inr ⟨rfl, rename_reply hb hbe hm, fun g => g.2.1 (hrs.1 hk.2)⟩
      · rename_i hk
        have hk' : ¬ Reserved s n := by
          intro g
          refine hk ?_
          rw [hu, hrs.2 g]; rfl
        split at hr
        · rename_i hs
          obtain ⟨d, hd⟩ := Option.isSome_iff_exists.1 hs
          injection hr with e1 e2; subst e1 e2
          refine .inr ⟨rfl, rename_reply hb hbe hm, fun g => ?_⟩
          have := (C13_lookup h n d).1 hd
          rw [good_part hg] at this
          exact g.2.2 d this.1 this.2.2
        · rename_i hs
          injection hr with e1 e2
          refine .inl ⟨e2.symm, e1.symm, hv', hk', fun d hd hsc => ?_⟩
          refine hs ?_
          rw [(C13_lookup h n d).2 ⟨hd, ?_, by rw [good_part hg]; exact hsc⟩]
          · rfl
          · intro he
            rw [he] at hsc
            have := congrArg List.length ((sameCase_iff _ _).1 hsc)
            exact hg.1 (List.eq_nil_of_length_eq_zero (by simpa [lowerStr] using this.symm))
  by_cases hid : n = c.id
  · refine ⟨fun g => absurd hid g.1, fun _ => ?_⟩
    simp only [nickTarget, hcl, hID]
    rw [if_pos hid.symm]
    exact ⟨[], rnd, rfl, by simp⟩
  by_cases hsc : SameCase c.id n
  · refine ⟨fun g => ⟨?_, hgood g⟩, fun g => absurd ⟨hid, .inl hsc⟩ g⟩
    simp only [nickTarget, hcl, hID]
    rw [if_neg (fun e => hid e.symm), if_pos ((caseEq_same _ _).2 hsc)]
    simp only [hu]; rfl
  · have hnf : FreeNick s c n ↔ (ValidNick s.conf.maxNickLength n ∧ ¬ Reserved s n ∧ ∀ d ∈ s.clients, ¬ SameCase d.id n) :=
      ⟨fun g => g.2.resolve_left hsc, fun g => ⟨hid, .inr g⟩⟩
    have hrun : nickTarget (s.roll rnd) cl c.ref n = match clientCheckNick (s.roll rnd) c n with
        | (u, false) => (u, true)
        | (u, true) => nickChange u cl c.ref n := by
      simp only [nickTarget, hcl, hID]
      rw [if_neg (fun e => hid e.symm), if_neg (fun e => hsc ((caseEq_same _ _).1 e))]
      simp only [hu]; rfl
    cases hr : clientCheckNick (s.roll rnd) c n with
    | mk m b =>
      rw [hrun, hr]
      rcases hchk m b hr with ⟨rfl, rfl, g⟩ | ⟨rfl, ha, g⟩
      · exact ⟨fun g' => ⟨rfl, hgood g'⟩, fun g' => absurd (hnf.2 g) g'⟩
      · exact ⟨fun g' => absurd (hnf.1 g') g, fun _ => ha⟩

theorem setID_cl {u : Srv} (hm : c ∈ u.clients) (hcp : strlcpy CLIENT_ID_LEN n = n) : ((clientSetID u c.ref n).cl c.ref).id = n := by
  simp only [clientSetID]
  rw [cl_updCl u _ _ _ (fun c => setIdC_ref _ c _) (fun _ => List.find?_isSome.2 ⟨c, hm, by simp⟩), if_pos rfl, setIdC_id, hcp]

theorem changeNick_local {rnd : Int} (hb : Base s) (hm : c ∈ s.clients) (hns : c.type ≠ .server) (hcn : c.conn = some i)
    (hcp : strlcpy CLIENT_ID_LEN n = n) :
    ((changeNick (s.roll rnd) c.ref c.ref n true).cl c.ref).id = n ∧
    ∃ o, (changeNick (s.roll rnd) c.ref c.ref n true).out = o ++ s.out ∧ Notified s i c ⟨"NICK", [n]⟩ ⟨"NICK", [n]⟩ o ∧
      onConn o i = [⟨i, some (maskCloaked s c), ⟨"NICK", [n]⟩⟩] := by
  have hcl : (s.roll rnd).cl c.ref = c := cl_of_mem hb.cl.ord hm
  obtain ⟨o, h1, h2, h3⟩ := nick_notified (i := i) hb hm hns none ⟨"NICK", [n]⟩ (fun j d hd hd1 hd2 => by
      refine ⟨fun _ he => ?_, fun _ => by simp⟩
      subst he
      exact hns (conn_owner hb hm hd hcn hd2 ▸ hd1)) (by
      rintro ⟨x, hx, x1, x2, -⟩
      exact x1 (congrArg Client.ref (conn_owner hb hx hm x2 hcn)))
  have hlk : isLink s i = false := by
    rw [isLink_iff hb hm hcn]; simpa using hns
  have hw : writePrefix (s.roll rnd) c c ⟨"NICK", [n]⟩ =
      { s.roll rnd with out := ⟨i, some (maskCloaked s c), ⟨"NICK", [n]⟩⟩ :: s.out } := by
    have hhop : nextHop (s.roll rnd) c = c := by
      have : nextHop (s.roll rnd) c = nextHop s c := nextHop_core (s := s) (t := s.roll rnd) rfl c
      rw [this, hb.nextHop_conn hm (by rw [hcn]; rfl)]
    have hmk : maskCloaked (s.roll rnd) c = maskCloaked s c := rfl
    have hl : lineTo (s.roll rnd) c c ⟨"NICK", [n]⟩ = some ⟨i, some (maskCloaked s c), ⟨"NICK", [n]⟩⟩ := by
      simp only [lineTo, hhop, hcn, getPrefix, hmk, Option.map_some]
      rw [if_neg hns]
    simp only [writePrefix, hl, Option.toList, Option.isNone, Bool.or_false]; rfl
  have hrun : changeNick (s.roll rnd) c.ref c.ref n true = clientSetID (registerWhowas
      { s.roll rnd with out := o ++ (⟨i, some (maskCloaked s c), ⟨"NICK", [n]⟩⟩ :: s.out) } c) c.ref n := by
    simp only [changeNick, hcl, if_true, hw]
    rw [h1 { s.roll rnd with out := ⟨i, some (maskCloaked s c), ⟨"NICK", [n]⟩⟩ :: s.out } ⟨rfl, rfl, rfl, rfl, rfl⟩]
  rw [hrun]
  obtain ⟨a, b, hww⟩ := registerWhowas_eq { s.roll rnd with out := o ++ (⟨i, some (maskCloaked s c), ⟨"NICK", [n]⟩⟩ :: s.out) } c
  rw [hww]
  refine ⟨?_, o ++ [⟨i, some (maskCloaked s c), ⟨"NICK", [n]⟩⟩], ?_, Notified.own h2 (by simp), ?_⟩
  · exact setID_cl hm hcp
  · show o ++ _ = _
    rw [List.append_assoc]; rfl
  · rw [onConn_append, onConn_nil h3]
    simp [onConn]

/-- **C22** A user that may have the nick it asks for gets it, and is told so; every local client that shares a
channel with it is told once, every other server is told once, and nobody else is.  If it may not have
it, only the user itself is told. -/
theorem C22_nick (h : PoliteRun s) (hr : Received s i l cl req) (hn : Is req "NICK") (hu : (s.cl cl).type = .user)
    (ha : req.argv = [n]) (rnd : Int) :
    (MayRename s (s.cl cl) n → ((step s (.line i rnd l)).cl cl).id = n ∧
      ∃ o, (step s (.line i rnd l)).out = o ++ s.out ∧ Notified s i (s.cl cl) ⟨"NICK", [n]⟩ ⟨"NICK", [n]⟩ o ∧
        onConn o i = [⟨i, some (maskCloaked s (s.cl cl)), ⟨"NICK", [n]⟩⟩]) ∧
    (¬ MayRename s (s.cl cl) n → Answered i s (step s (.line i rnd l))) := by
  have hb := h.reachable.base
  obtain ⟨h1, h2, h3, h4⟩ := hr.owner hb
  have hid : (s.cl cl).id ≠ [] := (polite_nick h).named _ h1 (by rw [h3]; rfl) (.inr (.inl hu))
  have hst : step s (.line i rnd l) = (ircNICK (s.roll rnd) cl req).1 :=
    step_do hr rnd hn rfl (by rw [hu]; rfl) (by simp only [Command.argcOk, Request.argc, ha]; rfl)
  have hrun : step s (.line i rnd l) = if (s.cl cl).hasMode 'r' = true then writeErr (s.roll rnd) (s.cl cl) ⟨"ERR_RESTRICTED_MSG", [(s.cl cl).ID]⟩
      else (nickTarget (s.roll rnd) cl cl n).1 := by
    rw [hst]
    simp only [ircNICK, roll_cl, hu, Request.argc, Request.arg, ha]
    rw [if_pos (by rfl), if_neg (by simp)]
    split <;> rfl
  rw [hrun]
  have hbe : Behind s i (s.cl cl) := .direct h3
  split
  · rename_i hm
    rw [hasMode_iff] at hm
    exact ⟨fun g => absurd hm g.free, fun _ => rename_reply hb hbe h1⟩
  · rename_i hm
    rw [hasMode_iff] at hm
    obtain ⟨k1, k2⟩ := nickTarget_ok h h1 hu hid hbe rnd n cl
    rw [h2] at k1 k2
    by_cases hf : FreeNick s (s.cl cl) n
    · obtain ⟨k3, k4⟩ := k1 hf
      rw [k3]
      have hno : (if ((s.cl cl).type = .user && !(s.cl cl).hasMode 'o') = true then noNickChange (s.roll rnd) cl else none) = none ↔
          ('o' ∈ (s.cl cl).modes ∨ ∀ ch ∈ s.chans, 'N' ∈ ch.modes → ¬ OnChannel s ch.ref (s.cl cl).ref) := by
        by_cases ho : 'o' ∈ (s.cl cl).modes
        · rw [if_neg (by rw [(hasMode_iff).2 ho]; simp)]
          exact ⟨fun _ => .inl ho, fun _ => rfl⟩
        · have : (s.cl cl).hasMode 'o' = false := by
            cases e : (s.cl cl).hasMode 'o' with
            | false => rfl
            | true => exact absurd (hasMode_iff.1 e) ho
          rw [if_pos (by rw [hu, this]; rfl)]
          simp only [noNickChange, List.find?_eq_none, Bool.and_eq_true, not_and, ho, false_or, h2]
          constructor
          · intro g ch hch hN hon
            exact g ch hch (hasChar_iff.2 hN) (isMemberOf_iff.2 hon)
          · intro g ch hch hN hon
            exact g ch hch (hasChar_iff.1 hN) (isMemberOf_iff.1 hon)
      have hnc : (nickChange (s.roll rnd) cl cl n).1 = match (if ((s.cl cl).type = .user && !(s.cl cl).hasMode 'o') = true then
            noNickChange (s.roll rnd) cl else none) with
          | some ch => writeErr (s.roll rnd) (s.cl cl) ⟨"ERR_NONICKCHANGE_MSG", [(s.cl cl).ID, ch.name]⟩
          | none => changeNick (s.roll rnd) cl cl n ((s.cl cl).type = .user) := by
        simp only [nickChange]
        rw [roll_cl]
        split <;> rename_i e <;> rw [e]
      rw [hnc]
      generalize hq : (if ((s.cl cl).type = .user && !(s.cl cl).hasMode 'o') = true then noNickChange (s.roll rnd) cl else none) = q at *
      cases q with
      | some ch =>
        refine ⟨fun g => absurd (hno.2 g.channels) (by simp), fun _ => rename_reply hb hbe h1⟩
      | none =>
        have hch := hno.1 rfl
        refine ⟨fun _ => ?_, fun g => absurd ⟨hf.1, hm, hf.2, hch⟩ g⟩
        have := changeNick_local (rnd := rnd) hb h1 (by rw [hu]; decide) h3 k4
        rw [h2] at this
        simpa only [hu, decide_true] using this
    · exact ⟨fun g => absurd ⟨g.other, g.name⟩ hf, fun _ => k2 hf⟩

/-- alice becomes ally; bob and the peer are told. -/
example : ∃ req, PoliteRun Sample.s5 ∧ Received Sample.s5 5 "NICK ally".toList 3 req ∧ Is req "NICK" ∧
    (Sample.s5.cl 3).type = .user ∧ req.argv = ["ally".toList] ∧ MayRename Sample.s5 (Sample.s5.cl 3) "ally".toList ∧
    Related Sample.s5 3 6 ∧ isLink Sample.s5 7 = true :=
  ⟨⟨none, "NICK".toList, ["ally".toList]⟩,
    Sample.fine_s5.mono (fun _ h => h.1) (fun _ _ h => h.1), recv_sound (by decide +kernel),
    by simp only [Is]; decide, by decide +kernel, by decide,
    ⟨by decide +kernel, by decide +kernel, .inr ⟨(C14_nick_check _ _).1 (by decide +kernel), by simp only [Reserved]; decide +kernel,
      by decide +kernel⟩, .inr (by simp only [OnChannel]; decide +kernel)⟩,
    by simp only [Related, OnChannel]; exact ⟨Sample.s5.cl 4, by decide +kernel, by decide +kernel, by decide +kernel, by decide +kernel,
      5, by decide +kernel, by decide +kernel⟩, by decide +kernel⟩

theorem remote_behind (h : PoliteRun s) (hr : Received s i l cl req) (hs : (s.cl cl).type = .server)
    (hp : req.prefix? = some p) (hc : Originator s cl req c) (hu : c.type ≠ .server) :
    clientSearch s p = some c ∧ Behind s i c ∧ c.conn = none := by
  have hb := h.reachable.base
  obtain ⟨h1, h2, h3, -⟩ := msgFrom_originator h hr hc
  have hm := hc.1
  have hbe := (nextHop_conn hb hm).1 h3
  refine ⟨?_, hbe, ?_⟩
  · simp only [msgFrom, hs, hp, if_true] at h1
    cases hq : clientSearch s p with
    | none => rw [hq] at h1; simp at h1
    | some d =>
      rw [hq] at h1
      have : d.ref = c.ref := by simpa using h1
      rw [hb.cl.ord.eq_of_ref (clientSearch_mem hq) hm this]
  · cases hbe with
    | direct hcn =>
      obtain ⟨g1, g2, g3, g4⟩ := hr.owner hb
      exact absurd (conn_owner hb hm g1 hcn g3 ▸ hs) hu
    | via hcn => exact hcn

/-- **C22** A peer announces that one of its users leaves: the local clients sharing a channel with it and the
other servers are told once each, and nobody else is. -/
theorem C22_remote_quit (h : PoliteRun s) (hr : Received s i l cl req) (hn : Is req "QUIT") (hs : (s.cl cl).type = .server)
    (hp : req.prefix? = some p) (hc : Originator s cl req c) (hu : c.type = .user) {fwd : Option Str}
    (ha : (req.argv = [] ∧ fwd = none) ∨ ∃ a, req.argv = [a] ∧ a.length < 513 ∧ fwd = some a) (rnd : Int) :
    (∀ d ∈ (step s (.line i rnd l)).clients, d.ref ≠ c.ref) ∧
    (∀ ch, ¬ OnChannel (step s (.line i rnd l)) ch c.ref) ∧
    ∃ o, (step s (.line i rnd l)).out = o ++ s.out ∧ Notified s i c
      ⟨"QUIT", [if s.conf.morePrivacy then [] else fwd.getD c.id]⟩ ⟨"QUIT", [fwd.getD []]⟩ o ∧ ∀ y ∈ o, y.conn ≠ i := by
  have hb := h.reachable.base
  have hb' : Base (s.roll rnd) := Base.of_core (s := s) rfl hb
  obtain ⟨g1, g2, g3, g4⟩ := hr.owner hb
  have hns : c.type ≠ .server := by rw [hu]; decide
  obtain ⟨h1, h2, h3⟩ := remote_behind h hr hs hp hc hns
  have hm := hc.1
  have hst : step s (.line i rnd l) = (ircQUIT (s.roll rnd) cl req).1 :=
    step_do hr rnd hn rfl (by rw [hs]; rfl) (by
      rcases ha with ⟨e, -⟩ | ⟨a, e, -⟩ <;> simp only [Command.argcOk, Request.argc, e] <;> rfl)
  have hq : (if req.argc = 1 then some (strlcpy COMMAND_LEN (req.arg 0)) else none) = fwd := by
    rcases ha with ⟨e, e2⟩ | ⟨a, e, hl, e2⟩
    · simp [Request.argc, e, e2]
    · have : strlcpy COMMAND_LEN a = a := List.take_of_length_le (by simp only [COMMAND_LEN]; omega)
      simp [Request.argc, Request.arg, e, e2, this]
  have hne : c.ref ≠ cl := by
    intro he
    rw [hb.cl.ord.eq_of_ref hm g1 (he.trans g2.symm)] at h3
    rw [h3] at g3; cases g3
  have hrun : step s (.line i rnd l) = clientDestroy (s.roll rnd) c.ref fwd true := by
    rw [hst]
    simp only [ircQUIT, roll_cl, hs, if_true, hp, roll_search, h1, hq]
    rw [if_pos hne]
  rw [hrun]
  have hbe' : Behind (s.roll rnd) i c := behind_roll.2 h2
  have hG := clientDestroy_gone hb' hm (hbe'.ne_this hb' hm) h3 fwd true
  have hun : Under (s.roll rnd) c.ref c := .self hm rfl
  refine ⟨fun d hd he => ?_, ?_, ?_⟩
  · have := (hG.clients d).1 hd
    exact this.2 (by rw [hb.cl.ord.eq_of_ref this.1 hm he]; exact hun)
  · rintro ch ⟨m, hmm, -, g2⟩
    exact hG.gone m hmm _ hm hun (.inl hu) g2.symm
  · obtain ⟨o, e, g, g'⟩ := destroy_remote_out hb' hm (.inl hu) h3 g1 hs g3 hbe' fwd
    exact ⟨o, e, ⟨g.related, g.links, g.others⟩, g'⟩

/-- zed, behind the link 7, quits; alice and bob share #c with it. -/
example : ∃ req, PoliteRun Sample.s5 ∧ Received Sample.s5 7 ":zed QUIT :bye".toList 6 req ∧ Is req "QUIT" ∧
    (Sample.s5.cl 6).type = .server ∧ req.prefix? = some "zed".toList ∧ req.argv = ["bye".toList] ∧
    Originator Sample.s5 6 req (Sample.s5.cl 7) ∧ (Sample.s5.cl 7).type = .user ∧ Related Sample.s5 7 5 :=
  ⟨⟨some "zed".toList, "QUIT".toList, ["bye".toList]⟩,
    Sample.fine_s5.mono (fun _ h => h.1) (fun _ _ h => h.1), recv_sound (by decide +kernel),
    by simp only [Is]; decide, by decide +kernel, rfl, rfl,
    ⟨by decide +kernel, .inl ⟨by decide +kernel, _, rfl, (caseEq_same _ _).1 (by decide +kernel)⟩⟩, by decide +kernel,
    by simp only [Related, OnChannel]; exact ⟨Sample.s5.cl 3, by decide +kernel, by decide +kernel, by decide +kernel, by decide +kernel,
      5, by decide +kernel, by decide +kernel⟩⟩

/-- **C22** A peer announces the new nick of one of its users: if it is a free and valid name, the user is
renamed, the local clients sharing a channel with it and the other servers are told once each, and nobody
else is.  Otherwise nothing changes and only the peer gets an answer. -/
theorem C22_remote_nick (h : PoliteRun s) (hr : Received s i l cl req) (hn : Is req "NICK") (hs : (s.cl cl).type = .server)
    (hp : req.prefix? = some p) (hc : Originator s cl req c) (hu : c.type = .user) (ha : req.argv = [n]) (rnd : Int) :
    ((n ≠ c.id ∧ (SameCase c.id n ∨
        (ValidNick s.conf.maxNickLength n ∧ ¬ Reserved s n ∧ ∀ d ∈ s.clients, ¬ SameCase d.id n))) →
      ((step s (.line i rnd l)).cl c.ref).id = n ∧
      ∃ o, (step s (.line i rnd l)).out = o ++ s.out ∧ Notified s i c ⟨"NICK", [n]⟩ ⟨"NICK", [n]⟩ o ∧ ∀ y ∈ o, y.conn ≠ i) ∧
    (¬ (n ≠ c.id ∧ (SameCase c.id n ∨
        (ValidNick s.conf.maxNickLength n ∧ ¬ Reserved s n ∧ ∀ d ∈ s.clients, ¬ SameCase d.id n))) →
      Answered i s (step s (.line i rnd l))) := by
  have hb := h.reachable.base
  obtain ⟨g1, g2, g3, g4⟩ := hr.owner hb
  have hns : c.type ≠ .server := by rw [hu]; decide
  obtain ⟨h1, h2, h3⟩ := remote_behind h hr hs hp hc hns
  have hm := hc.1
  have hid : c.id ≠ [] := ((C13_lookup h p c).1 h1).2.1
  have hst : step s (.line i rnd l) = (ircNICK (s.roll rnd) cl req).1 :=
    step_do hr rnd hn rfl (by rw [hs]; rfl) (by simp only [Command.argcOk, Request.argc, ha]; rfl)
  have hrun : step s (.line i rnd l) = (nickTarget (s.roll rnd) cl c.ref n).1 := by
    rw [hst]
    simp only [ircNICK, roll_cl, hs, Request.argc, Request.arg, ha, hp, roll_search, h1]
    rw [if_neg (by simp), if_pos trivial, if_pos (by rfl)]
    rfl
  rw [hrun]
  obtain ⟨k1, k2⟩ := nickTarget_ok h hm hu hid h2 rnd n cl
  refine ⟨fun hf => ?_, k2⟩
  obtain ⟨k3, k4⟩ := k1 hf
  have hcl : (s.roll rnd).cl c.ref = c := cl_of_mem hb.cl.ord hm
  have hch : (nickTarget (s.roll rnd) cl c.ref n).1 = changeNick (s.roll rnd) cl c.ref n false := by
    rw [k3]
    simp only [nickChange, roll_cl, hs]
    rfl
  rw [hch]
  obtain ⟨o, o1, o2, o3⟩ := nick_notified (i := i) hb hm hns (some cl) ⟨"NICK", [n]⟩ (fun j d hd hd1 hd2 => by
      simp only [ne_eq, Option.some.injEq]
      refine not_congr ⟨fun he => ?_, fun he => ?_⟩
      · rw [hb.cl.ord.eq_of_ref hd g1 (he.trans g2.symm), g3] at hd2
        injection hd2 with hd2; exact hd2.symm
      · subst he; rw [conn_owner hb hd g1 hd2 g3, g2]) (by
      rintro ⟨x, hx, x1, x2, x3, -⟩
      exact x3 (conn_owner hb hx g1 x2 g3 ▸ hs))
  have hrun2 : changeNick (s.roll rnd) cl c.ref n false = clientSetID (registerWhowas
      { s.roll rnd with out := o ++ s.out } c) c.ref n := by
    have : writeRelatedPrefix (writeServers (s.roll rnd) (some cl) c ⟨"NICK", [n]⟩) c.ref c false ⟨"NICK", [n]⟩ =
      { s.roll rnd with out := o ++ s.out } := o1 (s.roll rnd) ⟨rfl, rfl, rfl, rfl, rfl⟩
    simp only [changeNick, hcl, Bool.false_eq_true, if_false, this]
  rw [hrun2]
  obtain ⟨a, b, hww⟩ := registerWhowas_eq { s.roll rnd with out := o ++ s.out } c
  rw [hww]
  exact ⟨setID_cl hm k4, o, rfl, o2, o3⟩

example : ∃ req, PoliteRun Sample.s5 ∧ Received Sample.s5 7 ":zed NICK zoe".toList 6 req ∧ Is req "NICK" ∧
    (Sample.s5.cl 6).type = .server ∧ req.prefix? = some "zed".toList ∧ req.argv = ["zoe".toList] ∧
    Originator Sample.s5 6 req (Sample.s5.cl 7) ∧ (Sample.s5.cl 7).type = .user ∧
    ValidNick Sample.s5.conf.maxNickLength "zoe".toList ∧ ¬ Reserved Sample.s5 "zoe".toList ∧
    ∀ d ∈ Sample.s5.clients, ¬ SameCase d.id "zoe".toList :=
  ⟨⟨some "zed".toList, "NICK".toList, ["zoe".toList]⟩,
    Sample.fine_s5.mono (fun _ h => h.1) (fun _ _ h => h.1), recv_sound (by decide +kernel),
    by simp only [Is]; decide, by decide +kernel, rfl, rfl,
    ⟨by decide +kernel, .inl ⟨by decide +kernel, _, rfl, (caseEq_same _ _).1 (by decide +kernel)⟩⟩, by decide +kernel,
    (C14_nick_check _ _).1 (by decide +kernel), by simp only [Reserved]; decide +kernel, by decide +kernel⟩

end Ngircd
