import Verif.Lemmas.Broadcast
import Verif.Props.Kill
import Verif.Props.Announce

/-!
# C58: WALLOPS; C59: AWAY
-/

set_option linter.unusedSimpArgs false

namespace Ngircd
open Spec

variable {s : Srv} {i : Nat} {l : Str} {cl : Nat} {req : Request} {f x : Client} {c : Chan}

theorem wallops_out (hb : Base s) (hcl : s.cl cl ∈ s.clients) (href : (s.cl cl).ref = cl) (hci : (s.cl cl).conn = some i) (rnd : Int) (text : Str) :
    ∃ o, Emitted s (sendWallops (s.roll rnd) cl f text) o ∧ WallopsTold s i f text o := by
  obtain ⟨o, h1, h2, h3⟩ := chosen_spec hb (fun to => to.conn.isSome &&
      ((to.type = .user && to.hasMode 'w') || (to.type = .server && to.ref != cl))) (fun d _ h => by
        simp only [Bool.and_eq_true] at h; exact h.1) f ⟨"WALLOPS", [text]⟩
  have hex : ∀ j, ∀ e ∈ s.clients, e.type = .server → e.conn = some j → (e.ref ≠ cl ↔ j ≠ i) := by
    intro j e he h1 h2
    have := link_except hb hcl hci j e he h1 h2
    rw [href] at this
    rw [← this]
    exact not_congr ⟨fun g => by rw [g], fun g => by injection g⟩
  refine ⟨o, ⟨rnd, h1 (s.roll rnd) ⟨rfl, rfl, rfl, rfl, rfl⟩⟩, ?_, ?_, ?_⟩
  · rintro j ⟨d, hd, d1, d2, d3⟩
    have := h2 j d hd (by simp [d1, d2, hasMode_iff.2 d3]) d1
    rw [if_neg (by rw [d2]; decide)] at this
    exact this
  · intro j hj hl
    obtain ⟨d, hd, d1, d2⟩ := isLink_mem.1 hl
    have := h2 j d hd (by simp [d1, d2, (hex j d hd d1 d2).2 hj]) d2
    rw [if_pos d1] at this
    exact this
  · intro y hy
    obtain ⟨d, hd, d1, d2⟩ := h3 y hy
    simp only [Bool.and_eq_true, Bool.or_eq_true, decide_eq_true_eq, bne_iff_ne] at d1
    rcases d1.2 with ⟨a, b⟩ | ⟨a, b⟩
    · exact .inl ⟨d, hd, d2, a, hasMode_iff.1 b⟩
    · exact .inr ⟨(hex _ d hd a d2).1 b, isLink_mem.2 ⟨d, hd, a, d2⟩⟩

/-- **C58** The WALLOPS of an IRC operator, or one a linked server passes on, is shown to all local users who want it
and to the other servers, and to nobody else; nothing else happens. -/
theorem C58_wallops (h : PoliteRun s) (hr : Received s i l cl req) (his : Is req "WALLOPS") {text : Str} (hargs : req.argv = [text])
    (hty : ((s.cl cl).type = .user ∧ 'o' ∈ (s.cl cl).modes) ∨ ((s.cl cl).type = .server ∧ req.prefix?.isSome = true))
    (hf : Originator s cl req f) (rnd : Int) :
    ∃ o, Emitted s (step s (.line i rnd l)) o ∧ WallopsTold s i f text o := by
  have hb := h.reachable.base
  obtain ⟨g1, g2, g3, g4⟩ := hr.owner hb
  have hst : step s (.line i rnd l) = (ircWALLOPS (s.roll rnd) cl req).1 :=
    step_do hr rnd his rfl (by rcases hty with ⟨e, -⟩ | ⟨e, -⟩ <;> rw [e] <;> rfl) (by
      simp only [Command.argcOk, Request.argc, hargs]; rfl)
  have harg : req.arg 0 = text := by simp only [Request.arg, hargs]; rfl
  rw [hst]
  simp only [ircWALLOPS, harg]
  rw [roll_cl]
  rcases hty with ⟨e, ho⟩ | ⟨e, hp⟩
  · rw [if_pos e]
    have hop : (opCheck (s.roll rnd) cl req).isNone = false := by
      simp only [opCheck]
      rw [roll_cl, if_neg (by rw [e]; decide)]
      simp only
      rw [if_neg (by simp [e]), if_neg (by simp [hasMode_iff.2 ho]), if_neg (by rw [g3]; simp)]
      rfl
    have hff : f = s.cl cl := by
      rcases hf.2 with ⟨hn, -⟩ | ⟨-, hn⟩
      · rw [e] at hn; cases hn
      · exact hb.cl.ord.eq_of_ref hf.1 g1 (hn.trans g2.symm)
    simp only [hop, Bool.false_eq_true, if_false]
    rw [hff]
    exact wallops_out hb g1 g2 g3 rnd text
  · rw [if_neg (by rw [e]; decide), if_pos e]
    obtain ⟨p, hp⟩ := Option.isSome_iff_exists.1 hp
    have hs : clientSearch (s.roll rnd) p = some f := by
      rw [roll_search]
      rcases hf.2 with ⟨-, p', hp', hsame⟩ | ⟨hn, -⟩
      · rw [hp] at hp'; injection hp' with hp'; subst hp'
        have e0 := (msgFrom_originator h hr hf).1
        simp only [msgFrom, e, if_true, hp] at e0
        cases hse : clientSearch s p with
        | none => rw [hse] at e0; cases e0
        | some d =>
          rw [hse] at e0
          injection e0 with e0
          have hd := ((C13_lookup h p d).1 hse).1
          rw [hb.cl.ord.eq_of_ref hd hf.1 e0]
      · exact absurd ⟨e, by rw [hp]; rfl⟩ hn
    simp only [hp, hs]
    exact wallops_out hb g1 g2 g3 rnd text

/-- **C58** A WALLOPS of a user that is not an IRC operator is only answered. -/
theorem C58_refused (h : Reachable s) (hr : Received s i l cl req) (his : Is req "WALLOPS")
    (hty : (s.cl cl).type = .user) (hno : 'o' ∉ (s.cl cl).modes) (rnd : Int) :
    Answered i s (step s (.line i rnd l)) :=
  C27_users h hr ⟨"WALLOPS", by decide, his⟩ (by rw [hty]; decide) hno rnd

theorem away_mode {m : Str} (hl : m.length < 20) : (modeAdd m 'a').1 = if 'a' ∈ m then m else m ++ ['a'] := by
  simp only [modeAdd]
  by_cases hm : 'a' ∈ m
  · rw [if_pos (hasChar_iff.2 hm), if_pos hm]
  · rw [if_neg (fun hh => hm (hasChar_iff.1 hh)), if_neg hm]
    simp only
    rw [strlcat_fits]
    simp only [List.length_append, List.length_singleton, CLIENT_MODE_LEN]
    omega

theorem withTwo (s : Srv) (r : Nat) (g k : Client → Client) (hg : ∀ d, (g d).ref = d.ref) :
    (s.updCl r g).updCl r k = s.updCl r (fun d => k (g d)) := by
  simp only [Srv.updCl, List.map_map]
  congr 1
  apply List.map_congr_left
  intro d _
  simp only [Function.comp]
  by_cases h : d.ref = r
  · simp [h, hg]
  · simp [h]

/-- What AWAY sends. -/
def awayTell (u : Srv) (cl : Nat) (a : String) (m : Str) : Srv :=
  let u := writeServers u (some cl) (u.cl cl) ⟨"MODE", [(u.cl cl).ID, m]⟩
  write u (u.cl cl) ⟨a, [(u.cl cl).ID]⟩

theorem away_out (hb : Base s) (hcl : s.cl cl ∈ s.clients) (href : (s.cl cl).ref = cl) (hci : (s.cl cl).conn = some i) (hty : (s.cl cl).type = .user)
    (g : Client → Client) (hg : ∀ d, (g d).ref = d.ref ∧ (g d).conn = d.conn ∧ (g d).type = d.type ∧ (g d).introducer = d.introducer ∧ (g d).id = d.id ∧ (g d).hash = d.hash)
    (a : String) (m : Str) (rnd : Int) :
    ∃ o r, awayTell ((s.roll rnd).updCl cl g) cl a m =
        { withClient s cl g with out := o ++ s.out, rnd := r } ∧
      AnsweredAndTold s i (s.cl cl) ⟨a, [(s.cl cl).ID]⟩ ⟨"MODE", [(s.cl cl).ID, m]⟩ o := by
  have hbu : Base ((s.roll rnd).updCl cl g) := by
    refine ⟨(hb.cl.of_core (s := s) (t := s.roll rnd) rfl).upd (fun d hd _ => ?_), ?_⟩
    · obtain ⟨h1, h2, h3, h4, h5, h6⟩ := hg d
      exact ⟨h1, h2, h4, by rw [h6, h5]; exact hb.cl.hash d hd, .inl h3⟩
    · exact ⟨hb.ch.ord, hb.ch.lt, hb.ch.pairs, hb.ch.chan, hb.ch.clt⟩
  have hsome : (s.cl? cl).isSome = true := cl?_isSome_of_conn (by rw [hci]; rfl)
  have hcu : ((s.roll rnd).updCl cl g).cl cl = g (s.cl cl) := by
    rw [cl_updCl (s.roll rnd) cl cl g (fun d => (hg d).1) (fun _ => hsome), if_pos rfl, roll_cl]
  obtain ⟨k1, k2, k3, k4, k5, k6⟩ := hg (s.cl cl)
  have hID : (g (s.cl cl)).ID = (s.cl cl).ID := by simp only [Client.ID, k5]
  obtain ⟨o, h1, h2, h3⟩ := servers_spec hbu (some cl) (g (s.cl cl)) ⟨"MODE", [(s.cl cl).ID, m]⟩
  have hmem : ∀ d ∈ s.clients, (if d.ref = cl then g d else d) ∈ ((s.roll rnd).updCl cl g).clients :=
    fun d hd => List.mem_map_of_mem (f := fun d : Client => if d.ref = cl then g d else d) hd
  have hlk : ∀ j, isLink s j = true ↔ ∃ d ∈ ((s.roll rnd).updCl cl g).clients, d.type = .server ∧ d.conn = some j := by
    intro j
    rw [isLink_mem]
    constructor
    · rintro ⟨d, hd, d1, d2⟩
      refine ⟨_, hmem d hd, ?_⟩
      split
      · exact ⟨(hg d).2.2.1.trans d1, (hg d).2.1.trans d2⟩
      · exact ⟨d1, d2⟩
    · rintro ⟨d, hd, d1, d2⟩
      obtain ⟨d', hd', rfl⟩ := mem_updCl.1 hd
      refine ⟨d', hd', ?_⟩
      split at d1
      · rename_i e; rw [if_pos e] at d2; exact ⟨(hg d').2.2.1.symm.trans d1, (hg d').2.1.symm.trans d2⟩
      · rename_i e; rw [if_neg e] at d2; exact ⟨d1, d2⟩
  have hci' : ∀ j, isLink s j = true → j ≠ i := by
    rintro j hj rfl
    rw [isLink_iff hb hcl hci, hty] at hj
    cases hj
  have hgm : g (s.cl cl) ∈ ((s.roll rnd).updCl cl g).clients := by
    have := hmem _ hcl
    rwa [if_pos href] at this
  have hoi : onConn o i = [] := by
    rw [onConn, List.filter_eq_nil_iff]
    intro y hy hyi
    obtain ⟨d, hd, d1, d2, -⟩ := h3 y hy
    exact hci' y.conn ((hlk _).2 ⟨d, hd, d1, d2⟩) (by simpa using hyi)
  have hw := h1 _ ⟨rfl, rfl, rfl, rfl, rfl⟩
  generalize hu : (s.roll rnd).updCl cl g = u at hw hcu hbu h1 h2 h3 hlk hgm
  have hloc := hbu.cl.loc _ hgm (by rw [k2, hci]; rfl)
  have hcw : (writeServers u (some cl) (g (s.cl cl)) ⟨"MODE", [(s.cl cl).ID, m]⟩).cl cl = g (s.cl cl) := by
    rw [hw]; exact hcu
  refine ⟨⟨i, some (getPrefix u (g (s.cl cl)) (u.cl u.this)), ⟨a, [(s.cl cl).ID]⟩⟩ :: o, rnd, ?_, ⟨?_, ?_, ?_⟩⟩
  · simp only [awayTell, hcu, hID, hcw]
    rw [hw, write_local (i := i) (u := { u with out := o ++ u.out }) hloc (k2.trans hci)]
    rw [← hu]
    rfl
  · refine ⟨some (getPrefix u (g (s.cl cl)) (u.cl u.this)), ?_⟩
    simp only [onConn] at hoi ⊢
    rw [List.filter_cons_of_pos (by simp), hoi]
  · intro j hj
    obtain ⟨d, hd, d1, d2⟩ := (hlk j).1 hj
    have hne : d.ref ≠ cl := by
      intro e
      have : d = g (s.cl cl) := hbu.cl.ord.eq_of_ref hd hgm (e.trans (k1.trans href).symm)
      rw [this, k3, hty] at d1; cases d1
    have := h2 j d hd d1 d2 (by intro e; injection e with e; exact hne e)
    simp only [onConn] at this ⊢
    rw [List.filter_cons_of_neg (by simpa using (hci' j hj).symm), this, hID]
  · intro y hy
    rcases List.mem_cons.1 hy with rfl | hy
    · exact .inl rfl
    · obtain ⟨d, hd, d1, d2, -⟩ := h3 y hy
      exact .inr ((hlk _).2 ⟨d, hd, d1, d2⟩)

/-- **C59** AWAY with a text: the user is marked as away and the text is kept; the user and all linked servers are told,
once; nobody else notices, and nothing else changes. -/
theorem C59_away (h : Reachable s) (hr : Received s i l cl req) (his : Is req "AWAY") (hty : (s.cl cl).type = .user)
    {text : Str} (hargs : req.argv = [text]) (hne : text ≠ []) (hroom : (s.cl cl).modes.length < 20) (rnd : Int) :
    ∃ o r, step s (.line i rnd l) = { withClient s cl (fun d => { d with
        away := some (text.take 127), modes := if 'a' ∈ d.modes then d.modes else d.modes ++ ['a'] }) with out := o ++ s.out, rnd := r } ∧
      AnsweredAndTold s i (s.cl cl) ⟨"RPL_NOWAWAY_MSG", [(s.cl cl).ID]⟩ ⟨"MODE", [(s.cl cl).ID, "+a".toList]⟩ o := by
  have hb := h.base
  obtain ⟨g1, g2, g3, g4⟩ := hr.owner hb
  have hst : step s (.line i rnd l) = (ircAWAY (s.roll rnd) cl req).1 :=
    step_do hr rnd his rfl (by rw [hty]; rfl) (by simp only [Command.argcOk, Request.argc, hargs]; rfl)
  have harg : req.arg 0 = text := by simp only [Request.arg, hargs]; rfl
  have hi : text.isEmpty = false := by cases text with | nil => exact absurd rfl hne | cons _ _ => rfl
  obtain ⟨o, r, e, ho⟩ := away_out hb g1 g2 g3 hty (fun d => { d with
        away := some (text.take 127), modes := (modeAdd d.modes 'a').1 }) (fun d => ⟨rfl, rfl, rfl, rfl, rfl, rfl⟩) "RPL_NOWAWAY_MSG" "+a".toList rnd
  refine ⟨o, r, ?_, ho⟩
  have hw : withClient s cl (fun d => { d with away := some (text.take 127), modes := (modeAdd d.modes 'a').1 }) =
      withClient s cl (fun d => { d with away := some (text.take 127), modes := if 'a' ∈ d.modes then d.modes else d.modes ++ ['a'] }) := by
    simp only [withClient]
    congr 1
    apply List.map_congr_left
    intro d hd
    by_cases hdr : d.ref = cl
    · have : d = s.cl cl := hb.cl.ord.eq_of_ref hd g1 (hdr.trans g2.symm)
      have hl : d.modes.length < 20 := by rw [this]; exact hroom
      rw [if_pos hdr, if_pos hdr, away_mode hl]
    · rw [if_neg hdr, if_neg hdr]
  rw [← hw, ← e, hst]
  simp only [ircAWAY, Request.argc, hargs, harg, hi, List.length_singleton, decide_true, Bool.not_false, Bool.and_self, if_true]
  simp only [clientSetAway, clientModeAdd]
  rw [withTwo (s.roll rnd) cl (fun c => { c with away := some (strlcpy CLIENT_AWAY_LEN text) }) (fun c => { c with modes := (modeAdd c.modes 'a').1 }) (fun d => rfl)]
  rfl

/-- **C59** AWAY without a text: the user is no longer marked as away; otherwise as above. -/
theorem C59_back (h : Reachable s) (hr : Received s i l cl req) (his : Is req "AWAY") (hty : (s.cl cl).type = .user)
    (hargs : req.argv = [] ∨ req.argv = [[]]) (rnd : Int) :
    ∃ o r, step s (.line i rnd l) = { withClient s cl (fun d => { d with modes := d.modes.erase 'a' }) with out := o ++ s.out, rnd := r } ∧
      AnsweredAndTold s i (s.cl cl) ⟨"RPL_UNAWAY_MSG", [(s.cl cl).ID]⟩ ⟨"MODE", [(s.cl cl).ID, "-a".toList]⟩ o := by
  have hb := h.base
  obtain ⟨g1, g2, g3, g4⟩ := hr.owner hb
  have hst : step s (.line i rnd l) = (ircAWAY (s.roll rnd) cl req).1 :=
    step_do hr rnd his rfl (by rw [hty]; rfl) (by rcases hargs with e | e <;> (simp only [Command.argcOk, Request.argc, e]; rfl))
  obtain ⟨o, r, e, ho⟩ := away_out hb g1 g2 g3 hty (fun d => { d with modes := d.modes.erase 'a' }) (fun d => ⟨rfl, rfl, rfl, rfl, rfl, rfl⟩)
    "RPL_UNAWAY_MSG" "-a".toList rnd
  refine ⟨o, r, ?_, ho⟩
  rw [← e, hst]
  have hn : ¬ (req.argc = 1 && !(req.arg 0).isEmpty) = true := by
    rcases hargs with e | e
    · simp [Request.argc, e]
    · simp [Request.argc, Request.arg, e]
  have hm : ∀ d : Client, (modeDel d.modes 'a').1 = d.modes.erase 'a' := by
    intro d
    simp only [modeDel]
    split
    · rfl
    · rename_i hh
      rw [List.erase_of_not_mem]
      intro hin
      exact hh (hasChar_iff.2 hin)
  simp only [ircAWAY]
  rw [if_neg hn]
  simp only [clientModeDel, hm]
  rfl

/-! ## Examples -/

/-- alice, now an operator, with mode `w`, sends WALLOPS: the peer and alice herself get it, bob does not. -/
example : ∃ req, PoliteRun (Sample.lines Sample.s5op 5 ["MODE alice +w"]) ∧ Received (Sample.lines Sample.s5op 5 ["MODE alice +w"]) 5 "WALLOPS :fire".toList 3 req ∧
    Is req "WALLOPS" ∧ req.argv = ["fire".toList] ∧
    ((Sample.lines Sample.s5op 5 ["MODE alice +w"]).cl 3).type = .user ∧ 'o' ∈ ((Sample.lines Sample.s5op 5 ["MODE alice +w"]).cl 3).modes ∧
    WantsWallops (Sample.lines Sample.s5op 5 ["MODE alice +w"]) 5 ∧ isLink (Sample.lines Sample.s5op 5 ["MODE alice +w"]) 7 = true ∧
    Originator (Sample.lines Sample.s5op 5 ["MODE alice +w"]) 3 req ((Sample.lines Sample.s5op 5 ["MODE alice +w"]).cl 3) :=
  ⟨⟨none, "WALLOPS".toList, ["fire".toList]⟩,
    (Sample.fine_lines (Sample.fine_lines Sample.fine_s5 5 ["OPER root secret"] (by decide +kernel)) 5 ["MODE alice +w"] (by decide +kernel)).mono
      (fun _ h => h.1) (fun _ _ h => h.1),
    recv_sound (by decide +kernel), by simp only [Is]; decide, rfl, by decide +kernel, by decide +kernel,
    ⟨_, (by decide +kernel : (Sample.lines Sample.s5op 5 ["MODE alice +w"]).cl 3 ∈ _), by decide +kernel, by decide +kernel, by decide +kernel⟩,
    by decide +kernel, ⟨by decide +kernel, .inr ⟨by decide +kernel, by decide +kernel⟩⟩⟩

/-- The peer passes on a WALLOPS of zed. -/
example : ∃ req, PoliteRun Sample.s5 ∧ Received Sample.s5 7 ":zed WALLOPS :fire".toList 6 req ∧ Is req "WALLOPS" ∧ req.argv = ["fire".toList] ∧
    (Sample.s5.cl 6).type = .server ∧ req.prefix?.isSome = true ∧ Originator Sample.s5 6 req (Sample.s5.cl 7) :=
  ⟨⟨some "zed".toList, "WALLOPS".toList, ["fire".toList]⟩, polite_s5, recv_sound (by decide +kernel), by simp only [Is]; decide, rfl,
    by decide +kernel, rfl, ⟨by decide +kernel, .inl ⟨by decide +kernel, _, rfl, (caseEq_same _ _).1 (by decide +kernel)⟩⟩⟩

/-- bob, no operator, sends WALLOPS. -/
example : ∃ req, Reachable Sample.s5 ∧ Received Sample.s5 6 "WALLOPS :fire".toList 4 req ∧ Is req "WALLOPS" ∧ (Sample.s5.cl 4).type = .user ∧
    'o' ∉ (Sample.s5.cl 4).modes :=
  ⟨⟨none, "WALLOPS".toList, ["fire".toList]⟩, Sample.reach_s5, recv_sound (by decide +kernel), by simp only [Is]; decide, by decide +kernel, by decide +kernel⟩

/-- alice goes away, and comes back. -/
example : ∃ req, Reachable Sample.s5 ∧ Received Sample.s5 5 "AWAY :at lunch".toList 3 req ∧ Is req "AWAY" ∧ (Sample.s5.cl 3).type = .user ∧
    req.argv = ["at lunch".toList] ∧ "at lunch".toList ≠ [] ∧ (Sample.s5.cl 3).modes.length < 20 :=
  ⟨⟨none, "AWAY".toList, ["at lunch".toList]⟩, Sample.reach_s5, recv_sound (by decide +kernel), by simp only [Is]; decide, by decide +kernel, rfl,
    by decide, by decide +kernel⟩

example : ∃ req, Reachable Sample.s5 ∧ Received Sample.s5 5 "AWAY".toList 3 req ∧ Is req "AWAY" ∧ (Sample.s5.cl 3).type = .user ∧
    (req.argv = [] ∨ req.argv = [[]]) :=
  ⟨⟨none, "AWAY".toList, []⟩, Sample.reach_s5, recv_sound (by decide +kernel), by simp only [Is]; decide, by decide +kernel, .inl rfl⟩

end Ngircd
