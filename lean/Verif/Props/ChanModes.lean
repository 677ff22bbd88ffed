import Verif.Lemmas.ChMode
import Verif.Props.Join

/-!
# C23: who may change a channel
-/

set_option linter.unusedSimpArgs false

namespace Ngircd
open Spec

variable {s t u : Srv} {i cl : Nat} {l : Str} {req : Request} {e : Event} {x : Ctx}

theorem userModeChar_chans (st : UModeSt) (cl o r : Nat) (m : Char) :
    (userModeChar st cl o r m).s.chans = st.s.chans ∧ (userModeChar st cl o r m).s.cl2 = st.s.cl2 := by
  simp only [userModeChar]
  split
  · split <;> exact ⟨rfl, rfl⟩
  · split
    · exact ⟨rfl, rfl⟩
    · have key : ∀ (s : Srv), s.chans = st.s.chans ∧ s.cl2 = st.s.cl2 →
          (if st.set = true then clientModeAdd s r m else clientModeDel s r m).1.chans = st.s.chans ∧
          (if st.set = true then clientModeAdd s r m else clientModeDel s r m).1.cl2 = st.s.cl2 := by
        intro s hs
        cases st.set <;> exact hs
      refine key _ ?_
      split <;> exact ⟨rfl, rfl⟩

theorem userModeFold_chans (cl o r : Nat) (ms : Str) (st : UModeSt) :
    (ms.foldl (fun st m => userModeChar st cl o r m) st).s.chans = st.s.chans ∧
    (ms.foldl (fun st m => userModeChar st cl o r m) st).s.cl2 = st.s.cl2 := by
  induction ms generalizing st with
  | nil => exact ⟨rfl, rfl⟩
  | cons m ms ih =>
    simp only [List.foldl_cons]
    obtain ⟨h1, h2⟩ := userModeChar_chans st cl o r m
    rw [(ih _).1, (ih _).2]; exact ⟨h1, h2⟩

theorem userModeLoop_chans (cl o r : Nat) (as : List Str) (st : UModeSt) :
    (userModeLoop cl o r as st).s.chans = st.s.chans ∧ (userModeLoop cl o r as st).s.cl2 = st.s.cl2 := by
  induction as generalizing st with
  | nil => exact ⟨rfl, rfl⟩
  | cons a as ih =>
    simp only [userModeLoop]
    split
    · exact ⟨rfl, rfl⟩
    · obtain ⟨h1, h2⟩ := userModeFold_chans cl o r a st
      rw [(ih _).1, (ih _).2]; exact ⟨h1, h2⟩

theorem clientMode_chans (s : Srv) (cl o r : Nat) (req : Request) :
    (clientMode s cl o r req).chans = s.chans ∧ (clientMode s cl o r req).cl2 = s.cl2 := by
  simp only [clientMode]
  repeat' split
  all_goals first | exact ⟨rfl, rfl⟩ | skip
  rename_i rest _ c cs _ _
  have hc := core_userModeFinish (userModeLoop cl o r rest (cs.foldl (fun st m => userModeChar st cl o r m)
    { s := s, the := [c], set := c == '+' })) cl o r
  rw [core_chans hc, core_cl2 hc, (userModeLoop_chans ..).1, (userModeLoop_chans ..).2,
    (userModeFold_chans ..).1, (userModeFold_chans ..).2]
  exact ⟨rfl, rfl⟩

/-- **C23** A MODE command of a local user changes at most the channel it names, and there only
what the user was entitled to by the rank it had when the command was received: without being
half operator (or IRC operator with override) nothing at all; every mode set, mode cleared, rank
given and rank taken needs the rank for that letter. -/
theorem C23_mode (h : Reachable s) (hr : Received s i l cl req) (his : Is req "MODE")
    (hty : (s.cl cl).type = .user) (rnd : Int) :
    (∀ c ∈ s.chans, ∃ d ∈ (step s (.line i rnd l)).chans, ChannelChange s cl c d ∧
      (d = c ∨ SameCase (req.arg 0) c.name)) ∧
    (∀ d ∈ (step s (.line i rnd l)).chans, ∃ c ∈ s.chans, ChannelChange s cl c d ∧
      (d = c ∨ SameCase (req.arg 0) c.name)) ∧
    (∀ a ∈ s.cl2, ∃ b ∈ (step s (.line i rnd l)).cl2, RankChange s cl a b ∧
      (b = a ∨ ∃ c ∈ s.chans, c.ref = a.chan ∧ SameCase (req.arg 0) c.name)) ∧
    (∀ b ∈ (step s (.line i rnd l)).cl2, ∃ a ∈ s.cl2, RankChange s cl a b ∧
      (b = a ∨ ∃ c ∈ s.chans, c.ref = a.chan ∧ SameCase (req.arg 0) c.name)) := by
  have hb := h.base
  have triv : ∀ t : Srv, t.chans = s.chans → t.cl2 = s.cl2 →
    (∀ c ∈ s.chans, ∃ d ∈ t.chans, ChannelChange s cl c d ∧ (d = c ∨ SameCase (req.arg 0) c.name)) ∧
    (∀ d ∈ t.chans, ∃ c ∈ s.chans, ChannelChange s cl c d ∧ (d = c ∨ SameCase (req.arg 0) c.name)) ∧
    (∀ a ∈ s.cl2, ∃ b ∈ t.cl2, RankChange s cl a b ∧
      (b = a ∨ ∃ c ∈ s.chans, c.ref = a.chan ∧ SameCase (req.arg 0) c.name)) ∧
    (∀ b ∈ t.cl2, ∃ a ∈ s.cl2, RankChange s cl a b ∧
      (b = a ∨ ∃ c ∈ s.chans, c.ref = a.chan ∧ SameCase (req.arg 0) c.name)) := by
    intro t h1 h2
    rw [h1, h2]
    exact ⟨fun c hc => ⟨c, hc, .rfl' _ _ _, .inl rfl⟩, fun c hc => ⟨c, hc, .rfl' _ _ _, .inl rfl⟩,
      fun c hc => ⟨c, hc, .rfl' _ _ _, .inl rfl⟩, fun c hc => ⟨c, hc, .rfl' _ _ _, .inl rfl⟩⟩
  rcases step_run hr hb rnd his rfl with ⟨hst, -⟩ | ha
  · have hst : step s (.line i rnd l) = (ircMODE (s.roll rnd) cl req).1 := hst
    rw [hst]
    have ha := hr.asker hb rnd
    obtain ⟨hmem, href, -, -⟩ := hr.owner hb
    have hg : getSender (s.roll rnd) cl req = .ok cl := by
      simp only [getSender, roll_cl, hty]; rfl
    have hmc : modeCl (s.roll rnd) cl req = cl := by
      simp only [modeCl]
      split
      · rename_i c hc
        split
        · rename_i he
          exfalso
          cases hp : req.prefix? with
          | none => rw [hp] at hc; cases hc
          | some p =>
            rw [hp] at hc
            have hc : clientSearch (s.roll rnd) p = some c := hc
            have h1 := (nextHop_iff ha.base ha.conn (clientSearch_mem hc)).1 (ha.pre p c hp hc)
            exact h1.ne_this ha.base (clientSearch_mem hc) he
        · rfl
      · rfl
    simp only [ircMODE, hg, hmc]
    split
    · rename_i c hc
      have := clientMode_chans (s.roll rnd) cl cl c.ref req
      exact triv _ this.1 this.2
    · split
      · rename_i c hc
        have hcs : channelSearch (s.roll rnd) (req.arg 0) = some c := by
          split at hc
          · exact hc
          · cases hc
        have hcm : c ∈ s.chans := channelSearch_mem hcs
        have hname := channelSearch_case hcs
        have hM := channelMode_MR (s := s.roll rnd) (cl := cl) (o := cl) (req := req) hcm hty hmem href
        have conv1 : ∀ {a b}, ChannelChange (s.roll rnd) cl a b → ChannelChange s cl a b := fun h => ⟨h.rest, h.half, h.set, h.unset⟩
        have conv2 : ∀ {a b}, RankChange (s.roll rnd) cl a b → RankChange s cl a b := fun h => ⟨h.chan, h.client, h.half, h.give, h.take⟩
        refine ⟨?_, ?_, ?_, ?_⟩
        · intro a ha
          obtain ⟨b, hb', g1, g2⟩ := hM.chans' a ha
          exact ⟨b, hb', conv1 g1, g2.imp id (fun g => by rw [chan_eq_of_ref hb.ch ha hcm g]; exact hname)⟩
        · intro b hb'
          obtain ⟨a, ha, g1, g2⟩ := hM.chans b hb'
          exact ⟨a, ha, conv1 g1, g2.imp id (fun g => by rw [chan_eq_of_ref hb.ch ha hcm g]; exact hname)⟩
        · intro a ha
          obtain ⟨b, hb', g1, g2⟩ := hM.cl2' a ha
          exact ⟨b, hb', conv2 g1, g2.imp id (fun g => ⟨c, hcm, g.symm, hname⟩)⟩
        · intro b hb'
          obtain ⟨a, ha, g1, g2⟩ := hM.cl2 b hb'
          exact ⟨a, ha, conv2 g1, g2.imp id (fun g => ⟨c, hcm, g.symm, hname⟩)⟩
      · exact triv _ rfl rfl
  · exact triv _ ha.unch.chans ha.unch.cl2

/-- **C23** No other command of a registered user changes modes, key, limit, bans or exceptions
of a channel, or gives anybody a rank, and neither do connections coming, going or timing out:
every channel there is afterwards was there before with the same settings, and so was every
membership with its ranks. -/
theorem C23_only_mode (h : Reachable s) (e : Event) (hre : ∀ conf, e ≠ .rehash conf)
    (hu : ∀ r, SentBy s e r → (s.cl r).type = .user ∧ ¬ Sends s e r "MODE" ∧ ¬ Sends s e r "JOIN") :
    (∀ d ∈ (step s e).chans, ∃ c ∈ s.chans, SameSettings c d ∧
      (d.invites = c.invites ∨ ∃ r, Sends s e r "INVITE") ∧ (d.topic = c.topic ∨ ∃ r, Sends s e r "TOPIC")) ∧
    (∀ m ∈ (step s e).cl2, m ∈ s.cl2) := by
  have hb := h.base
  obtain ⟨f1, f2, f3, f4, f5⟩ := evCtx_facts s e
  have hnc : (evCtx s e True True).newConf.isSome = false := by
    cases e with
    | rehash conf => exact absurd rfl (hre conf)
    | line i rnd l =>
      simp only [evCtx]
      split <;> rfl
    | _ => rfl
  have hpe : ¬ (evCtx s e True True).peer := by
    intro g
    obtain ⟨r, h1, h2⟩ := f1 g
    rw [(hu r h1).1] at h2; cases h2
  have hx : ¬ (evCtx s e True True).edits := by
    rintro (g | g | g | g | g)
    · exact hpe g
    · have := f4 "MODE" (by decide) g; exact (hu _ this.sent).2.1 this
    · have := f4 "JOIN" (by decide) g; exact (hu _ this.sent).2.2 this
    · obtain ⟨r, h1, h2⟩ := f2 g
      exact h2 (hu r h1).1
    · rw [hnc] at g; cases g
  obtain ⟨g1, g2⟩ := steps_chKept hb hx h.once (step_steps_any hb e)
  refine ⟨fun d hd => ?_, g2⟩
  obtain ⟨c, hc, k1, k2, k3⟩ := g1 d hd
  refine ⟨c, hc, k1, ?_, ?_⟩
  · exact k2.symm.imp id (fun g => ⟨_, f4 "INVITE" (by decide) g⟩)
  · rcases k3 with (g | g | g) | g
    · exact absurd g hpe
    · exact .inr ⟨_, f4 "TOPIC" (by decide) g⟩
    · rw [hnc] at g; cases g
    · exact .inl g

/-- **C23** A JOIN of a registered user changes no settings of channels that exist. -/
theorem C23_join (h : Reachable s) (hr : Received s i l cl req) (his : Is req "JOIN")
    (hty : (s.cl cl).type = .user) (rnd : Int) {d : Chan} (hd : d ∈ (step s (.line i rnd l)).chans) :
    (∃ c ∈ s.chans, SameSettings c d ∧ d.topic = c.topic ∧ ∀ e ∈ d.invites, e ∈ c.invites) ∨
    ((∀ c ∈ s.chans, c.ref ≠ d.ref) ∧ OnChannel (step s (.line i rnd l)) d.ref cl) := by
  have hb := h.base
  rcases join_JR h hr his hty rnd with hk | hk
  · obtain ⟨c, hc, k1, k2, k3⟩ := hk.1 d hd
    refine .inl ⟨c, hc, k1, ?_, ?_⟩
    · refine k3.resolve_left ?_
      rintro (g | g | g)
      · exact g
      · exact absurd g (by simp [Ctx.is, caseEq, lowerStr])
      · cases g
    · have := k2.resolve_left (by simp [Ctx.is, caseEq, lowerStr])
      rw [this]; exact fun _ h => h
  · refine (hk.chans d hd).imp id (fun ⟨g1, g2⟩ => ⟨fun c hc => ?_, g2⟩)
    have := hb.ch.lt c hc
    omega

/-- **C23** In particular a user below half operator changes nothing with MODE: no channel, and
nobody's rank. -/
theorem C23_powerless (h : Reachable s) (hr : Received s i l cl req) (his : Is req "MODE")
    (hty : (s.cl cl).type = .user) (rnd : Int) {c : Chan} (hc : c ∈ s.chans) (hno : ¬ IsHalf s c.ref cl) :
    c ∈ (step s (.line i rnd l)).chans ∧
    (∀ r m, HasRank (step s (.line i rnd l)) c.ref r m ↔ HasRank s c.ref r m) := by
  obtain ⟨h1, -, h3, h4⟩ := C23_mode h hr his hty rnd
  refine ⟨?_, fun r m => ?_⟩
  · obtain ⟨d, hd, g, -⟩ := h1 c hc
    rcases g.half with e | e
    · exact e ▸ hd
    · exact absurd e hno
  · constructor
    · rintro ⟨b, hb, e1, e2, e3⟩
      obtain ⟨a, ha, g, -⟩ := h4 b hb
      rcases g.half with e | e
      · exact ⟨a, ha, e ▸ e1, e ▸ e2, e ▸ e3⟩
      · exact absurd (by rw [← e1, g.chan]; exact e) hno
    · rintro ⟨a, ha, e1, e2, e3⟩
      obtain ⟨b, hb, g, -⟩ := h3 a ha
      rcases g.half with e | e
      · exact ⟨b, hb, e ▸ e1, e ▸ e2, e ▸ e3⟩
      · exact absurd (by rw [← e1]; exact e) hno

/-! ## Cases -/

theorem Spec.Received.sentBy (hr : Received s i l cl req) (rnd : Int) : SentBy s (.line i rnd l) cl := by
  obtain ⟨k, req0, hk, hcl, hp, hv⟩ := hr
  exact ⟨i, rnd, l, rfl, k, List.mem_of_find?_eq_some hk, by simpa using List.find?_some hk, hcl⟩

theorem Spec.Received.sentBy_eq (hr : Received s i l cl req) (hb : Base s) {r : Nat} {rnd : Int}
    (h : SentBy s (.line i rnd l) r) : r = cl := by
  obtain ⟨k, req0, hk, hcl, hp, hv⟩ := hr
  obtain ⟨i', rnd', l', e, k', hk', h1, h2⟩ := h
  cases e
  have := conn_of_idx hb.cl hk' (List.mem_of_find?_eq_some hk) (by
    rw [h1]; exact (by simpa using (List.find?_some hk) : k.idx = i).symm)
  rw [← h2, ← hcl, this]

theorem Spec.Received.sends_is (hr : Received s i l cl req) {r : Nat} {rnd : Int} {n : String}
    (h : Sends s (.line i rnd l) r n) : Is req n := by
  obtain ⟨k, req0, hk, hcl, hp, hv⟩ := hr
  obtain ⟨i', rnd', l', req', e, -, hp', his⟩ := h
  cases e
  rw [hp] at hp'; cases hp'
  simp only [Is, (validatePrefix_pass hv).1] at his ⊢
  exact his

/-- Alice, operator of #c, sets a key, moderates the channel and gives Bob a voice. -/
example : ∃ req, Reachable Sample.s4 ∧ Received Sample.s4 5 "MODE #c +kmv geheim bob".toList 3 req ∧
    Is req "MODE" ∧ (Sample.s4.cl 3).type = .user ∧ IsHalf Sample.s4 5 3 ∧
    (step Sample.s4 (.line 5 0 "MODE #c +kmv geheim bob".toList)).chans.any
      (fun d => d.ref == 5 && d.modes == "km".toList && d.key == "geheim".toList) = true ∧
    HasRank (step Sample.s4 (.line 5 0 "MODE #c +kmv geheim bob".toList)) 5 4 'v' :=
  ⟨⟨none, "MODE".toList, ["#c".toList, "+kmv".toList, "geheim".toList, "bob".toList]⟩, Sample.reach_s4,
    recv_sound (by decide +kernel), by simp only [Is]; decide, by decide +kernel,
    .inl (.inr (by unfold HasRank; decide +kernel)), by decide +kernel, by unfold HasRank; decide +kernel⟩

/-- Bob, without rank, tries to become operator and to ban Alice. -/
example : ∃ req, Reachable Sample.s4 ∧ Received Sample.s4 6 "MODE #c +ob bob alice".toList 4 req ∧
    Is req "MODE" ∧ (Sample.s4.cl 4).type = .user ∧
    (∃ c ∈ Sample.s4.chans, c.ref = 5 ∧ ¬ IsHalf Sample.s4 c.ref 4) ∧
    ¬ HasRank (step Sample.s4 (.line 6 0 "MODE #c +ob bob alice".toList)) 5 4 'o' :=
  ⟨⟨none, "MODE".toList, ["#c".toList, "+ob".toList, "bob".toList, "alice".toList]⟩, Sample.reach_s4,
    recv_sound (by decide +kernel), by simp only [Is]; decide, by decide +kernel,
    ⟨Sample.s4.chan 5, by decide +kernel, by decide +kernel, by
      simp only [IsHalf, IsChop, IsAdmin, IsOwner, Override, HasUMode, HasRank]; decide +kernel⟩,
    by unfold HasRank; decide +kernel⟩

/-- Bob leaves: no rank and no setting changes. -/
example : Reachable Sample.s4 ∧ (∀ conf, Event.line 6 0 "PART #c".toList ≠ .rehash conf) ∧
    (∃ r, SentBy Sample.s4 (.line 6 0 "PART #c".toList) r) ∧
    (∀ r, SentBy Sample.s4 (.line 6 0 "PART #c".toList) r → (Sample.s4.cl r).type = .user ∧
      ¬ Sends Sample.s4 (.line 6 0 "PART #c".toList) r "MODE" ∧
      ¬ Sends Sample.s4 (.line 6 0 "PART #c".toList) r "JOIN") ∧
    (step Sample.s4 (.line 6 0 "PART #c".toList)).cl2.length = 1 := by
  have hr : Received Sample.s4 6 "PART #c".toList 4 ⟨none, "PART".toList, ["#c".toList]⟩ :=
    recv_sound (by decide +kernel)
  refine ⟨Sample.reach_s4, (by intro _ h; cases h), ⟨4, hr.sentBy 0⟩, fun r h => ?_, by decide +kernel⟩
  cases hr.sentBy_eq Sample.reach_s4.base h
  refine ⟨by decide +kernel, fun h => ?_, fun h => ?_⟩
  · have := (hr.sends_is h); simp only [Is] at this; exact absurd this (by decide)
  · have := (hr.sends_is h); simp only [Is] at this; exact absurd this (by decide)

/-- Bob founds a channel. -/
example : ∃ req, Reachable Sample.s4 ∧ Received Sample.s4 6 "JOIN #new".toList 4 req ∧
    Is req "JOIN" ∧ (Sample.s4.cl 4).type = .user ∧
    (step Sample.s4 (.line 6 0 "JOIN #new".toList)).chans.length = 3 :=
  ⟨⟨none, "JOIN".toList, ["#new".toList]⟩, Sample.reach_s4, recv_sound (by decide +kernel),
    by simp only [Is]; decide, by decide +kernel, by decide +kernel⟩

end Ngircd
