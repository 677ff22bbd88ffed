import Verif.Props.Kick

/-!
# C48: topics
-/

set_option linter.unusedSimpArgs false

namespace Ngircd
open Spec

variable {s t u : Srv} {i cl : Nat} {l : Str} {req : Request} {e : Event} {x : Ctx}

/-- Channels of `t` have the topic they had in `s`, new ones have none. -/
def TopicKept (s t : Srv) : Prop :=
  s.nextRef ≤ t.nextRef ∧
  ∀ d ∈ t.chans, (∃ c ∈ s.chans, c.ref = d.ref ∧ d.topic = c.topic) ∨ (s.nextRef ≤ d.ref ∧ d.topic = [])

theorem TopicKept.sub (h1 : t.chans.Sublist s.chans) (h2 : s.nextRef ≤ t.nextRef) : TopicKept s t :=
  ⟨h2, fun d hd => .inl ⟨d, h1.subset hd, rfl, rfl⟩⟩

theorem TopicKept.trans (h : TopicKept s t) (h' : TopicKept t u) : TopicKept s u := by
  refine ⟨Nat.le_trans h.1 h'.1, fun d hd => ?_⟩
  rcases h'.2 d hd with ⟨c, hc, e1, e2⟩ | ⟨g1, g2⟩
  · rcases h.2 c hc with ⟨b, hb, e3, e4⟩ | ⟨g1, g2⟩
    · exact .inl ⟨b, hb, e3.trans e1, e2.trans e4⟩
    · exact .inr ⟨e1 ▸ g1, e2.trans g2⟩
  · exact .inr ⟨Nat.le_trans h.1 g1, g2⟩

theorem TopicKept.upd {r : Nat} {f : Chan → Chan} (h1 : ∀ c, (f c).ref = c.ref) (h2 : ∀ c, (f c).topic = c.topic) :
    TopicKept t (t.updChan r f) := by
  refine ⟨Nat.le_refl _, fun d hd => ?_⟩
  obtain ⟨c, hc, rfl⟩ := mem_updChan.1 hd
  refine .inl ⟨c, hc, ?_⟩
  split
  · exact ⟨(h1 c).symm, h2 c⟩
  · exact ⟨rfl, rfl⟩

theorem TopicKept.act {a : Act} (hx : ¬ x.topics) (hp : Okay x t a) : TopicKept t (a.run t) := by
  have hn := run_nextRef t a
  cases a with
  | chSoft ch f => exact .upd (fun c => (hp.keeps c).1) (hp.topic.resolve_left hx)
  | chMode ch m set => simp only [Act.run]; split <;> exact .upd (fun _ => rfl) (fun _ => rfl)
  | chModes ch modes => exact .upd (fun _ => rfl) (fun _ => rfl)
  | mmode ch r m set => 
    refine .sub ?_ hn
    simp only [Act.run]; split <;> exact List.Sublist.refl _
  | remove ch r => exact .sub (remove_chans t ch r) hn
  | destroy c => exact .sub (destroy_chans_sub t c) hn
  | join ch r => exact .sub (List.Sublist.refl _) hn
  | createJoin name r =>
    refine ⟨hn, fun d hd => ?_⟩
    rcases List.mem_cons.1 hd with rfl | hd
    · exact .inr ⟨Nat.le_refl _, rfl⟩
    · exact .inl ⟨d, hd, rfl, rfl⟩
  | create name f =>
    rcases hp.2.2.2.2.2.2 with h | h
    · exact absurd (.inl h) hx
    · exact absurd (.inr (.inr h)) hx
  | _ =>
    refine .sub ?_ hn
    rw [(run_chans rfl t).1]; exact List.Sublist.refl _

theorem steps_topic (hx : ¬ x.topics) (h : Steps (Okay x) s t) : TopicKept s t := by
  refine h.inv (I := TopicKept s) ?_ ?_ (.sub (List.Sublist.refl _) (Nat.le_refl _))
  · intro t u hc hk
    exact hk.trans (.sub (by rw [core_chans hc]; exact List.Sublist.refl _) (by rw [core_nextRef hc]; exact Nat.le_refl _))
  · intro t a hk hp
    exact hk.trans (.act hx hp)

/-- **C48** The topic of a channel changes only by a TOPIC command, by a server link, or when the
configuration is loaded anew. -/
theorem C48_only (h : Reachable s) (e : Event) (hre : ∀ conf, e ≠ .rehash conf)
    (hu : ∀ r, SentBy s e r → (s.cl r).type ≠ .server ∧ ¬ Sends s e r "TOPIC") {c d : Chan}
    (hc : c ∈ s.chans) (hd : d ∈ (step s e).chans) (href : d.ref = c.ref) : d.topic = c.topic := by
  have hb := h.base
  obtain ⟨f1, f2, f3, f4, f5⟩ := evCtx_facts s e
  have hnc : (evCtx s e True True).newConf.isSome = false := by
    cases e with
    | rehash conf => exact absurd rfl (hre conf)
    | line i rnd l =>
      simp only [evCtx]
      split <;> rfl
    | _ => rfl
  have hx : ¬ (evCtx s e True True).topics := by
    rintro (g | g | g)
    · obtain ⟨r, h1, h2⟩ := f1 g
      exact (hu r h1).1 h2
    · have := f4 "TOPIC" (by decide) g; exact (hu _ this.sent).2 this
    · rw [hnc] at g; cases g
  rcases (steps_topic hx (step_steps_any hb e)).2 d hd with ⟨b, hb', e1, e2⟩ | ⟨g, -⟩
  · rw [e2, chan_eq_of_ref hb.ch hb' hc (e1.trans href)]
  · have := hb.ch.lt c hc; omega

theorem umode_cl (hb : Base s) (hmem : s.cl cl ∈ s.clients) (href : (s.cl cl).ref = cl) {m : Char} :
    m ∈ (s.cl cl).modes ↔ HasUMode s cl m := by
  constructor
  · intro h; exact ⟨_, hmem, href, h⟩
  · rintro ⟨c, hc, rfl, h⟩
    rw [cl_of_mem hb.cl.ord hc]; exact h

theorem topicSet_core (s : Srv) (cl f : Nat) (ch : Chan) (n t : Str) :
    ∃ who, (topicSet s cl f ch n t).core = (s.updChan ch.ref (fun c =>
      { c with topic := if t.length < COMMAND_LEN then t else c.topic, topicTime := s.now, topicWho := who })).core := by
  simp only [topicSet]
  generalize (if s.conf.operServerMode = true then s.this else f) = f'
  generalize hs1 : (if ch.isLocal then s else _) = s1
  have h1 : s1.core = s.core := by rw [← hs1]; split <;> rfl
  generalize hs2 : (if t ≠ ch.topic then _ else s1) = s2
  have h2 : s2.core = s.core := by rw [← hs2, ← h1]; split <;> rfl
  refine ⟨if (s2.cl f').type ≠ .server then strlcpy 32 (s2.cl f').ID else "-Server-".toList, ?_⟩
  have key : (channelSetTopic s2 ch.ref (some (s2.cl f')) t).core = (s.updChan ch.ref (fun c =>
      { c with topic := if t.length < COMMAND_LEN then t else c.topic, topicTime := s.now,
               topicWho := if (s2.cl f').type ≠ .server then strlcpy 32 (s2.cl f').ID else "-Server-".toList })).core := by
    have h3 : s2.now = s.now := (congrArg Srv.now h2 : s2.core.now = s.core.now)
    have h4 : ∀ c : Chan, (if t.length ≥ COMMAND_LEN then c.topic else t) = if t.length < COMMAND_LEN then t else c.topic := by
      intro c
      by_cases h : t.length < COMMAND_LEN
      · rw [if_pos h, if_neg (by omega)]
      · rw [if_neg h, if_pos (by omega)]
    simp only [channelSetTopic, h3, h4]
    have h5 : ∀ f, (s2.updChan ch.ref f).core = s2.core.updChan ch.ref f := fun _ => rfl
    rw [h5, h2]
    rfl
  rw [← key]
  split <;> rfl

theorem topicPower_iff (hb : Base s) (hty : (s.cl cl).type = .user) (hmem : s.cl cl ∈ s.clients)
    (href : (s.cl cl).ref = cl) (ch : Nat) : topicPower s cl cl ch = true ↔
      (HasUMode s cl 'o' ∨ HasRank s ch cl 'h' ∨ HasRank s ch cl 'o' ∨ HasRank s ch cl 'a' ∨ HasRank s ch cl 'q') := by
  simp only [topicPower, hty, Bool.or_eq_true, userHasMode_iff hb.ch, or_assoc]
  rw [if_pos (by decide), hasMode_iff, umode_cl hb hmem href]

/-- **C48** A TOPIC command of a local user changes at most the topic of the channel it names, and
only if the user may; the new topic is then the one given, unless that is too long to be stored. -/
theorem C48_topic (h : Reachable s) (hr : Received s i l cl req) (his : Is req "TOPIC")
    (hty : (s.cl cl).type = .user) (rnd : Int) :
    (step s (.line i rnd l)).clients = s.clients ∧ (step s (.line i rnd l)).cl2 = s.cl2 ∧
    (∀ c ∈ s.chans, ∃ d ∈ (step s (.line i rnd l)).chans, SameButTopic c d ∧ (d = c ∨
      (SameCase (req.arg 0) c.name ∧ req.argv.length = 2 ∧ MayTopic s cl c ∧
       d.topic = if (req.arg 1).length < COMMAND_LEN then req.arg 1 else c.topic))) ∧
    (∀ d ∈ (step s (.line i rnd l)).chans, ∃ c ∈ s.chans, SameButTopic c d ∧ (d = c ∨
      (SameCase (req.arg 0) c.name ∧ req.argv.length = 2 ∧ MayTopic s cl c ∧
       d.topic = if (req.arg 1).length < COMMAND_LEN then req.arg 1 else c.topic))) := by
  have hb := h.base
  have triv : ∀ t : Srv, t.core = s.core →
    t.clients = s.clients ∧ t.cl2 = s.cl2 ∧
    (∀ c ∈ s.chans, ∃ d ∈ t.chans, SameButTopic c d ∧ (d = c ∨
      (SameCase (req.arg 0) c.name ∧ req.argv.length = 2 ∧ MayTopic s cl c ∧
       d.topic = if (req.arg 1).length < COMMAND_LEN then req.arg 1 else c.topic))) ∧
    (∀ d ∈ t.chans, ∃ c ∈ s.chans, SameButTopic c d ∧ (d = c ∨
      (SameCase (req.arg 0) c.name ∧ req.argv.length = 2 ∧ MayTopic s cl c ∧
       d.topic = if (req.arg 1).length < COMMAND_LEN then req.arg 1 else c.topic))) := by
    intro t h1
    rw [core_clients h1, core_chans h1, core_cl2 h1]
    exact ⟨rfl, rfl, fun c hc => ⟨c, hc, rfl, .inl rfl⟩, fun c hc => ⟨c, hc, rfl, .inl rfl⟩⟩
  rcases step_run hr hb rnd his rfl with ⟨hst, -, hargc⟩ | ha
  · have hst : step s (.line i rnd l) = (ircTOPIC (s.roll rnd) cl req).1 := hst
    rw [hst]
    obtain ⟨hmem, href, -, -⟩ := hr.owner hb
    have hg : getSender (s.roll rnd) cl req = .ok cl := by
      simp only [getSender, roll_cl, hty]; rfl
    simp only [ircTOPIC, hg]
    split
    · exact triv _ rfl
    · rename_i c hc
      have hcm : c ∈ s.chans := channelSearch_mem hc
      split
      · exact triv _ rfl
      · rename_i hon
        split
        · split <;> exact triv _ rfl
        · rename_i harg
          split
          · exact triv _ rfl
          · rename_i hpow
            have hb' : Base (s.roll rnd) := Base.of_core (s := s) rfl hb
            have hmay : MayTopic s cl c := by
              refine ⟨?_, ?_⟩
              · have hon' : (isMemberOf (s.roll rnd) c.ref cl || (s.conf.operCanMode && (s.cl cl).hasMode 'o')) = true := by
                  rw [roll_cl, hty, roll_conf] at hon
                  revert hon
                  cases isMemberOf (s.roll rnd) c.ref cl <;> cases (s.conf.operCanMode && (s.cl cl).hasMode 'o') <;> decide
                rcases Bool.or_eq_true _ _ ▸ hon' with g | g
                · exact .inl (isMemberOf_iff.1 g)
                · rw [Bool.and_eq_true] at g
                  exact .inr ⟨⟨_, hmem, href, hasMode_iff.1 g.2⟩, g.1⟩
              · intro ht
                have ht : c.hasMode 't' = true := by simp [Chan.hasMode, hasChar_iff, ht]
                rw [ht] at hpow
                exact (topicPower_iff hb' (s := s.roll rnd) hty hmem href c.ref).1 (by simpa using hpow)
            have hlen : req.argv.length = 2 := by
              have h1 := hargc.1
              have h2 := hargc.2 2 rfl
              have h3 : ¬ req.argv.length = 1 := harg
              have h1 : 1 ≤ req.argv.length := h1
              omega
            obtain ⟨who, hcore⟩ := topicSet_core (s.roll rnd) cl cl c (req.arg 0) (req.arg 1)
            refine ⟨(core_clients hcore :), (core_cl2 hcore :), ?_, ?_⟩
            · intro d hd
              refine ⟨_, (core_chans hcore) ▸ mem_updChan.2 ⟨d, hd, rfl⟩, ?_⟩
              split
              · rename_i he
                refine ⟨rfl, .inr ?_⟩
                have := chan_eq_of_ref hb.ch hd hcm he
                subst this
                exact ⟨channelSearch_case hc, hlen, hmay, rfl⟩
              · exact ⟨rfl, .inl rfl⟩
            · intro d hd
              rw [core_chans hcore] at hd
              obtain ⟨b, hb'', rfl⟩ := mem_updChan.1 hd
              refine ⟨b, hb'', ?_⟩
              split
              · rename_i he
                refine ⟨rfl, .inr ?_⟩
                have := chan_eq_of_ref hb.ch hb'' hcm he
                subst this
                exact ⟨channelSearch_case hc, hlen, hmay, rfl⟩
              · exact ⟨rfl, .inl rfl⟩
  · obtain ⟨o, r, e, -⟩ := ha
    exact triv _ (by rw [e]; rfl)

/-- **C48** Conversely: a user that may change the topic of the channel it names does so. -/
theorem C48_effect (h : PoliteRun s) (hr : Received s i l cl req) (his : Is req "TOPIC")
    (hty : (s.cl cl).type = .user) (rnd : Int) (hargs : req.argv.length = 2) {c : Chan} (hc : c ∈ s.chans)
    (hname : SameCase c.name (req.arg 0)) (hmay : MayTopic s cl c) (hlen : (req.arg 1).length < COMMAND_LEN) :
    ∃ d ∈ (step s (.line i rnd l)).chans, SameButTopic c d ∧ d.topic = req.arg 1 := by
  have hb := h.reachable.base
  have hst : step s (.line i rnd l) = (ircTOPIC (s.roll rnd) cl req).1 :=
    step_do hr rnd his rfl (by rw [hty]; rfl) (by
      simp only [Command.argcOk, Bool.and_eq_true, decide_eq_true_eq, Request.argc, hargs]; decide)
  obtain ⟨hmem, href, -, -⟩ := hr.owner hb
  have hg : getSender (s.roll rnd) cl req = .ok cl := by
    simp only [getSender, roll_cl, hty]; rfl
  have hs2 : channelSearch (s.roll rnd) (req.arg 0) = some c := (C13_channel_lookup h _ c).2 ⟨hc, hname⟩
  have hb' : Base (s.roll rnd) := Base.of_core (s := s) rfl hb
  have key : ∃ t, (ircTOPIC (s.roll rnd) cl req).1 = topicSet (s.roll rnd) cl cl c (req.arg 0) t ∧ t = req.arg 1 := by
    refine ⟨_, ?_, rfl⟩
    simp only [ircTOPIC, hg, hs2]
    rw [if_neg, if_neg, if_neg]
    · intro hp
      rw [Bool.and_eq_true] at hp
      have ht : 't' ∈ c.modes := by simpa [Chan.hasMode, hasChar_iff] using hp.1
      have := (topicPower_iff hb' (s := s.roll rnd) hty hmem href c.ref).2 (hmay.power ht)
      rw [this] at hp; exact absurd hp.2 (by decide)
    · simp only [Request.argc, hargs]; decide
    · intro hp
      have : (isMemberOf (s.roll rnd) c.ref cl || (s.conf.operCanMode && (s.cl cl).hasMode 'o')) = true := by
        rw [Bool.or_eq_true]
        rcases hmay.on with g | g
        · exact .inl (isMemberOf_iff.2 g)
        · exact .inr (by rw [Bool.and_eq_true]; exact ⟨g.2, hasMode_iff.2 ((umode_cl hb hmem href).2 g.1)⟩)
      rw [roll_cl, hty, roll_conf] at hp
      revert this hp
      cases isMemberOf (s.roll rnd) c.ref cl <;> cases (s.conf.operCanMode && (s.cl cl).hasMode 'o') <;> decide
  obtain ⟨t, hk, rfl⟩ := key
  rw [hst, hk]
  obtain ⟨who, hcore⟩ := topicSet_core (s.roll rnd) cl cl c (req.arg 0) (req.arg 1)
  refine ⟨_, (core_chans hcore) ▸ mem_updChan.2 ⟨c, hc, rfl⟩, ?_⟩
  rw [if_pos rfl]
  exact ⟨rfl, if_pos hlen⟩

/-! ## Cases -/

/-- Alice sets a topic. -/
example : ∃ req, PoliteRun Sample.s4 ∧ Received Sample.s4 5 "TOPIC #C :hello, world".toList 3 req ∧
    Is req "TOPIC" ∧ (Sample.s4.cl 3).type = .user ∧ req.argv.length = 2 ∧ Sample.s4.chan 5 ∈ Sample.s4.chans ∧
    SameCase (Sample.s4.chan 5).name (req.arg 0) ∧ MayTopic Sample.s4 3 (Sample.s4.chan 5) ∧
    (req.arg 1).length < COMMAND_LEN ∧
    ((step Sample.s4 (.line 5 0 "TOPIC #C :hello, world".toList)).chan 5).topic = "hello, world".toList :=
  ⟨⟨none, "TOPIC".toList, ["#C".toList, "hello, world".toList]⟩,
    Sample.fine_s4.mono (fun _ h => h.1) (fun _ _ h => h.1), recv_sound (by decide +kernel),
    by simp only [Is]; decide, by decide +kernel, by decide, by decide +kernel,
    (caseEq_same _ _).1 (by decide +kernel),
    ⟨.inl (by decide +kernel), fun _ => .inr (.inr (.inl (by simp only [HasRank]; decide +kernel)))⟩,
    by decide, by decide +kernel⟩

/-- With `+t` set, Bob cannot change it. -/
example : ∃ req, Reachable (Sample.lines Sample.s4 5 ["MODE #c +t", "TOPIC #c first"]) ∧
    Received (Sample.lines Sample.s4 5 ["MODE #c +t", "TOPIC #c first"]) 6 "TOPIC #c second".toList 4 req ∧
    Is req "TOPIC" ∧ ((Sample.lines Sample.s4 5 ["MODE #c +t", "TOPIC #c first"]).cl 4).type = .user ∧
    ¬ MayTopic (Sample.lines Sample.s4 5 ["MODE #c +t", "TOPIC #c first"]) 4
      ((Sample.lines Sample.s4 5 ["MODE #c +t", "TOPIC #c first"]).chan 5) ∧
    ((step (Sample.lines Sample.s4 5 ["MODE #c +t", "TOPIC #c first"]) (.line 6 0 "TOPIC #c second".toList)).chan
      5).topic = "first".toList :=
  ⟨⟨none, "TOPIC".toList, ["#c".toList, "second".toList]⟩, Sample.reach_lines Sample.reach_s4 _ _ (by decide +kernel),
    recv_sound (by decide +kernel), by simp only [Is]; decide, by decide +kernel,
    fun h => by
      have := h.power (by decide +kernel)
      simp only [HasUMode, HasRank] at this
      exact absurd this (by decide +kernel), by decide +kernel⟩

/-- Somebody leaving keeps the topic. -/
example : Reachable Sample.s4 ∧ (∀ conf, Event.line 6 0 "PART #c".toList ≠ .rehash conf) ∧
    (∀ r, SentBy Sample.s4 (.line 6 0 "PART #c".toList) r → (Sample.s4.cl r).type ≠ .server ∧
      ¬ Sends Sample.s4 (.line 6 0 "PART #c".toList) r "TOPIC") ∧
    (∃ c ∈ Sample.s4.chans, ∃ d ∈ (step Sample.s4 (.line 6 0 "PART #c".toList)).chans, d.ref = c.ref ∧ c.ref = 5) := by
  have hr : Received Sample.s4 6 "PART #c".toList 4 ⟨none, "PART".toList, ["#c".toList]⟩ :=
    recv_sound (by decide +kernel)
  refine ⟨Sample.reach_s4, (by intro _ h; cases h), fun r h => ?_, by decide +kernel⟩
  cases hr.sentBy_eq Sample.reach_s4.base h
  refine ⟨by decide +kernel, fun h => ?_⟩
  have := (hr.sends_is h); simp only [Is] at this; exact absurd this (by decide)

end Ngircd
