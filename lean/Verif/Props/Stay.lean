import Verif.Props.Conns
import Verif.Props.Kick
import Verif.Props.Kill
import Verif.Props.Join

/-!
# C55, C56: who can make a client leave the network or a channel
-/

set_option linter.unusedSimpArgs false

namespace Ngircd
open Spec

variable {s t u : Srv} {x : Ctx} {i j r ch : Nat} {c : Client} {e : Event}

/-- Introducers stay the same, except that clients become their own. -/
theorem run_intro {a : Act} (hp : Okay x t a) {d : Client} (hd : d ∈ (a.run t).clients) :
    (∃ c ∈ t.clients, c.ref = d.ref ∧ (d.introducer = c.introducer ∨ d.introducer = d.ref)) ∨ t.nextRef ≤ d.ref := by
  cases a with
  | soft r f =>
    obtain ⟨c, hc, rfl⟩ := mem_updCl.1 hd
    left
    refine ⟨c, hc, ?_⟩
    split
    · obtain ⟨h1, h2, h3, h4, h5, h6, h7, h8⟩ := hp.keeps c
      exact ⟨h1.symm, .inl h6⟩
    · exact ⟨rfl, .inl rfl⟩
  | umode r m set =>
    rw [umode_clients] at hd
    obtain ⟨c, hc, rfl⟩ := mem_updCl.1 hd
    left
    refine ⟨c, hc, ?_⟩
    split <;> exact ⟨rfl, .inl rfl⟩
  | setId r id =>
    obtain ⟨c, hc, rfl⟩ := mem_updCl.1 hd
    left
    refine ⟨c, hc, ?_⟩
    split
    · refine ⟨(setIdC_ref _ _ _).symm, .inl ?_⟩
      simp only [setIdC]; split <;> rfl
    · exact ⟨rfl, .inl rfl⟩
  | setType r ty =>
    rw [setType_clients] at hd
    obtain ⟨c, hc, rfl⟩ := mem_updCl.1 hd
    left
    refine ⟨c, hc, ?_⟩
    split
    · refine ⟨?_, .inl ?_⟩ <;> (unfold typeC; split <;> rfl)
    · exact ⟨rfl, .inl rfl⟩
  | setIntro r tok =>
    obtain ⟨c, hc, rfl⟩ := mem_updCl.1 hd
    left
    refine ⟨c, hc, ?_⟩
    split
    · rename_i hr
      exact ⟨rfl, .inr hr.symm⟩
    · exact ⟨rfl, .inl rfl⟩
  | newCl c =>
    rw [newCl_clients] at hd
    rcases List.mem_cons.1 hd with rfl | hd
    · exact .inr (Nat.le_of_eq hp.2.1.symm)
    · exact .inl ⟨d, hd, rfl, .inl rfl⟩
  | newLocal c k =>
    rw [newLocal_clients] at hd
    rcases List.mem_cons.1 hd with rfl | hd
    · exact .inr (Nat.le_of_eq hp.1.symm)
    · exact .inl ⟨d, hd, rfl, .inl rfl⟩
  | destroy c =>
    rw [destroy_run_clients] at hd
    exact .inl ⟨d, (List.mem_filter.1 hd).1, rfl, .inl rfl⟩
  | _ =>
    rw [run_clients rfl t] at hd
    exact .inl ⟨d, hd, rfl, .inl rfl⟩

theorem steps_intro (h : Steps (Okay x) s t) : ∀ d ∈ t.clients,
    (∃ c ∈ s.clients, c.ref = d.ref ∧ (d.introducer = c.introducer ∨ d.introducer = d.ref)) ∨ s.nextRef ≤ d.ref := by
  induction h with
  | refl hc => intro d hd; rw [core_clients hc] at hd; exact .inl ⟨d, hd, rfl, .inl rfl⟩
  | @tail t0 t' a h0 hp hr ih =>
    intro d hd
    rw [core_clients hr] at hd
    rcases run_intro hp hd with ⟨c, hc, h1, h2⟩ | h1
    · rcases ih c hc with ⟨c', hc', g1, g2⟩ | g
      · refine .inl ⟨c', hc', g1.trans h1, ?_⟩
        rcases h2 with h2 | h2
        · rcases g2 with g2 | g2
          · exact .inl (h2.trans g2)
          · exact .inr (h2.trans (g2.trans h1))
        · exact .inr h2
      · exact .inr (by rw [← h1]; exact g)
    · exact .inr (Nat.le_trans (steps_nextRef h0) h1)

/-- Whoever goes while a client that is no server is served depends on nobody but that client. -/
theorem steps_under (hb : Base s) (hk : KindInv s) (hns : (s.cl r).type ≠ .server) (hth : r ≠ s.this) (h : Steps (Okay x) s t)
    {c : Client} (hu : Under t r c) (hold : c.ref < s.nextRef) : c.ref = r := by
  have hbt := h.base hb
  induction hu with
  | self _ h => exact h
  | @child c p hc hup hps hi hne ih =>
    have hle := hbt.cl.intro c hc
    have hp : p.ref = r := ih (by omega)
    rcases steps_intro h c hc with ⟨c0, hc0, e1, e2⟩ | g
    · rcases e2 with e2 | e2
      · exfalso
        have hint : c0.introducer = r := by rw [← e2, hi, hp]
        cases hco : c0.conn with
        | none =>
          obtain ⟨q, hq, q1, q2⟩ := hk.intro c0 hc0 hco
          rw [← cl_of_mem' hb.cl.ord hq (q1.trans hint)] at q2
          exact hns q2
        | some j =>
          rcases hb.cl.loc c0 hc0 (by rw [hco]; rfl) with g | g
          · exact hne (by rw [← e1, ← g, hint, hp])
          · exact hth (hint.symm.trans g)
      · exact absurd (e2.symm.trans hi) hne
    · omega

/-- Who goes during an event. -/
theorem steps_gone (hb : Base s) (hk : KindInv s) (hns : x.peer ∨ (x.cl = 0) ∨ ((s.cl x.cl).type ≠ .server ∧ x.cl ≠ s.this))
    (h : Steps (Okay x) s t) (hc : c ∈ s.clients) :
    (∃ d ∈ t.clients, d.ref = c.ref) ∨ x.peer ∨ x.idle ∨ x.oper ∨ c.ref = x.cl := by
  have hlt := hb.cl.lt c hc
  induction h with
  | refl hcore => exact .inl ⟨c, by rw [core_clients hcore]; exact hc, rfl⟩
  | @tail t0 t' a h0 hp hr ih =>
    rcases ih with ⟨d, hd, e1⟩ | hr'
    · by_cases hdes : ∃ b, a = .destroy b ∧ b.ref = c.ref
      · obtain ⟨b, rfl, hbr⟩ := hdes
        right
        rcases hp.2.2 with g | g | g | g
        · exact .inl g
        · exact .inr (.inl g)
        · exact .inr (.inr (.inl g))
        · rcases hns with n | n | ⟨n1, n2⟩
          · exact .inl n
          · have hpos := (h0.base hb).cl.pos
            refine .inr (.inr (.inr ?_))
            exfalso
            rw [n] at g
            have : ∀ y, Under t0 0 y → False := by
              intro y hy
              induction hy with
              | self h1 h2 => have := hpos _ h1; omega
              | child _ _ _ _ _ ih => exact ih
            exact this _ g
          · refine .inr (.inr (.inr ?_))
            rw [← hbr]
            exact steps_under hb hk n1 n2 h0 g (by rw [hbr]; exact hlt)
      · left
        rw [core_clients hr]
        have hsome : ∃ d' ∈ (a.run t0).clients, d'.ref = d.ref := by
          cases a with
          | soft q f =>
            refine ⟨if d.ref = q then f d else d, mem_updCl.2 ⟨d, hd, rfl⟩, ?_⟩
            split
            · exact (hp.keeps d).1
            · rfl
          | umode q m set =>
            rw [umode_clients]
            refine ⟨_, mem_updCl.2 ⟨d, hd, rfl⟩, ?_⟩
            split <;> rfl
          | setId q id =>
            refine ⟨_, mem_updCl.2 ⟨d, hd, rfl⟩, ?_⟩
            split
            · exact setIdC_ref _ _ _
            · rfl
          | setType q ty =>
            rw [setType_clients]
            refine ⟨_, mem_updCl.2 ⟨d, hd, rfl⟩, ?_⟩
            split
            · unfold typeC; split <;> rfl
            · rfl
          | setIntro q tok =>
            refine ⟨_, mem_updCl.2 ⟨d, hd, rfl⟩, ?_⟩
            split <;> rfl
          | newCl b => rw [newCl_clients]; exact ⟨d, .tail _ hd, rfl⟩
          | newLocal b k => rw [newLocal_clients]; exact ⟨d, .tail _ hd, rfl⟩
          | destroy b =>
            rw [destroy_run_clients]
            refine ⟨d, List.mem_filter.2 ⟨hd, ?_⟩, rfl⟩
            simp only [bne_iff_ne]
            exact fun he => hdes ⟨b, rfl, he.symm.trans e1⟩
          | _ => rw [run_clients rfl t0]; exact ⟨d, hd, rfl⟩
        obtain ⟨d', hd', e2⟩ := hsome
        exact ⟨d', hd', e2.trans e1⟩
    · exact .inr hr'

/-- **C55** Nobody is disconnected but by linked servers, IRC operators, its own doing, or the server
itself: whoever is gone after an event was removed by a line a server or an IRC operator sent, by a
line of its own, by the loss of the connection it is reached through, or by the timeout and ban checks
of the server. -/
theorem C55_removal (h : PoliteRun s) (hc : c ∈ s.clients) (hgone : ∀ d ∈ (step s e).clients, d.ref ≠ c.ref) :
    (∃ f ∈ s.clients, SentBy s e f.ref ∧ (f.type = .server ∨ 'o' ∈ f.modes ∨ f = c)) ∨
    (∃ i reason inf, e = .lost i reason inf ∧ Behind s i c) ∨ (∃ d, e = .tick d) ∨ (∃ i host, e = .resolved i host) := by
  have hb := h.reachable.base
  have hk := polite_kind h
  have hst := step_steps_any hb e
  cases e with
  | line i rnd l =>
    left
    by_cases hkn : ∃ k req, s.conn? i = some k ∧ parseRequest s.conf.scrubCTCP l = .request req
    · obtain ⟨k, req, hki, hreq⟩ := hkn
      obtain ⟨g1, g2, g3, g4⟩ := conn?_mem hb.cl hki
      have hx : evCtx s (.line i rnd l) True True =
          { cl := k.client, cmd := req.command, argv := req.argv, peer := (s.cl k.client).type = .server,
            bad := True, loose := True, fresh := (s.cl k.client).type ≠ .user,
            oper := (s.cl k.client).modes.contains 'o' = true } := by
        simp only [evCtx, hki, hreq]
      rw [hx] at hst
      have hsent : SentBy s (.line i rnd l) k.client :=
        ⟨i, rnd, l, rfl, k, List.mem_of_find?_eq_some hki, by simpa using List.find?_some hki, rfl⟩
      refine ⟨s.cl k.client, g1, by rw [g2]; exact hsent, ?_⟩
      rcases steps_gone hb hk (by
        by_cases ht : (s.cl k.client).type = .server
        · exact .inl ht
        · exact .inr (.inr ⟨ht, g4⟩)) hst hc with ⟨d, hd, e1⟩ | hp | hp | hp | hp
      · exact absurd e1 (hgone d hd)
      · exact .inl hp
      · exact hp.elim
      · exact .inr (.inl (by simpa using hp))
      · exact .inr (.inr (cl_of_mem' hb.cl.ord hc hp))
    · exfalso
      have hx : evCtx s (.line i rnd l) True True = { bad := True, loose := True } := by
        simp only [evCtx]
        split
        · rename_i k req h1 h2; exact absurd ⟨k, req, h1, h2⟩ hkn
        · rfl
      rw [hx] at hst
      rcases steps_gone hb hk (.inr (.inl rfl)) hst hc with ⟨d, hd, e1⟩ | hp | hp | hp | hp
      · exact hgone d hd e1
      · exact hp.elim
      · exact hp.elim
      · exact hp.elim
      · have := hb.cl.pos c hc; have hp' : c.ref = 0 := hp; omega
  | lost i reason inf =>
    right; left
    refine ⟨i, reason, inf, rfl, ?_⟩
    simp only [step] at hgone
    split at hgone
    · rename_i hki
      obtain ⟨k, hki⟩ := Option.isSome_iff_exists.1 hki
      obtain ⟨g1, g2, g3, g4⟩ := conn?_mem hb.cl hki
      have hG := connClose_gone hb hki reason inf
      have hu : Under s k.client c := Classical.byContradiction (fun hn => hgone c ((hG.clients c).2 ⟨hc, hn⟩) rfl)
      exact (behind_iff_under hb hk g1 g3 hc).2 (by rw [g2]; exact hu)
    · exact absurd rfl (hgone c hc)
  | tick d => exact .inr (.inr (.inl ⟨d, rfl⟩))
  | resolved i host => exact .inr (.inr (.inr ⟨i, host, rfl⟩))
  | _ =>
    exfalso
    rcases steps_gone hb hk (.inr (.inl rfl)) hst hc with ⟨d, hd, e1⟩ | hp | hp | hp | hp
    · exact hgone d hd e1
    · exact hp.elim
    · exact hp.elim
    · exact hp.elim
    · have := hb.cl.pos c hc; have hp' : c.ref = 0 := hp; omega

/-- alice, who is no operator, can send what she wants: bob stays.  An operator's KILL removes him, and so
does the loss of his connection. -/
example : PoliteRun Sample.s5op ∧ Sample.s5op.cl 4 ∈ Sample.s5op.clients ∧
    (∀ d ∈ (step Sample.s5op (.line 5 0 "KILL bob :x".toList)).clients, d.ref ≠ (Sample.s5op.cl 4).ref) ∧
    (∀ d ∈ (step Sample.s5op (.lost 6 none true)).clients, d.ref ≠ (Sample.s5op.cl 4).ref) ∧
    (∃ d ∈ (step Sample.s5 (.line 5 0 "KILL bob :x".toList)).clients, d.ref = 4) :=
  ⟨polite_s5op, by decide +kernel, by decide +kernel, by decide +kernel, by decide +kernel⟩

/-! ## C56 -/

theorem mem_mmode {ch r : Nat} {md : Char} {set : Bool} {m : Cl2Chan} (hm : m ∈ t.cl2) :
    ∃ m' ∈ ((Act.mmode ch r md set).run t).cl2, m'.chan = m.chan ∧ m'.client = m.client := by
  cases set with
  | false =>
    refine ⟨if m.chan = ch ∧ m.client = r then { m with modes := (modeDel m.modes md).1 } else m, List.mem_map.2 ⟨m, hm, rfl⟩, ?_⟩
    split <;> exact ⟨rfl, rfl⟩
  | true =>
    refine ⟨if m.chan = ch ∧ m.client = r then { m with modes := (modeAdd m.modes md).1 } else m, List.mem_map.2 ⟨m, hm, rfl⟩, ?_⟩
    split <;> exact ⟨rfl, rfl⟩

/-- Who leaves a channel during an event. -/
theorem steps_leave (hb : Base s) (h : Steps (Okay x) s t) (ho : OnChannel s ch r) (hr : r < s.nextRef) :
    OnChannel t ch r ∨ (∀ d ∈ t.clients, d.ref ≠ r) ∨ x.peer ∨ (r = x.cl ∧ (x.is "PART" ∨ x.is "JOIN" ∨ x.fresh)) ∨ x.is "KICK" := by
  induction h with
  | refl hc => left; obtain ⟨m, hm, h1, h2⟩ := ho; exact ⟨m, by rw [core_cl2 hc]; exact hm, h1, h2⟩
  | @tail t0 t' a h0 hp hr' ih =>
    have hb0 := h0.base hb
    rcases ih with ⟨m, hm, h1, h2⟩ | hg | hg
    · by_cases hrem : a = .remove ch r
      · subst hrem
        exact .inr (.inr hp.2)
      by_cases hdes : ∃ b, a = .destroy b ∧ b.ref = r
      · obtain ⟨b, rfl, hbr⟩ := hdes
        right; left
        intro d hd
        rw [core_clients hr', destroy_run_clients] at hd
        have := (List.mem_filter.1 hd).2
        simp only [bne_iff_ne] at this
        rw [← hbr]; exact this
      left
      have hsome : ∃ m' ∈ (a.run t0).cl2, m'.chan = m.chan ∧ m'.client = m.client := by
        cases a with
        | remove ch' r' =>
          simp only [Act.run]
          rw [deleteIfEmpty_cl2]
          refine ⟨m, ?_, rfl, rfl⟩
          refine (List.mem_eraseP_of_neg ?_).2 hm
          intro hh
          simp only [Bool.and_eq_true, beq_iff_eq] at hh
          exact hrem (by rw [← hh.1, ← hh.2, h1, h2])
        | destroy b =>
          rw [destroy_cl2 hb0.ch]
          split
          · refine ⟨m, List.mem_filter.2 ⟨hm, ?_⟩, rfl, rfl⟩
            simp only [bne_iff_ne]
            exact fun he => hdes ⟨b, rfl, he.symm.trans h2⟩
          · exact ⟨m, hm, rfl, rfl⟩
        | mmode ch' r' md set => exact mem_mmode hm
        | join ch' r' => exact ⟨m, .tail _ hm, rfl, rfl⟩
        | createJoin n r' => exact ⟨m, .tail _ hm, rfl, rfl⟩
        | create n f => exact ⟨m, hm, rfl, rfl⟩
        | chSoft ch' f => exact ⟨m, hm, rfl, rfl⟩
        | chMode ch' md set => exact ⟨m, by simp only [Act.run]; split <;> exact hm, rfl, rfl⟩
        | chModes ch' md => exact ⟨m, hm, rfl, rfl⟩
        | _ => exact ⟨m, by rw [(run_chans rfl t0).2]; exact hm, rfl, rfl⟩
      obtain ⟨m', hm', e1, e2⟩ := hsome
      exact ⟨m', by rw [core_cl2 hr']; exact hm', e1.trans h1, e2.trans h2⟩
    · right; left
      intro d hd he
      rw [core_clients hr'] at hd
      rcases run_mem hp hd with ⟨c, hc, hk⟩ | ⟨g, -⟩
      · exact hg c hc (hk.ref.symm.trans he)
      · have := steps_nextRef h0; omega
    · exact .inr (.inr hg)

/-- **C56** Nobody leaves a channel but by its own PART or JOIN (JOIN 0), by a KICK, by the command of a
linked server, or by leaving the network. -/
theorem C56_leaving (h : PoliteRun s) (ho : OnChannel s ch r) (hgone : ¬ OnChannel (step s e) ch r) :
    Sends s e r "PART" ∨ Sends s e r "JOIN" ∨ (∃ f, Sends s e f "KICK") ∨ (∃ f, SentBy s e f ∧ (s.cl f).type = .server) ∨
    ∀ d ∈ (step s e).clients, d.ref ≠ r := by
  have hb := h.reachable.base
  obtain ⟨f1, f2, f3, f4, f5⟩ := evCtx_facts s e
  obtain ⟨m, hm, rfl, rfl⟩ := ho
  obtain ⟨c, hc, hcr, hct⟩ := (polite_kind h).members m hm
  have hlt := hb.cl.lt c hc
  rcases steps_leave hb (step_steps_any hb e) ⟨m, hm, rfl, rfl⟩ (by rw [← hcr]; exact hlt) with g | g | g | ⟨g, g' | g' | g'⟩ | g
  · exact absurd g hgone
  · exact .inr (.inr (.inr (.inr g)))
  · exact .inr (.inr (.inr (.inl (f1 g))))
  · exact .inl (by rw [g]; exact f4 "PART" (by decide) g')
  · exact .inr (.inl (by rw [g]; exact f4 "JOIN" (by decide) g'))
  · exfalso
    obtain ⟨e1, e2⟩ := evCtx_fresh g'
    rw [← g] at e1 e2
    obtain ⟨i, rnd, l, -, ho⟩ := e1
    obtain ⟨k, hk, k2⟩ := ho.conn hb
    obtain ⟨g1, g2, g3, -⟩ := conn?_mem hb.cl hk
    rw [k2] at g1 g2 g3
    rw [cl_of_mem' hb.cl.ord hc hcr] at e2 g1 g3
    rcases hct with h1 | h1
    · exact e2 h1
    · exact hb.cl.locSvc c hc (by rw [g3]; rfl) h1
  · exact .inr (.inr (.inl ⟨_, f4 "KICK" (by decide) g⟩))

/-- bob leaves #c by PART and by JOIN 0, is kicked by alice, is killed; he cannot kick alice. -/
example : PoliteRun Sample.s5 ∧ OnChannel Sample.s5 5 4 ∧
    (∀ l ∈ ["PART #c", "JOIN 0"], ∀ m ∈ (step Sample.s5 (.line 6 0 l.toList)).cl2, ¬ (m.chan = 5 ∧ m.client = 4)) ∧
    (∀ m ∈ (step Sample.s5 (.line 5 0 "KICK #c bob".toList)).cl2, ¬ (m.chan = 5 ∧ m.client = 4)) ∧
    (∃ m ∈ (step Sample.s5 (.line 6 0 "KICK #c alice".toList)).cl2, m.chan = 5 ∧ m.client = 3) :=
  ⟨polite_s5, ⟨⟨4, 5, []⟩, by decide +kernel, rfl, rfl⟩, by decide +kernel, by decide +kernel, by decide +kernel⟩

end Ngircd
