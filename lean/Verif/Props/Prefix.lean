import Verif.Lemmas.Under

/-!
# C10: commands cannot be sent in someone else's name
-/

set_option linter.unusedSimpArgs false

namespace Ngircd
open Spec

variable {s t u : Srv} {i cl : Nat} {l : Str} {req : Request} {p : Str}

theorem Spec.Owner.conn (hb : Base s) (h : Owner s i cl) : ∃ k, s.conn? i = some k ∧ k.client = cl := by
  obtain ⟨k, hk, h1, h2⟩ := h
  obtain ⟨c, hc, e1, e2⟩ := hb.cl.connCl k hk
  obtain ⟨k', hk', e3⟩ := conn?_of_mem hb.cl hc (e2.trans (congrArg some h1))
  exact ⟨k', hk', by rw [e3, e1, h2]⟩

theorem isRegistered_iff {c : Client} : isRegistered c.type = true ↔ Registered c := by
  simp only [isRegistered, Registered]
  cases c.type <;> decide

/-- The three outcomes of a line with a prefix on a registered connection. -/
theorem prefix_cases (hb : Base s) (ho : Owner s i cl) (hreg : Registered (s.cl cl))
    (hp : parseRequest s.conf.scrubCTCP l = .request req) (hpre : req.prefix? = some p) (rnd : Int) :
    (∃ c, clientSearch s p = some c ∧ Behind s i c ∧ Received s i l cl req) ∨
    (clientSearch s p = none ∧ Unchanged s (step s (.line i rnd l)) ∧
      ∀ req', ¬ Received s i l cl req') ∨
    (∃ c k, clientSearch s p = some c ∧ ¬ Behind s i c ∧ s.conn? i = some k ∧ k.client = cl ∧
      (∀ req', ¬ Received s i l cl req') ∧
      step s (.line i rnd l) = if (s.cl cl).type = .server then { s with rnd := rnd }
        else connClose { s with rnd := rnd } i (some "Spoofed prefix".toList) true) := by
  obtain ⟨k, hk, rfl⟩ := ho.conn hb
  obtain ⟨g1, g2, g3, g4⟩ := conn?_mem hb.cl hk
  have hr : isRegistered (s.cl k.client).type = true := isRegistered_iff.2 hreg
  have hnr : ∀ t', validatePrefix s i k.client req = .drop t' false ∨ validatePrefix s i k.client req = .drop t' true →
      ∀ req', ¬ Received s i l k.client req' := by
    rintro t' ht req' ⟨k', req0, e1, e2, e3, e4⟩
    rw [hp] at e3; injection e3 with e3; subst e3
    rcases ht with ht | ht <;> (rw [ht] at e4; cases e4)
  have hstep : ∀ v, validatePrefix { s with rnd := rnd } i k.client req = .drop v false ∨
      validatePrefix { s with rnd := rnd } i k.client req = .drop v true → step s (.line i rnd l) = v := by
    intro v hv
    simp only [step]
    rw [if_pos (by rw [hk]; rfl)]
    have hk' : ({ s with rnd := rnd } : Srv).conn? i = some k := hk
    simp only [handleLine, hk']
    rw [hp]
    rcases hv with hv | hv <;> (simp only; rw [hv])
  have hcs : clientSearch { s with rnd := rnd } p = clientSearch s p := rfl
  have hcl : ({ s with rnd := rnd } : Srv).cl k.client = s.cl k.client := rfl
  cases hs : clientSearch s p with
  | none =>
    right; left
    refine ⟨rfl, ?_, ?_⟩
    · have : ∃ v, validatePrefix { s with rnd := rnd } i k.client req = .drop v false ∧ Unchanged s v := by
        simp only [validatePrefix, hpre, hcl, hr, hcs, hs]
        simp only [Bool.not_true, Bool.false_eq_true, if_false]
        split
        · exact ⟨_, rfl, [_], _, _, rfl⟩
        · exact ⟨_, rfl, unch_rnd s rnd⟩
      obtain ⟨v, hv, hu⟩ := this
      rw [hstep v (.inl hv)]; exact hu
    · have : ∃ v, validatePrefix s i k.client req = .drop v false := by
        simp only [validatePrefix, hpre, hr, hs]
        simp only [Bool.not_true, Bool.false_eq_true, if_false]
        split
        · exact ⟨_, rfl⟩
        · exact ⟨_, rfl⟩
      obtain ⟨v, hv⟩ := this
      exact hnr v (.inl hv)
  | some c =>
    have hc := clientSearch_mem hs
    have hiff := nextHop_iff hb g3 hc
    by_cases hn : (nextHop s c).ref = k.client
    · left
      refine ⟨c, rfl, hiff.1 hn, k, req, hk, rfl, hp, ?_⟩
      simp only [validatePrefix, hpre, hr, hs]
      simp only [Bool.not_true, Bool.false_eq_true, if_false]
      rw [if_neg (by simpa using hn)]
    · right; right
      refine ⟨c, k, rfl, fun h => hn (hiff.2 h), hk, rfl, ?_, ?_⟩
      · have : ∃ v b, validatePrefix s i k.client req = .drop v b := by
          simp only [validatePrefix, hpre, hr, hs]
          simp only [Bool.not_true, Bool.false_eq_true, if_false]
          rw [if_pos (by simpa using hn)]
          split
          · exact ⟨_, _, rfl⟩
          · exact ⟨_, _, rfl⟩
        obtain ⟨v, b, hv⟩ := this
        exact hnr v (by cases b; exact .inl hv; exact .inr hv)
      · have hn' : (nextHop { s with rnd := rnd } c).ref ≠ k.client := by
          rw [nextHop_core (t := { s with rnd := rnd }) (s := s) rfl c]; exact hn
        by_cases hty : (s.cl k.client).type = .server
        · rw [if_pos hty]
          refine hstep _ (.inl ?_)
          simp only [validatePrefix, hpre, hcl, hr, hcs, hs]
          simp only [Bool.not_true, Bool.false_eq_true, if_false]
          rw [if_pos hn', if_neg (by simpa using hty)]
        · rw [if_neg hty]
          refine hstep _ (.inr ?_)
          simp only [validatePrefix, hpre, hcl, hr, hcs, hs]
          simp only [Bool.not_true, Bool.false_eq_true, if_false]
          rw [if_pos hn', if_pos (by simpa using hty)]

theorem search_name {s : Srv} {p : Str} {c : Client} (h : clientSearch s p = some c) :
    SameCase c.id (nickPart p) := by
  have := List.find?_some h
  simp only [Bool.and_eq_true, nickPart_eq] at this
  exact (caseEq_same _ _).1 this.2

/-- **C10** A request handed on with a prefix names a client reached through the connection it
came from. -/
theorem C10_prefix_behind (h : Reachable s) (hr : Received s i l cl req) (hpre : req.prefix? = some p) :
    ∃ c ∈ s.clients, SameCase c.id (nickPart p) ∧ Behind s i c := by
  have hb := h.base
  obtain ⟨g1, g2, g3, g4⟩ := hr.owner hb
  obtain ⟨k, req0, hk, rfl, hp, hv⟩ := hr
  simp only [validatePrefix] at hv
  split at hv
  · rename_i hnone
    split at hv
    · cases hv
    · injection hv with hv; subst hv; rw [hnone] at hpre; cases hpre
  · rename_i q hq
    split at hv
    · injection hv with hv; subst hv; cases hpre
    · split at hv
      · split at hv <;> cases hv
      · rename_i c hc
        split at hv
        · split at hv <;> cases hv
        · rename_i hn
          injection hv with hv; subst hv
          rw [hq] at hpre; injection hpre with hpre; subst hpre
          have hm := clientSearch_mem hc
          exact ⟨c, hm, search_name hc, (nextHop_iff hb g3 hm).1 (by simpa using hn)⟩

example : Reachable Sample.s5 ∧ ∃ req p, req.prefix? = some p ∧
    Received Sample.s5 7 ":zed PRIVMSG #c :hi".toList 6 req :=
  ⟨Sample.reach_s5, ⟨some "zed".toList, "PRIVMSG".toList, ["#c".toList, "hi".toList]⟩, "zed".toList, rfl,
    recv_sound (by decide +kernel)⟩

/-- **C10** As long as peers follow the server protocol, the prefix of a user's request names
the user itself. -/
theorem C10_user_prefix (h : PoliteRun s) (hr : Received s i l cl req) (hpre : req.prefix? = some p)
    (hu : (s.cl cl).type ≠ .server) : SameCase (s.cl cl).id (nickPart p) ∧ clientSearch s p = some (s.cl cl) := by
  have hb := h.reachable.base
  obtain ⟨c, hc, hn, hbe⟩ := C10_prefix_behind h.reachable hr hpre
  obtain ⟨g1, g2, g3, g4⟩ := hr.owner hb
  have hu' := (behind_iff_under hb (polite_kind h) g1 g3 hc).1 hbe
  have hcc : c = s.cl cl := by
    rw [g2] at hu'
    clear hbe hn
    induction hu' with
    | self h1 h2 => exact hb.cl.ord.eq_of_ref h1 g1 (by rw [h2, g2])
    | child h1 h2 h3 h4 h5 ih =>
      have := ih h2.mem
      rw [this] at h3; exact absurd h3 hu
  subst hcc
  refine ⟨hn, ?_⟩
  -- the name was looked up
  obtain ⟨k, req0, hk, e2, hp, hv⟩ := hr
  simp only [validatePrefix] at hv
  split at hv
  · rename_i hnone
    split at hv
    · cases hv
    · injection hv with hv; subst hv; rw [hnone] at hpre; cases hpre
  · rename_i q hq
    split at hv
    · injection hv with hv; subst hv; cases hpre
    · split at hv
      · cases hv
      · rename_i d hd
        split at hv
        · cases hv
        · injection hv with hv; subst hv
          rw [hq] at hpre; injection hpre with hpre; subst hpre
          rw [hd]
          have hdn := search_name hd
          have hi := (C13_lookup h q d).1 hd
          have := C12_names_unique h _ hi.1 _ hc hi.2.1 ((sameCase_iff _ _).2 (((sameCase_iff _ _).1 hdn).trans ((sameCase_iff _ _).1 hn).symm))
          rw [this]

example : PoliteRun Sample.s5 ∧ ∃ req p, req.prefix? = some p ∧ (Sample.s5.cl 3).type ≠ .server ∧
    Received Sample.s5 5 ":ALICE!x@y PRIVMSG #c :hi".toList 3 req :=
  ⟨polite_s5, ⟨some "ALICE!x@y".toList, "PRIVMSG".toList, ["#c".toList, "hi".toList]⟩, "ALICE!x@y".toList, rfl,
    by decide +kernel, recv_sound (by decide +kernel)⟩

/-- **C10** A user or service that sends a request in the name of a client that is not reached
through its connection is disconnected: the connection is closed and the client removed, with
what depends on it; every other client stays. -/
theorem C10_spoofing_user (h : Reachable s) (ho : Owner s i cl) (hreg : Registered (s.cl cl))
    (hns : (s.cl cl).type ≠ .server) (hp : parseRequest s.conf.scrubCTCP l = .request req)
    (hpre : req.prefix? = some p) (hne : nickPart p ≠ [])
    (hex : ∃ c ∈ s.clients, SameCase c.id (nickPart p))
    (hnb : ∀ c ∈ s.clients, SameCase c.id (nickPart p) → ¬ Behind s i c) (rnd : Int) :
    (∀ r, ¬ Owner (step s (.line i rnd l)) i r) ∧ (∀ c ∈ (step s (.line i rnd l)).clients, c.ref ≠ cl) ∧
    (∀ c, c ∈ (step s (.line i rnd l)).clients ↔ c ∈ s.clients ∧ ¬ Under s cl c) ∧
    (∀ req', ¬ Received s i l cl req') := by
  have hb := h.base
  rcases prefix_cases hb ho hreg hp hpre rnd with ⟨c, h1, h2, h3⟩ | ⟨h1, h2⟩ | ⟨c, k, h1, h2, h3, h4, h5, h6⟩
  · exact absurd h2 (hnb c (clientSearch_mem h1) (search_name h1))
  · obtain ⟨c, hc, hcn⟩ := hex
    rw [C13_hash_irrelevant h p hne] at h1
    have := List.find?_eq_none.1 h1 c hc
    exact absurd ((caseEq_same _ _).2 hcn) this
  · rw [if_neg hns] at h6
    have hb' : Base { s with rnd := rnd } := Base.of_core (s := s) rfl hb
    have hk' : ({ s with rnd := rnd } : Srv).conn? i = some k := h3
    have hG := connClose_gone hb' hk' (some "Spoofed prefix".toList) true
    have hcl : ∀ c, c ∈ (step s (.line i rnd l)).clients ↔ c ∈ s.clients ∧ ¬ Under s cl c := by
      intro c
      rw [h6, hG.clients]
      have : Under ({ s with rnd := rnd } : Srv) k.client c ↔ Under s cl c := by
        rw [h4]
        exact under_congr (t := { s with rnd := rnd }) (s := s) rfl
      rw [this]
    refine ⟨?_, ?_, hcl, h5⟩
    · rintro r ⟨k', hk1, hk2, -⟩
      have hb2 : Base (step s (.line i rnd l)) := by
        rw [h6]; exact (Steps.connClose (x := { peer := True }) hb' (fun _ _ => .inl trivial) _ _).base hb'
      obtain ⟨c', hc', e1, e2⟩ := hb2.cl.connCl k' hk1
      have hm := (hcl c').1 hc'
      obtain ⟨g1, g2, g3, g4⟩ := conn?_mem hb.cl h3
      have := conn_owner hb hm.1 g1 (e2.trans (congrArg some hk2)) g3
      exact hm.2 (.self hm.1 (by rw [this, g2, h4]))
    · intro c hc he
      have hm := (hcl c).1 hc
      exact hm.2 (.self hm.1 he)

example : ∃ req p, Reachable Sample.s5 ∧ Owner Sample.s5 5 3 ∧ Registered (Sample.s5.cl 3) ∧
    (Sample.s5.cl 3).type ≠ .server ∧
    parseRequest Sample.s5.conf.scrubCTCP ":bob QUIT :bye".toList = .request req ∧ req.prefix? = some p ∧
    nickPart p ≠ [] ∧ (∃ c ∈ Sample.s5.clients, SameCase c.id (nickPart p)) ∧
    (∀ c ∈ Sample.s5.clients, SameCase c.id (nickPart p) → ¬ Behind Sample.s5 5 c) := by
  refine ⟨⟨some "bob".toList, "QUIT".toList, ["bye".toList]⟩, "bob".toList, Sample.reach_s5, ?_, ?_, ?_, ?_, rfl, ?_, ?_, ?_⟩
  · simp only [Owner]; decide +kernel
  · simp only [Registered]; decide +kernel
  · decide +kernel
  · exact parsesTo_sound (by decide +kernel)
  · decide +kernel
  · refine ⟨Sample.s5.cl 4, by decide +kernel, ?_⟩
    exact (caseEq_same _ _).1 (by decide +kernel)
  · intro c hc hn hbe
    have h4 : c.conn = some 6 := by
      have h1 : caseEq c.id (nickPart "bob".toList) = true := (caseEq_same _ _).2 hn
      have : ∀ c ∈ Sample.s5.clients, caseEq c.id (nickPart "bob".toList) = true → c.conn = some 6 := by
        decide +kernel
      exact this c hc h1
    have h6 := h4
    cases hbe with
    | direct h => rw [h6] at h; exact absurd h (by decide)
    | via h => rw [h6] at h; cases h

/-- **C10** A request of a server link in the name of a client not reached through that link is
ignored without a trace. -/
theorem C10_spoofing_server (h : Reachable s) (ho : Owner s i cl) (hs : (s.cl cl).type = .server)
    (hp : parseRequest s.conf.scrubCTCP l = .request req)
    (hpre : req.prefix? = some p)
    (hnb : ∀ c ∈ s.clients, SameCase c.id (nickPart p) → ¬ Behind s i c) (rnd : Int) :
    Unchanged s (step s (.line i rnd l)) ∧ (∀ req', ¬ Received s i l cl req') := by
  rcases prefix_cases h.base ho (.inr (.inl hs)) hp hpre rnd with ⟨c, h1, h2, h3⟩ | ⟨h1, h2, h3⟩ | ⟨c, k, h1, h2, h3, h4, h5, h6⟩
  · exact absurd h2 (hnb c (clientSearch_mem h1) (search_name h1))
  · exact ⟨h2, h3⟩
  · rw [if_pos hs] at h6
    rw [h6]
    exact ⟨unch_rnd s rnd, h5⟩

example : ∃ req p, Reachable Sample.s5 ∧ Owner Sample.s5 7 6 ∧ (Sample.s5.cl 6).type = .server ∧
    parseRequest Sample.s5.conf.scrubCTCP ":bob QUIT :bye".toList = .request req ∧ req.prefix? = some p ∧
    (∀ c ∈ Sample.s5.clients, SameCase c.id (nickPart p) → ¬ Behind Sample.s5 7 c) := by
  refine ⟨⟨some "bob".toList, "QUIT".toList, ["bye".toList]⟩, "bob".toList, Sample.reach_s5, ?_, ?_, ?_, rfl, ?_⟩
  · simp only [Owner]; decide +kernel
  · decide +kernel
  · exact parsesTo_sound (by decide +kernel)
  · intro c hc hn hbe
    have h4 : c.conn = some 6 := by
      have h1 : caseEq c.id (nickPart "bob".toList) = true := (caseEq_same _ _).2 hn
      have : ∀ c ∈ Sample.s5.clients, caseEq c.id (nickPart "bob".toList) = true → c.conn = some 6 := by
        decide +kernel
      exact this c hc h1
    have h6 := h4
    cases hbe with
    | direct h => rw [h6] at h; exact absurd h (by decide)
    | via h => rw [h6] at h; cases h

/-- **C10** A request in the name of a client that does not exist changes nothing. -/
theorem C10_unknown_prefix (h : Reachable s) (ho : Owner s i cl) (hreg : Registered (s.cl cl))
    (hp : parseRequest s.conf.scrubCTCP l = .request req)
    (hpre : req.prefix? = some p)
    (hex : ∀ c ∈ s.clients, ¬ SameCase c.id (nickPart p)) (rnd : Int) :
    Unchanged s (step s (.line i rnd l)) ∧ (∀ req', ¬ Received s i l cl req') := by
  rcases prefix_cases h.base ho hreg hp hpre rnd with ⟨c, h1, h2, h3⟩ | ⟨h1, h2, h3⟩ | ⟨c, k, h1, h2, h3, h4, h5, h6⟩
  · exact absurd (search_name h1) (hex c (clientSearch_mem h1))
  · exact ⟨h2, h3⟩
  · exact absurd (search_name h1) (hex c (clientSearch_mem h1))

example : ∃ req p, Reachable Sample.s5 ∧ Owner Sample.s5 5 3 ∧ Registered (Sample.s5.cl 3) ∧
    parseRequest Sample.s5.conf.scrubCTCP ":carol QUIT :bye".toList = .request req ∧ req.prefix? = some p ∧
    ∀ c ∈ Sample.s5.clients, ¬ SameCase c.id (nickPart p) := by
  refine ⟨⟨some "carol".toList, "QUIT".toList, ["bye".toList]⟩, "carol".toList, Sample.reach_s5, ?_, ?_, ?_, rfl, ?_⟩
  · simp only [Owner]; decide +kernel
  · simp only [Registered]; decide +kernel
  · exact parsesTo_sound (by decide +kernel)
  · intro c hc hn
    have : ∀ c ∈ Sample.s5.clients, ¬ caseEq c.id (nickPart "carol".toList) = true := by decide +kernel
    exact this c hc ((caseEq_same _ _).2 hn)

/-- **C10** A request in the name of the only client called so, reached through the connection,
is handed on as it is. -/
theorem C10_accepted (h : Reachable s) (ho : Owner s i cl) (hreg : Registered (s.cl cl))
    (hp : parseRequest s.conf.scrubCTCP l = .request req) (hpre : req.prefix? = some p) (hne : nickPart p ≠ [])
    (hex : ∃ c ∈ s.clients, SameCase c.id (nickPart p))
    (hall : ∀ c ∈ s.clients, SameCase c.id (nickPart p) → Behind s i c) : Received s i l cl req := by
  rcases prefix_cases h.base ho hreg hp hpre 0 with ⟨c, h1, h2, h3⟩ | ⟨h1, h2, h3⟩ | ⟨c, k, h1, h2, h3, h4, h5, h6⟩
  · exact h3
  · obtain ⟨c, hc, hcn⟩ := hex
    rw [C13_hash_irrelevant h p hne] at h1
    have := List.find?_eq_none.1 h1 c hc
    exact absurd ((caseEq_same _ _).2 hcn) this
  · exact absurd (hall c (clientSearch_mem h1) (search_name h1)) h2

example : ∃ req p, Reachable Sample.s5 ∧ Owner Sample.s5 7 6 ∧ Registered (Sample.s5.cl 6) ∧
    parseRequest Sample.s5.conf.scrubCTCP ":zed PART #c".toList = .request req ∧ req.prefix? = some p ∧
    nickPart p ≠ [] ∧ (∃ c ∈ Sample.s5.clients, SameCase c.id (nickPart p)) ∧
    (∀ c ∈ Sample.s5.clients, SameCase c.id (nickPart p) → Behind Sample.s5 7 c) := by
  refine ⟨⟨some "zed".toList, "PART".toList, ["#c".toList]⟩, "zed".toList, Sample.reach_s5, ?_, ?_, ?_, rfl, ?_, ?_, ?_⟩
  · simp only [Owner]; decide +kernel
  · simp only [Registered]; decide +kernel
  · exact parsesTo_sound (by decide +kernel)
  · decide +kernel
  · exact ⟨Sample.s5.cl 7, by decide +kernel, (caseEq_same _ _).1 (by decide +kernel)⟩
  · intro c hc hn
    have h4 : c.conn = none ∧ (Sample.s5.cl 6).ref = c.introducer := by
      have h1 : caseEq c.id (nickPart "zed".toList) = true := (caseEq_same _ _).2 hn
      have : ∀ c ∈ Sample.s5.clients, caseEq c.id (nickPart "zed".toList) = true →
          c.conn = none ∧ (Sample.s5.cl 6).ref = c.introducer := by
        decide +kernel
      exact this c hc h1
    exact .via (p := Sample.s5.cl 6) h4.1 (by decide +kernel) h4.2 (.direct (by decide +kernel))

end Ngircd
