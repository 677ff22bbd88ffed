import Verif.Lemmas.Trace
import Verif.Lemmas.Reply
import Verif.Props.Match
import Verif.Props.Oper

/-!
# C25, C26: user modes
-/

set_option linter.unusedSimpArgs false

namespace Ngircd
open Spec

variable {s t u : Srv} {i cl : Nat} {l : Str} {req : Request} {e : Event}

/-- What the context of an event says. -/
theorem evCtx_facts (s : Srv) (e : Event) :
    let x := evCtx s e True True
    (x.peer → ∃ r, SentBy s e r ∧ (s.cl r).type = .server) ∧
    (x.fresh → ∃ r, SentBy s e r ∧ (s.cl r).type ≠ .user) ∧
    (∀ r, r ≠ 0 → r = x.cl → SentBy s e r) ∧
    (∀ n : String, n.toList ≠ [] → x.is n → Sends s e x.cl n) ∧
    (x.newConf = none ∨ ¬ x.fresh) := by
  have hnil : ∀ n : String, n.toList ≠ [] → caseEq [] n.toList = true → False := by
    intro n hn h
    rw [caseEq_iff] at h
    apply hn
    simpa [lowerStr] using h
  cases e with
  | line i rnd l =>
    cases hk : s.conn? i with
    | none =>
      simp only [evCtx, hk]
      exact ⟨False.elim, False.elim, fun r h h' => absurd h' h,
        fun n hn h => absurd (hnil n hn h) id, .inl trivial⟩
    | some k =>
      have hk' : k ∈ s.conns ∧ k.idx = i := by
        have h2 := List.find?_some hk
        exact ⟨List.mem_of_find?_eq_some hk, by simpa using h2⟩
      cases hp : parseRequest s.conf.scrubCTCP l with
      | request req =>
        simp only [evCtx, hk, hp]
        have hs : SentBy s (.line i rnd l) k.client := ⟨i, rnd, l, rfl, k, hk'.1, hk'.2, rfl⟩
        exact ⟨fun h => ⟨_, hs, h⟩, fun h => ⟨_, hs, h⟩, fun r _ h => h ▸ hs,
          fun n _ h => ⟨i, rnd, l, req, rfl, ⟨k, hk'.1, hk'.2, rfl⟩, hp, h⟩, .inl trivial⟩
      | _ =>
        simp only [evCtx, hk, hp]
        exact ⟨False.elim, False.elim, fun r h h' => absurd h' h,
          fun n hn h => absurd (hnil n hn h) id, .inl trivial⟩
  | rehash conf =>
    simp only [evCtx]
    exact ⟨False.elim, False.elim, fun r h h' => absurd h' h,
      fun n hn h => absurd (hnil n hn h) id, .inr id⟩
  | _ =>
    simp only [evCtx]
    exact ⟨False.elim, False.elim, fun r h h' => absurd h' h,
      fun n hn h => absurd (hnil n hn h) id, .inl trivial⟩

theorem step_steps_any (hb : Base s) (e : Event) : Steps (Okay (evCtx s e True True)) s (step s e) :=
  step_steps hb (.inl trivial) (.inl trivial) (.inl trivial)

theorem conn_of_idx (hi : ClInv s) {k k' : Conn} (h : k ∈ s.conns) (h' : k' ∈ s.conns) (he : k.idx = k'.idx) :
    k = k' := by
  have hinj : ∀ l : List Conn, (l.map Conn.idx).Nodup → ∀ a ∈ l, ∀ b ∈ l, a.idx = b.idx → a = b := by
    intro l
    induction l with
    | nil => intro _ a ha; cases ha
    | cons c l ih =>
      intro hn a ha b hb hab
      simp only [List.map_cons, List.nodup_cons, List.mem_map, not_exists, not_and] at hn
      rcases List.mem_cons.1 ha with h1 | h1 <;> rcases List.mem_cons.1 hb with h2 | h2
      · rw [h1, h2]
      · exact absurd (h1 ▸ hab.symm) (hn.1 b h2)
      · exact absurd (h2 ▸ hab) (hn.1 a h1)
      · exact ih hn.2 a h1 b h2 hab
  exact hinj _ hi.idx k h k' h' he

/-- **C25** Where a user mode comes from, whatever happens: the client had it before, a server
link has set it, it is one of the default modes given at registration, or the client itself has
set it with a line of its own.  A client itself can get operator status only by OPER, the away
flag only by AWAY, the modes of operators only when it is (or just becomes) one, and the
"registered nick" flag not at all. -/
theorem C25_modes (h : Reachable s) (e : Event) {c : Client} (hc : c ∈ (step s e).clients) {m : Char}
    (hm : m ∈ c.modes) :
    HasUMode s c.ref m ∨
    (∃ r, SentBy s e r ∧ (s.cl r).type = .server) ∨
    (m ∈ s.conf.defaultUserModes ∧ ∃ r, SentBy s e r ∧ (s.cl r).type ≠ .user) ∨
    (SentBy s e c.ref ∧
      (m ∈ "bBCiIrswx".toList ∨
       (m ∈ "cqF".toList ∧ (HasUMode s c.ref 'o' ∨ Sends s e c.ref "OPER" ∨
          ('o' ∈ s.conf.defaultUserModes ∧ (s.cl c.ref).type ≠ .user))) ∨
       (m = 'a' ∧ Sends s e c.ref "AWAY") ∨
       (m = 'o' ∧ Sends s e c.ref "OPER"))) := by
  have hb := h.base
  obtain ⟨f1, f2, f3, f4, f5⟩ := evCtx_facts s e
  have hst := step_steps_any hb e
  have hpos := (hst.base hb).cl.pos c hc
  rcases steps_modes hst hb f5 c hc m hm with g | g | g | ⟨hr, g⟩
  · exact .inl g
  · exact .inr (.inl (f1 g))
  · exact .inr (.inr (.inl ⟨g.2, f2 g.1⟩))
  · have hs := f3 c.ref (by omega) hr
    refine .inr (.inr (.inr ⟨hs, ?_⟩))
    rcases g with g | ⟨g1, g⟩ | ⟨g1, g⟩ | ⟨g1, g⟩
    · exact .inl g
    · refine .inr (.inl ⟨g1, ?_⟩)
      rcases g with g | g | g
      · exact .inl g
      · refine .inr (.inr ⟨g.2, ?_⟩)
        obtain ⟨r, ⟨i, rnd, l, he, k, hk, hki, hkr⟩, hty⟩ := f2 g.1
        obtain ⟨i', rnd', l', he', k', hk', hki', hkr'⟩ := hs
        rw [he] at he'
        injection he' with e1 _ _
        have hkk : k = k' := conn_of_idx hb.cl hk hk' (by rw [hki, hki', e1])
        rw [← hkr', ← hkk, hkr]; exact hty
      · exact .inr (.inl (hr ▸ f4 "OPER" (by decide) g))
    · exact .inr (.inr (.inl ⟨g1, hr ▸ f4 "AWAY" (by decide) g⟩))
    · exact .inr (.inr (.inr ⟨g1, hr ▸ f4 "OPER" (by decide) g⟩))

/-- **C25** A MODE command of a registered user changes only its own modes: it can give itself
no more than the harmless ones, and those of operators if it is one; and it cannot clear the
"restricted" and "registered nick" flags. -/
theorem C25_mode_command (h : Reachable s) (hr : Received s i l cl req) (his : Is req "MODE")
    (hty : (s.cl cl).type = .user) (rnd : Int) :
    (∀ c ∈ (step s (.line i rnd l)).clients, ∀ m ∈ c.modes, HasUMode s c.ref m ∨
      (c.ref = cl ∧ (m ∈ "bBCiIrswx".toList ∨ (m ∈ "cqF".toList ∧ 'o' ∈ (s.cl cl).modes)))) ∧
    (∀ c0 ∈ s.clients, ∀ c ∈ (step s (.line i rnd l)).clients, c.ref = c0.ref → ∀ m ∈ c0.modes,
      m ∈ c.modes ∨ (c.ref = cl ∧ m ≠ 'r' ∧ m ≠ 'R')) := by
  have hb := h.base
  obtain ⟨k, req0, hk, hcl, hpq, hv⟩ := hr
  subst hcl
  have hcmd := (validatePrefix_pass hv).1
  have hno : ∀ n : String, caseEq "MODE".toList n.toList = false → ¬ caseEq req0.command n.toList = true := by
    intro n hn hce
    have h1 : caseEq req0.command "MODE".toList = true := by rw [← hcmd]; exact his
    rw [caseEq_eq_of h1] at hce
    rw [hce] at hn; cases hn
  have hst := step_steps_any hb (.line i rnd l)
  have hx : evCtx s (.line i rnd l) True True =
      { cl := k.client, cmd := req0.command, argv := req0.argv,
        peer := (s.cl k.client).type = .server, bad := True, loose := True,
        fresh := (s.cl k.client).type ≠ .user, oper := (s.cl k.client).modes.contains 'o' = true } := by
    simp only [evCtx, hk, hpq]
  rw [hx] at hst
  have hnp : ¬ (s.cl k.client).type = .server := by rw [hty]; decide
  have hmem := mem_of_type (s := s) (r := k.client) (by rw [hty]; decide)
  constructor
  · intro c hc m hm
    rcases steps_modes hst hb (.inl rfl) c hc m hm with g | g | g | ⟨hr, g⟩
    · exact .inl g
    · exact absurd g hnp
    · exact absurd hty g.1
    · refine .inr ⟨hr, ?_⟩
      rcases g with g | ⟨g1, g⟩ | ⟨g1, g⟩ | ⟨g1, g⟩
      · exact .inl g
      · refine .inr ⟨g1, ?_⟩
        rcases g with ⟨c', hc', e1, e2⟩ | g | g
        · have : s.cl k.client = c' := cl_of_mem' hb.cl.ord hc' (e1.trans hr)
          rw [this]; exact e2
        · exact absurd hty g.1
        · exact absurd g (hno "OPER" (by decide))
      · exact absurd g (hno "AWAY" (by decide))
      · exact absurd g (hno "OPER" (by decide))
  · intro c0 h0 c hc he m hm
    rcases (steps_lost hst hb (.inl rfl)).1 c0 h0 c hc he m hm with g | g | g | g
    · exact .inl g
    · exact absurd g hnp
    · exact absurd hty g.1
    · exact .inr g

example : ∃ req, Reachable Sample.s5 ∧ Received Sample.s5 6 "MODE bob +ioRqw-x".toList 4 req ∧ Is req "MODE" ∧
    (Sample.s5.cl 4).type = .user ∧
    ((step Sample.s5 (.line 6 0 "MODE bob +ioRqw-x".toList)).cl 4).modes = "iw".toList :=
  ⟨⟨none, "MODE".toList, ["bob".toList, "+ioRqw-x".toList]⟩, Sample.reach_s5,
    recv_sound (by decide +kernel), by simp only [Is]; decide, by decide +kernel, by decide +kernel⟩

/-- **C26** Operator status comes from an OPER command of the client itself, from a server link,
or from the default modes configured for new users. -/
theorem C26_only_oper (h : Reachable s) (e : Event) {c : Client} (hc : c ∈ (step s e).clients)
    (hm : 'o' ∈ c.modes) (hno : ¬ HasUMode s c.ref 'o') :
    Sends s e c.ref "OPER" ∨ (∃ r, SentBy s e r ∧ (s.cl r).type = .server) ∨
    ('o' ∈ s.conf.defaultUserModes ∧ ∃ r, SentBy s e r ∧ (s.cl r).type ≠ .user) := by
  rcases C25_modes h e hc hm with g | g | g | ⟨_, g⟩
  · exact absurd g hno
  · exact .inr (.inl g)
  · exact .inr (.inr g)
  · rcases g with g | g | g | g
    · exact absurd g (by decide)
    · exact absurd g.1 (by decide)
    · exact absurd g.1 (by decide)
    · exact .inl g.2

/-- The entry of the configuration that counts for an operator name: the first one. -/
def Spec.OperEntry (conf : Conf) (name : Str) (op : ConfOper) : Prop :=
  ∃ pre post, conf.opers = pre ++ op :: post ∧ op.name = name ∧ ∀ o ∈ pre, o.name ≠ name

/-- **C26** An OPER command is answered with an error and changes nothing unless the configured
operator of exactly that name has exactly that password and a mask (if any) that matches the
client's nick!user@host. -/
theorem C26_credentials (h : Reachable s) (hr : Received s i l cl req) (his : Is req "OPER") (rnd : Int) :
    Answered i s (step s (.line i rnd l)) ∨
    ∃ op, OperEntry s.conf (req.arg 0) op ∧ op.pwd = req.arg 1 ∧ (s.cl cl).type = .user ∧
      ∀ m, op.mask = some m → Glob m (s.cl cl).mask := by
  have hb := h.base
  have ha := hr.asker hb rnd
  have hbad : Reply i (s.roll rnd) (badOperPass (s.roll rnd) cl).1 := rp_write ha.hop (rp_refl _ _)
  rcases step_run hr hb rnd his rfl with ⟨hst, hal, -, -⟩ | h
  · rw [hst]
    show Answered i s (ircOPER (s.roll rnd) cl req).1 ∨ _
    simp only [ircOPER]
    cases hf : s.conf.opers.find? (fun o => o.name == req.arg 0) with
    | none =>
      left
      simp only [roll_conf, hf]
      exact hbad.ans
    | some op =>
      simp only [roll_conf, hf]
      split
      · exact .inl hbad.ans
      · rename_i h1
        split
        · exact .inl hbad.ans
        · rename_i h2
          right
          obtain ⟨h3, pre, post, h4, h5⟩ := List.find?_eq_some_iff_append.1 hf
          refine ⟨op, ⟨pre, post, h4, by simpa using h3, ?_⟩, by simpa using h1, ?_, ?_⟩
          · intro o ho he
            have := h5 o ho
            simp [he] at this
          · simpa [CmdTypes.allows] using hal
          · intro m hm
            simp only [operMaskOk, hm] at h2
            exact C01_match_sound _ _ (by simpa using h2)
  · exact .inl h

/-- **C26** A successful OPER sets the client's operator flag and changes nothing else. -/
theorem C26_effect (h : Reachable s) (hr : Received s i l cl req) (his : Is req "OPER") (rnd : Int) :
    ∃ o f r ms, step s (.line i rnd l) = { s with
        clients := s.clients.map (fun c => if c.ref = cl then { c with modes := ms } else c),
        out := o ++ s.out, fault := f, rnd := r } ∧
      (ms = (s.cl cl).modes ∨ ms = (modeAdd (s.cl cl).modes 'o').1) := by
  have hb := h.base
  obtain ⟨g1, g2, g3, g4⟩ := hr.owner hb
  have hself : s.clients.map (fun c => if c.ref = cl then { c with modes := (s.cl cl).modes } else c) = s.clients := by
    conv => rhs; rw [← List.map_id s.clients]
    refine List.map_congr_left (fun c hc => ?_)
    split
    · rename_i hr
      rw [cl_of_mem' hb.cl.ord hc hr]; rfl
    · rfl
  have hun : ∀ t, Unchanged s t → ∃ o f r ms, t = { s with
        clients := s.clients.map (fun c => if c.ref = cl then { c with modes := ms } else c),
        out := o ++ s.out, fault := f, rnd := r } ∧
      (ms = (s.cl cl).modes ∨ ms = (modeAdd (s.cl cl).modes 'o').1) := by
    rintro t ⟨o, f, r, rfl⟩
    refine ⟨o, f, r, _, ?_, .inl rfl⟩
    rw [hself]
  have ha := hr.asker hb rnd
  rcases step_run hr hb rnd his rfl with ⟨hst, hal, -, -⟩ | h
  · rw [hst]
    show ∃ o f r ms, (ircOPER (s.roll rnd) cl req).1 = _ ∧ _
    have hset : ∀ t, OnlyOutput (clientModeAdd (s.roll rnd) cl 'o').1 t → ∃ o f r ms, t = { s with
        clients := s.clients.map (fun c => if c.ref = cl then { c with modes := ms } else c),
        out := o ++ s.out, fault := f, rnd := r } ∧
      (ms = (s.cl cl).modes ∨ ms = (modeAdd (s.cl cl).modes 'o').1) := by
      rintro t ⟨o, f, he⟩
      refine ⟨o, f, rnd, (modeAdd (s.cl cl).modes 'o').1, he.trans ?_, .inr rfl⟩
      have : (s.clients.map fun c => if c.ref = cl then { c with modes := (modeAdd c.modes 'o').1 } else c) =
          s.clients.map fun c => if c.ref = cl then { c with modes := (modeAdd (s.cl cl).modes 'o').1 } else c := by
        refine List.map_congr_left (fun c hc => ?_)
        split
        · rename_i hr'
          rw [cl_of_mem' hb.cl.ord hc hr']
        · rfl
      simp only [clientModeAdd, Srv.updCl, Srv.roll]
      rw [this]
    have hbad : OnlyOutput (s.roll rnd) (badOperPass (s.roll rnd) cl).1 := oo_write _ _ _
    simp only [ircOPER]
    split
    · exact hun _ (unch_roll hbad)
    · split
      · exact hun _ (unch_roll hbad)
      · split
        · exact hun _ (unch_roll hbad)
        · split
          · exact hset _ (((oo_write _ _ _).trans (oo_writeServers _ _ _ _)).trans (oo_write _ _ _))
          · exact hun _ (unch_roll (oo_write _ _ _))
  · exact hun _ h.unch

example : ∃ req, Reachable Sample.s5 ∧ Received Sample.s5 5 "OPER root secret".toList 3 req ∧ Is req "OPER" ∧
    'o' ∉ (Sample.s5.cl 3).modes ∧
    ((step Sample.s5 (.line 5 0 "OPER root secret".toList)).cl 3).modes = "o".toList ∧
    ((step Sample.s5 (.line 5 0 "OPER root Secret".toList)).cl 3).modes = [] ∧
    ((step Sample.s5 (.line 6 0 "OPER root secret".toList)).cl 4).modes = [] :=
  ⟨⟨none, "OPER".toList, ["root".toList, "secret".toList]⟩, Sample.reach_s5,
    recv_sound (by decide +kernel), by simp only [Is]; decide, by decide +kernel, by decide +kernel, by decide +kernel,
    by decide +kernel⟩

end Ngircd
