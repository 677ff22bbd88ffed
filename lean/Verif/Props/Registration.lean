import Verif.Lemmas.TraceReg
import Verif.Props.Registry
import Verif.Props.UserModes
import Verif.Spec.SampleHistory

/-!
# Registration

What a connection has gone through when it becomes a registered user (C15), who may change what
other clients know of a user (C53), and how capabilities come about (C39).
-/

namespace Ngircd

open Spec

variable {s t u : Srv} {e : Event} {r : Nat} {h : List (Srv × Event)}

theorem evCtx_with (s : Srv) (e : Event) (bad loose : Prop) :
    evCtx s e bad loose = { evCtx s e True True with bad := bad, loose := loose } := by
  cases e with
  | line i rnd l => simp only [evCtx]; split <;> rfl
  | _ => rfl

/-- What the context of an event of a polite run says. -/
theorem evCtx_polite (s : Srv) (e : Event) :
    let x := evCtx s e False True
    (x.peer → ∃ r, SentBy s e r ∧ (s.cl r).type = .server) ∧
    (∀ r, r ≠ 0 → r = x.cl → SentBy s e r) ∧
    (∀ n : String, n.toList ≠ [] → x.is n → Sends s e x.cl n) ∧
    (x.newConf = none ∨ ¬ x.fresh) ∧ ¬ x.bad := by
  rw [evCtx_with]
  obtain ⟨f1, f2, f3, f4, f5⟩ := evCtx_facts s e
  exact ⟨f1, f3, f4, f5, id⟩

theorem step_steps_polite (hb : Base s) (hp : PoliteEvent s e) :
    Steps (Okay (evCtx s e False True)) s (step s e) :=
  step_steps hb (.inr hp) (.inl trivial) (.inl trivial)

/-- The arguments are those of the line. -/
theorem evCtx_argv {bad loose : Prop} {n : String} (hn : n.toList ≠ []) (hx : (evCtx s e bad loose).is n) :
    ∃ i rnd l req, e = .line i rnd l ∧ Owner s i (evCtx s e bad loose).cl ∧
      parseRequest s.conf.scrubCTCP l = .request req ∧ Is req n ∧ (evCtx s e bad loose).argv = req.argv := by
  have hnil : caseEq [] n.toList = true → False := by
    intro h
    rw [caseEq_iff] at h
    apply hn
    simpa [lowerStr] using h
  cases e with
  | line i rnd l =>
    cases hk : s.conn? i with
    | none =>
      simp only [evCtx, hk] at hx
      exact absurd hx hnil
    | some k =>
      have hk' : k ∈ s.conns ∧ k.idx = i := by
        have h2 := List.find?_some hk
        exact ⟨List.mem_of_find?_eq_some hk, by simpa using h2⟩
      cases hp : parseRequest s.conf.scrubCTCP l with
      | request req =>
        simp only [evCtx, hk, hp] at hx ⊢
        exact ⟨i, rnd, l, req, rfl, ⟨k, hk'.1, hk'.2, rfl⟩, hp, hx, rfl⟩
      | _ =>
        simp only [evCtx, hk, hp] at hx
        exact absurd hx hnil
  | _ => exact absurd hx hnil

theorem Spec.History.polite (hh : History h s) : PoliteRun s := by
  induction hh with
  | start conf host now hc => exact .init conf host now hc
  | next e _ hf hp ih => exact .step e ih hf hp

theorem Spec.HasSent.later {p : Srv × Event} {n : String} (hs : HasSent h r n) : HasSent (p :: h) r n := by
  obtain ⟨q, hq, g⟩ := hs
  exact ⟨q, List.mem_cons_of_mem _ hq, g⟩

theorem Spec.SentPass.later {p : Srv × Event} {w : Str} (hs : SentPass h r w) : SentPass (p :: h) r w := by
  obtain ⟨q, hq, g⟩ := hs
  exact ⟨q, List.mem_cons_of_mem _ hq, g⟩

theorem init_reg (conf : Conf) (host : Str) (now : Nat) (N U : Nat → Prop) (W : Nat → Str → Prop) :
    TypeInv N U (Srv.init conf host now) ∧ PwdInv W (Srv.init conf host now) := by
  have hst := channelInitPredefined_steps (x := { loose := True, newConf := some conf }) rfl
    (clientInit_base conf host now) (.inl trivial)
  have hb := clientInit_base conf host now
  constructor
  · refine TypeInv.steps hst hb id (fun hx => ?_) (fun hx => ?_) ?_
    · exact absurd hx (by simp only [Ctx.is]; decide)
    · exact absurd hx (by simp only [Ctx.is]; decide)
    · intro c hc hco
      simp only [clientInit, List.mem_singleton] at hc
      rw [hc] at hco
      have : (thisServerC conf host).conn = none := by
        unfold thisServerC setInfoC setIdC
        repeat' split
        all_goals rfl
      rw [this] at hco; cases hco
  · refine PwdInv.steps hst hb (fun hx => ?_) (fun k hk => by cases hk)
    exact absurd hx (by simp only [Ctx.is]; decide)

/-- What the types of the clients and the stored passwords say about the past. -/
theorem history_inv (hh : History h s) :
    TypeInv (fun r => HasSent h r "NICK") (fun r => HasSent h r "USER") s ∧ PwdInv (fun r w => SentPass h r w) s := by
  induction hh with
  | start conf host now hc =>
    exact init_reg conf host now _ _ _
  | @next h s e hh hf hp ih =>
    have hb := hh.polite.reachable.base
    have hst := step_steps_polite hb hp
    obtain ⟨f1, f2, f3, f4, f5⟩ := evCtx_polite s e
    constructor
    · refine TypeInv.steps hst hb f5 ?_ ?_ ?_
      · exact fun hx => ⟨(s, e), List.mem_cons_self .., f3 "NICK" (by decide) hx⟩
      · exact fun hx => ⟨(s, e), List.mem_cons_self .., f3 "USER" (by decide) hx⟩
      · intro c hc hco
        obtain ⟨g1, g2, g3⟩ := ih.1 c hc hco
        exact ⟨fun h => (g1 h).later, fun h => (g2 h).later, fun h => ⟨(g3 h).1.later, (g3 h).2.later⟩⟩
    · refine PwdInv.steps hst hb ?_ ?_
      · intro hx
        obtain ⟨i, rnd, l, req, g1, g2, g3, g4, g5⟩ := evCtx_argv (by decide) hx
        exact ⟨(s, e), List.mem_cons_self .., i, rnd, l, req, g1, g2, g3, g4, by rw [g5]; rfl⟩
      · exact fun k hk => (ih.2 k hk).imp id Spec.SentPass.later

/-- **C15** A client that registers has sent NICK and USER. -/
theorem C15_commands (hh : History h s) (hf : s.fault = false) (hp : PoliteEvent s e) (hr : Registers s e r) :
    HasSent ((s, e) :: h) r "NICK" ∧ HasSent ((s, e) :: h) r "USER" := by
  obtain ⟨-, c, hc, rfl, hco, hu⟩ := hr
  have := (history_inv (.next e hh hf hp)).1 c hc (by cases hx : c.conn <;> simp_all)
  exact this.2.2 (.inr (.inr hu))

example : ∃ (h : List (Srv × Event)) (s : Srv) (e : Event) (r : Nat), History h s ∧ s.fault = false ∧ PoliteEvent s e ∧
    Registers s e r :=
  ⟨_, _, Sample.say "CAP END", 4, Sample.strict_history, by decide +kernel, politeEvB_sound (by decide +kernel),
    Sample.strict_registers⟩

/-- The facts about a client that registers. -/
theorem registers_new (hh : History h s) (hp : PoliteEvent s e) (hr : Registers s e r) :
    ∃ d ∈ (step s e).clients, d.ref = r ∧
      NewUser (evCtx s e False True) s (fun r w => SentPass ((s, e) :: h) r w) (step s e) d := by
  have hb := hh.polite.reachable.base
  obtain ⟨f1, f2, f3, f4, f5⟩ := evCtx_polite s e
  obtain ⟨hn, d, hd, rfl, hco, hu⟩ := hr
  have hco' : d.conn.isSome = true := by cases hx : d.conn <;> simp_all
  have hpw := (history_inv hh).2
  refine ⟨d, hd, rfl, (steps_newUser (W := fun r w => SentPass ((s, e) :: h) r w) (step_steps_polite hb hp) hb f5 f4
    ?_ ?_ d hd hco' hu).resolve_left ?_⟩
  · intro hx
    obtain ⟨i, rnd, l, req, g1, g2, g3, g4, g5⟩ := evCtx_argv (by decide) hx
    exact ⟨(s, e), List.mem_cons_self .., i, rnd, l, req, g1, g2, g3, g4, by rw [g5]; rfl⟩
  · exact fun k hk => (hpw k hk).imp id Spec.SentPass.later
  · rintro ⟨c, hc, g1, g2, g3⟩
    exact hn ⟨c, hc, g1, by rw [g2]; exact hco, g3⟩

/-- **C15** A client that registers has sent the server password, if there is one. -/
theorem C15_password (hh : History h s) (hp : PoliteEvent s e) (hr : Registers s e r)
    (hw : s.conf.serverPwd ≠ []) : SentPass ((s, e) :: h) r s.conf.serverPwd := by
  obtain ⟨d, hd, rfl, hn⟩ := registers_new hh hp hr
  exact hn.pwd.resolve_left hw

example : ∃ (h : List (Srv × Event)) (s : Srv) (e : Event) (r : Nat), History h s ∧ PoliteEvent s e ∧
    Registers s e r ∧ s.conf.serverPwd ≠ [] :=
  ⟨_, _, Sample.say "CAP END", 4, Sample.strict_history, politeEvB_sound (by decide +kernel),
    Sample.strict_registers, by decide +kernel⟩

/-- **C15** A client registers by a line it sends itself, having ended the capability negotiation,
if it has begun one. -/
theorem C15_cap (hh : History h s) (hp : PoliteEvent s e) (hr : Registers s e r) :
    SentBy s e r ∧ ∀ d ∈ (step s e).clients, d.ref = r → d.caps.pending = false := by
  have hb := hh.polite.reachable.base
  obtain ⟨d, hd, rfl, hn⟩ := registers_new hh hp hr
  have hbt := (step_steps_polite hb hp).base hb
  refine ⟨(evCtx_polite s e).2.1 _ ?_ hn.cl, fun d' hd' he => ?_⟩
  · have := hbt.cl.pos d hd; omega
  · have : d' = d := by
      rw [← cl_of_mem' hbt.cl.ord hd rfl, ← cl_of_mem' hbt.cl.ord hd' rfl, he]
    rw [this]; exact hn.cap

example : ∃ (h : List (Srv × Event)) (s : Srv) (e : Event) (r : Nat), History h s ∧ PoliteEvent s e ∧
    Registers s e r ∧ (s.cl r).caps.pending = true :=
  ⟨_, _, Sample.say "CAP END", 4, Sample.strict_history, politeEvB_sound (by decide +kernel),
    Sample.strict_registers, by decide +kernel⟩

/-- **C15** With the authentication PING switched on, no answer of a client that registers is
outstanding. -/
theorem C15_ping (hh : History h s) (hp : PoliteEvent s e) (hr : Registers s e r)
    (ha : s.conf.authPing = true) : ∀ k ∈ (step s e).conns, k.client = r → k.authPing = 0 := by
  obtain ⟨d, hd, rfl, hn⟩ := registers_new hh hp hr
  exact hn.ping ha

example : ∃ (h : List (Srv × Event)) (s : Srv) (e : Event) (r : Nat), History h s ∧ PoliteEvent s e ∧
    Registers s e r ∧ s.conf.authPing = true :=
  ⟨_, _, Sample.say "CAP END", 4, Sample.strict_history, politeEvB_sound (by decide +kernel),
    Sample.strict_registers, by decide +kernel⟩

/-- **C15** A client that registers matches no G-line and no K-line. -/
theorem C15_ban (hh : History h s) (hp : PoliteEvent s e) (hr : Registers s e r) :
    ∀ d ∈ (step s e).clients, d.ref = r → ∀ b ∈ s.glines ++ s.klines,
      matchCaseInsensitive b.mask ((d.id ++ '!' :: d.user ++ '@' :: d.host).take (GETID_LEN - 1)) = false := by
  have hb := hh.polite.reachable.base
  have hl := hh.polite.reachable.lasting
  obtain ⟨d, hd, rfl, hn⟩ := registers_new hh hp hr
  have hbt := (step_steps_polite hb hp).base hb
  intro d' hd' he b hbm
  have : d' = d := by
    rw [← cl_of_mem' hbt.cl.ord hd rfl, ← cl_of_mem' hbt.cl.ord hd' rfl, he]
  rw [this]
  rcases List.mem_append.1 hbm with h | h
  · exact hn.ban.1 b h (hl.1 b h)
  · exact hn.ban.2 b h (hl.2 b h)

example : ∃ (h : List (Srv × Event)) (s : Srv) (e : Event) (r : Nat), History h s ∧ PoliteEvent s e ∧
    Registers s e r ∧ s.klines ≠ [] :=
  ⟨_, _, Sample.say "CAP END", 4, Sample.strict_history, politeEvB_sound (by decide +kernel),
    Sample.strict_registers, by decide +kernel⟩

/-- **C15** The number a client has to answer with PONG changes only when the client sends the
PONG with this number, or NICK (which draws a new number). -/
theorem C15_ping_answer (hr : Reachable s) (e : Event) {k k' : Conn} (hk : k ∈ s.conns)
    (hk' : k' ∈ (step s e).conns) (hc : k'.client = k.client) (hne : k'.authPing ≠ k.authPing) :
    Sends s e k.client "NICK" ∨ ∃ a, SendsArg s e k.client "PONG" a ∧ atoi a = k.authPing ∧ k'.authPing = 0 := by
  have hb := hr.base
  obtain ⟨f1, f2, f3, f4, f5⟩ := evCtx_facts s e
  obtain ⟨c, hcm, c1, c2⟩ := hb.cl.connCl k hk
  rcases steps_ping (step_steps_any hb e) hb k' hk' with ⟨k0, h0, e0, g⟩ | g
  · have : k0 = k := by
      obtain ⟨c', hcm', c1', c2'⟩ := hb.cl.connCl k0 h0
      have : c' = c := by
        rw [← cl_of_mem' hb.cl.ord hcm rfl, ← cl_of_mem' hb.cl.ord hcm' rfl, c1, c1', e0, hc]
      rw [this, c2] at c2'
      injection c2' with c2'
      exact conn_eq_of_idx hb h0 hk c2'.symm
    subst this
    rcases g with g | ⟨g1, g2⟩ | ⟨g1, g2, g3, g4⟩
    · exact absurd g hne
    · left
      rw [e0, g1]; exact f4 "NICK" (by decide) g2
    · right
      obtain ⟨i, rnd, l, req, h1, h2, h3, h4, h5⟩ := evCtx_argv (by decide) g2
      refine ⟨_, ⟨i, rnd, l, req, h1, ?_, h3, h4, rfl⟩, ?_, g3⟩
      · rw [e0, g1]; exact h2
      · rw [g4, h5]; rfl
  · have := hb.cl.lt c hcm
    omega

/-- The state of the sample history before the PONG. -/
def Sample.beforePong : Srv := (Sample.runH [] (Srv.init Sample.strictConf "host".toList 1000)
  (Sample.strictEvents.take 12)).2

example : ∃ (s : Srv) (e : Event) (k k' : Conn), Reachable s ∧ k ∈ s.conns ∧ k' ∈ (step s e).conns ∧
    k'.client = k.client ∧ k'.authPing ≠ k.authPing :=
  have h : Reachable Sample.beforePong :=
    (Sample.runH_history (.start _ _ _ (by decide +kernel)) (Sample.strictEvents.take 12)
      (by decide +kernel)).polite.reachable
  have hx : ∃ k ∈ Sample.beforePong.conns, ∃ k' ∈ (step Sample.beforePong (Sample.say "PONG 7")).conns,
      k'.client = k.client ∧ k'.authPing ≠ k.authPing := by decide +kernel
  let ⟨k, h1, k', h2, h3, h4⟩ := hx
  ⟨_, _, k, k', h, h1, h2, h3, h4⟩

/-- **C15** A capability negotiation ends by CAP END of the client only. -/
theorem C15_cap_end (hr : Reachable s) (e : Event) {c d : Client} (hc : c ∈ s.clients)
    (hd : d ∈ (step s e).clients) (he : d.ref = c.ref) (hp : c.caps.pending = true)
    (hq : d.caps.pending = false) : ∃ a, SendsArg s e c.ref "CAP" a ∧ SameCase a "END".toList := by
  have hb := hr.base
  rcases steps_caps (step_steps_any hb e) hb d hd with ⟨c0, h0, e0, -, g⟩ | ⟨g, -⟩
  · have : c0 = c := by
      rw [← cl_of_mem' hb.cl.ord hc rfl, ← cl_of_mem' hb.cl.ord h0 rfl, e0, he]
    subst this
    rcases g hp with g | ⟨g1, g2, g3⟩
    · rw [g] at hq; cases hq
    · obtain ⟨i, rnd, l, req, h1, h2, h3, h4, h5⟩ := evCtx_argv (by decide) g2
      refine ⟨_, ⟨i, rnd, l, req, h1, ?_, h3, h4, rfl⟩, ?_⟩
      · rw [e0, g1]; exact h2
      · rw [h5] at g3; exact (caseEq_same _ _).1 g3
  · have := hb.cl.lt c hc
    omega

example : ∃ (s : Srv) (e : Event) (c d : Client), Reachable s ∧ c ∈ s.clients ∧ d ∈ (step s e).clients ∧
    d.ref = c.ref ∧ c.caps.pending = true ∧ d.caps.pending = false :=
  have hx : ∃ c ∈ Sample.strict.2.clients, ∃ d ∈ (step Sample.strict.2 (Sample.say "CAP END")).clients,
      d.ref = c.ref ∧ c.caps.pending = true ∧ d.caps.pending = false := by decide +kernel
  let ⟨c, h1, d, h2, h3⟩ := hx
  ⟨_, _, c, d, Sample.strict_history.polite.reachable, h1, h2, h3⟩

/-! ## Capabilities -/

theorem strtokAux_split (d : Char) (a cur : Str) : strtokAux (fun c => [d].contains c) a cur =
    match splitAt d a with
    | [] => []
    | p :: ps => (if (cur.reverse ++ p).isEmpty then [] else [cur.reverse ++ p]) ++ ps.filter (fun p => !p.isEmpty) := by
  have hne : ∀ cs, ∃ p ps, splitAt d cs = p :: ps := by
    intro cs
    cases cs with
    | nil => exact ⟨_, _, rfl⟩
    | cons d ds =>
      simp only [splitAt]
      split
      · exact ⟨_, _, rfl⟩
      · split <;> exact ⟨_, _, rfl⟩
  induction a generalizing cur with
  | nil =>
    simp only [strtokAux, splitAt, List.append_nil, List.filter_nil, List.isEmpty_reverse]
  | cons c cs ih =>
    simp only [strtokAux, splitAt]
    by_cases h : c = d
    · subst h
      rw [if_pos (by simp), if_pos rfl, ih]
      obtain ⟨p, ps, hp⟩ := hne cs
      rw [hp]
      simp only [List.reverse_nil, List.nil_append, List.append_nil, List.isEmpty_reverse, List.filter_cons]
      cases p <;> cases cur <;> simp
    · rw [if_neg (by simpa using h), if_neg h, ih]
      obtain ⟨p, ps, hp⟩ := hne cs
      rw [hp]
      simp

theorem strtok_words (a : Str) : strtok a [' '] = words a := by
  rw [strtok, strtokAux_split, words]
  cases splitAt ' ' a with
  | nil => rfl
  | cons p ps => cases p <;> simp

theorem capWord_ask (w : Str) : capWord w = capAsk w := by
  unfold capWord capAsk
  split
  · rename_i rest
    rw [if_neg (show '-' :: rest ≠ "multi-prefix".toList by simp)]
    by_cases h : rest = capMultiPrefix
    · subst h; rfl
    · rw [if_neg h, if_neg]
      intro e
      apply h
      have : '-' :: rest = '-' :: capMultiPrefix := e
      exact List.tail_eq_of_cons_eq this
  · rename_i hw
    by_cases h : w = capMultiPrefix
    · rw [if_pos h, if_pos (show w = "multi-prefix".toList from h)]
    · rw [if_neg h, if_neg (show ¬ w = "multi-prefix".toList from h), if_neg]
      intro e
      exact hw capMultiPrefix e

theorem parseCap_wanted (ws : List Str) (caps : Caps) :
    parseCapLoop ws caps = (capWanted ws caps.multiPrefix).map (fun b => { caps with multiPrefix := b }) := by
  induction ws generalizing caps with
  | nil => rfl
  | cons w ws ih =>
    simp only [parseCapLoop, capWord_ask]
    cases hw : capAsk w with
    | none => simp [capWanted, hw]
    | some b =>
      simp only [ih, capWanted, List.forall_mem_cons, hw]
      by_cases ha : ∀ w ∈ ws, capAsk w ≠ none
      · rw [if_pos ha, if_pos ⟨by simp, ha⟩]
        cases ws with
        | nil => simp [hw]
        | cons v vs =>
          have : ((v :: vs).getLast?.bind capAsk).isSome = true := by
            rw [List.getLast?_eq_some_getLast (by simp)]
            have := ha _ (List.getLast_mem (l := v :: vs) (by simp))
            cases hx : capAsk ((v :: vs).getLast (by simp)) with
            | none => exact absurd hx this
            | some => simp [hx]
          rw [List.getLast?_cons_cons]
          cases hy : (v :: vs).getLast?.bind capAsk with
          | none => rw [hy] at this; cases this
          | some => simp
      · rw [if_neg ha, if_neg (fun h => ha h.2)]

theorem nextHop_self {u : Srv} {c : Client} (h : c.introducer = c.ref ∨ c.introducer = u.this) : nextHop u c = c := by
  unfold nextHop
  cases u.clients.length with
  | zero => rfl
  | succ n =>
    simp only [nextHopF]
    rw [if_neg]
    rintro ⟨h1, h2⟩
    exact h.elim h1 h2

/-- A line to a local client. -/
theorem write_local {u : Srv} {c : Client} {i : Nat} (h : c.introducer = c.ref ∨ c.introducer = u.this) (hc : c.conn = some i) (m : Msg) :
    write u c m = { u with out := { conn := i, src := some (getPrefix u c (u.cl u.this)), msg := m } :: u.out } := by
  simp only [write, writePrefix, lineTo, nextHop_self h, hc, Option.map_some, Option.toList_some, List.singleton_append,
    Option.isNone_some, Bool.or_false]

/-- **C39** CAP REQ: if the words make sense, the last one decides, and the answer is ACK; if one
of them has no meaning, the capability stays as it is and the answer is NAK.  A client that has not
yet registered has to end the negotiation with CAP END.  Nothing else changes. -/
theorem C39_req {i cl : Nat} {l a w : Str} {req : Request} (h : Reachable s) (hr : Received s i l cl req)
    (his : Is req "CAP") (hargs : req.argv = [a, w]) (ha : SameCase a "REQ".toList) (hw : w.length ≤ 512)
    (rnd : Int) :
    ∃ src, step s (.line i rnd l) =
      { s with
        rnd := rnd
        clients := s.clients.map (fun c => if c.ref = cl then { c with caps :=
          { pending := c.caps.pending || decide (c.type ≠ .user), supported := true,
            multiPrefix := (capWanted (words w) c.caps.multiPrefix).getD c.caps.multiPrefix } } else c)
        out := { conn := i, src := src, msg := ⟨"CAP", [(s.cl cl).ID,
          if (capWanted (words w) (s.cl cl).caps.multiPrefix).isSome then "ACK".toList else "NAK".toList, w]⟩ } :: s.out } := by
  have hb := h.base
  obtain ⟨hmem, href, hconn, hth⟩ := hr.owner hb
  have hst := step_do hr rnd his rfl (by rfl) (by simp only [Command.argcOk, Request.argc, hargs]; rfl)
  have harg : ircCAP (s.roll rnd) cl req = capREQ (s.roll rnd) cl w := by
    have h0 : req.arg 0 = a := by simp [Request.arg, hargs]
    have h1 : req.arg 1 = w := by simp [Request.arg, hargs]
    have hargc : req.argc = 2 := by simp [Request.argc, hargs]
    have hne : ∀ n : String, caseEq n.toList "REQ".toList = false → caseEq a n.toList = false := by
      intro n hn
      cases hx : caseEq a n.toList with
      | false => rfl
      | true =>
        have g1 : lowerStr a = lowerStr n.toList := (caseEq_iff _ _).1 hx
        have g2 : lowerStr a = lowerStr "REQ".toList := (caseEq_iff _ _).1 ((caseEq_same _ _).2 ha)
        rw [(caseEq_iff _ _).2 (g1.symm.trans g2)] at hn
        cases hn
    simp only [ircCAP, h0, h1, hargc, hne "CLEAR" (by decide), hne "END" (by decide), hne "LS" (by decide),
      hne "LIST" (by decide), (caseEq_same _ _).2 ha]
    rfl
  have hst : step s (.line i rnd l) = (capREQ (s.roll rnd) cl w).1 := by rw [← harg]; exact hst
  rw [hst]
  have hw' : strlcpy COMMAND_LEN w = w := List.take_of_length_le hw
  have hloc := hb.cl.loc _ hmem (by rw [hconn]; rfl)
  have hsome : (s.cl? cl).isSome = true := by
    rw [Srv.cl] at hconn
    cases hx : s.cl? cl with
    | some => rfl
    | none => rw [hx] at hconn; cases hconn
  have hwrite : ∀ (u : Srv) (k : String), u.this = s.this → (u.cl cl).ref = cl → (u.cl cl).id = (s.cl cl).id →
      (u.cl cl).conn = some i → (u.cl cl).introducer = (s.cl cl).introducer →
      ∃ src, write u (u.cl cl) ⟨"CAP", [(u.cl cl).ID, k.toList, w]⟩ =
        { u with out := { conn := i, src := src, msg := ⟨"CAP", [(s.cl cl).ID, k.toList, w]⟩ } :: u.out } := by
    intro u k h1 h2 h3 h4 h5
    have hl' : (u.cl cl).introducer = (u.cl cl).ref ∨ (u.cl cl).introducer = u.this := by
      rw [h5, h2, h1]; rw [href] at hloc; exact hloc
    rw [write_local hl' h4]
    exact ⟨some (getPrefix u (u.cl cl) (u.cl u.this)), by simp only [Client.ID, h3]⟩
  have hcl1 : (setCapNegotiation (s.roll rnd) cl).cl cl = (fun c : Client => { c with caps :=
      { c.caps with pending := c.caps.pending || decide (c.type ≠ .user), supported := true } }) (s.cl cl) := by
    have := cl_updCl (s.roll rnd) cl cl (fun c : Client => { c with caps :=
      { c.caps with pending := c.caps.pending || decide (c.type ≠ .user), supported := true } }) (fun _ => rfl) (fun _ => hsome)
    rw [if_pos rfl] at this
    exact this
  simp only [capREQ, parseCAP, hw', strtok_words, parseCap_wanted]
  have hcap : ((setCapNegotiation (s.roll rnd) cl).cl cl).caps.multiPrefix = (s.cl cl).caps.multiPrefix := by rw [hcl1]
  rw [hcap]
  cases hwant : capWanted (words w) (s.cl cl).caps.multiPrefix with
  | none =>
    obtain ⟨src, g⟩ := hwrite (setCapNegotiation (s.roll rnd) cl) "NAK" rfl (by rw [hcl1]; exact href) (by rw [hcl1])
      (by rw [hcl1]; exact hconn) (by rw [hcl1])
    refine ⟨src, ?_⟩
    simp only [Option.map_none]
    rw [g]
    simp only [setCapNegotiation, Srv.updCl, Srv.roll]
    congr 1
    refine List.map_congr_left fun c hc => ?_
    split
    · rename_i e
      have : c = s.cl cl := by rw [← cl_of_mem' hb.cl.ord hc e]
      rw [this, hwant]
      rfl
    · rfl
  | some b =>
    simp only [Option.map_some]
    generalize hcaps : ((setCapNegotiation (s.roll rnd) cl).cl cl).caps = caps0
    have hcl2 := cl_updCl (setCapNegotiation (s.roll rnd) cl) cl cl (fun c : Client => { c with caps :=
      { caps0 with multiPrefix := b } }) (fun _ => rfl) (fun _ => cl?_isSome_of_conn (by rw [hcl1, hconn]; rfl))
    rw [if_pos rfl, hcl1] at hcl2
    obtain ⟨src, g⟩ := hwrite ((setCapNegotiation (s.roll rnd) cl).updCl cl (fun c : Client => { c with caps :=
      { caps0 with multiPrefix := b } })) "ACK" rfl (by rw [hcl2]; exact href) (by rw [hcl2])
      (by rw [hcl2]; exact hconn) (by rw [hcl2])
    refine ⟨src, ?_⟩
    rw [g]
    simp only [setCapNegotiation, Srv.updCl, Srv.roll, List.map_map]
    congr 1
    refine List.map_congr_left fun c hc => ?_
    simp only [Function.comp]
    by_cases e : c.ref = cl
    · have : c = s.cl cl := by rw [← cl_of_mem' hb.cl.ord hc e]
      subst this
      rw [hcl1] at hcaps
      rw [if_pos e, if_pos e, hwant, ← hcaps]
      simp only [e, if_true]
      rfl
    · rw [if_neg e, if_neg e, if_neg e]

example : ∃ (s : Srv) (i cl : Nat) (l a w : Str) (req : Request), Reachable s ∧ Received s i l cl req ∧
    Is req "CAP" ∧ req.argv = [a, w] ∧ SameCase a "REQ".toList ∧ w.length ≤ 512 ∧
    capWanted (words w) (s.cl cl).caps.multiPrefix = some true :=
  ⟨Sample.s3, 5, 3, "CAP REQ :multi-prefix".toList, "REQ".toList, "multi-prefix".toList,
    ⟨none, "CAP".toList, ["REQ".toList, "multi-prefix".toList]⟩, Sample.reach_s3, recv_sound (by decide +kernel),
    by simp only [Is]; decide, rfl, (caseEq_same _ _).1 (by decide), by decide, by decide +kernel⟩

example : ∃ (s : Srv) (i cl : Nat) (l a w : Str) (req : Request), Reachable s ∧ Received s i l cl req ∧
    Is req "CAP" ∧ req.argv = [a, w] ∧ SameCase a "REQ".toList ∧ w.length ≤ 512 ∧
    capWanted (words w) (s.cl cl).caps.multiPrefix = none :=
  ⟨Sample.s3, 5, 3, "CAP REQ :multi-prefix sasl".toList, "REQ".toList, "multi-prefix sasl".toList,
    ⟨none, "CAP".toList, ["REQ".toList, "multi-prefix sasl".toList]⟩, Sample.reach_s3, recv_sound (by decide +kernel),
    by simp only [Is]; decide, rfl, (caseEq_same _ _).1 (by decide), by decide, by decide +kernel⟩

/-- **C39** A client has the capability only if it had it before, or has just asked for it with
CAP REQ. -/
theorem C39_only (h : Reachable s) (e : Event) {d : Client} (hd : d ∈ (step s e).clients)
    (hm : d.caps.multiPrefix = true) :
    (∃ c ∈ s.clients, c.ref = d.ref ∧ c.caps.multiPrefix = true) ∨
    ∃ i rnd l req, e = .line i rnd l ∧ Owner s i d.ref ∧ parseRequest s.conf.scrubCTCP l = .request req ∧
      Is req "CAP" ∧ SameCase (req.arg 0) "REQ".toList ∧ "multi-prefix".toList ∈ words ((req.arg 1).take 512) := by
  have hb := h.base
  have key : (d.ref = (evCtx s e True True).cl ∧ (evCtx s e True True).is "CAP" ∧ (evCtx s e True True).asksCap) →
      ∃ i rnd l req, e = .line i rnd l ∧ Owner s i d.ref ∧ parseRequest s.conf.scrubCTCP l = .request req ∧
      Is req "CAP" ∧ SameCase (req.arg 0) "REQ".toList ∧ "multi-prefix".toList ∈ words ((req.arg 1).take 512) := by
    rintro ⟨g1, g2, g3, g4⟩
    obtain ⟨i, rnd, l, req, h1, h2, h3, h4, h5⟩ := evCtx_argv (by decide) g2
    rw [h5] at g3 g4
    rw [strtok_words] at g4
    exact ⟨i, rnd, l, req, h1, by rw [g1]; exact h2, h3, h4, (caseEq_same _ _).1 g3, g4⟩
  rcases steps_caps (step_steps_any hb e) hb d hd with ⟨c, hc, e0, g, -⟩ | ⟨-, g⟩
  · exact (g hm).imp (fun g => ⟨c, hc, e0, g⟩) key
  · exact .inr (key (g hm))

example : ∃ (s : Srv) (e : Event) (d : Client), Reachable s ∧ d ∈ (step s e).clients ∧ d.caps.multiPrefix = true :=
  have hx : ∃ d ∈ (step Sample.s3 (Sample.say "CAP REQ :multi-prefix")).clients, d.caps.multiPrefix = true := by
    decide +kernel
  let ⟨d, h1, h2⟩ := hx
  ⟨_, _, d, Sample.reach_s3, h1, h2⟩

/-! ## What others know of a user -/

/-- **C53** Nobody but server links changes what others know of a registered user: its host name
never changes, nick, user name and real name change by its own NICK only. -/
theorem C53_identity (h : Reachable s) (hp : PoliteEvent s e)
    (hno : ∀ r, SentBy s e r → (s.cl r).type ≠ .server) {c d : Client} (hc : c ∈ s.clients)
    (hu : c.type = .user) (hd : d ∈ (step s e).clients) (he : d.ref = c.ref) :
    d.type = .user ∧ d.host = c.host ∧
    ((d.id = c.id ∧ d.user = c.user ∧ d.info = c.info) ∨ Sends s e c.ref "NICK") := by
  have hb := h.base
  obtain ⟨f1, f2, f3, f4, f5⟩ := evCtx_polite s e
  have hpe : ¬ (evCtx s e False True).peer := by
    intro g
    obtain ⟨r, h1, h2⟩ := f1 g
    exact hno r h1 h2
  rcases steps_ident (step_steps_polite hb hp) hb f5 hpe d hd with ⟨c0, h0, e0, g⟩ | g
  · have : c0 = c := by
      rw [← cl_of_mem' hb.cl.ord hc rfl, ← cl_of_mem' hb.cl.ord h0 rfl, e0, he]
    subst this
    obtain ⟨g1, g2, g3⟩ := g hu
    refine ⟨g1, g2, g3.imp (fun g => ⟨g.2.2, g.1, g.2.1⟩) (fun g => ?_)⟩
    rw [g.1]; exact f3 "NICK" (by decide) g.2
  · have := hb.cl.lt c hc
    omega

example : ∃ (s : Srv) (e : Event) (c d : Client), Reachable s ∧ PoliteEvent s e ∧
    (∀ r, SentBy s e r → (s.cl r).type ≠ .server) ∧ c ∈ s.clients ∧ c.type = .user ∧ d ∈ (step s e).clients ∧
    d.ref = c.ref ∧ d.id ≠ c.id :=
  have hx : ∃ c ∈ Sample.s3.clients, ∃ d ∈ (step Sample.s3 (Sample.say "NICK ally")).clients,
      d.ref = c.ref ∧ c.type = .user ∧ d.id ≠ c.id := by decide +kernel
  let ⟨c, h1, d, h2, h3, h4, h5⟩ := hx
  ⟨_, _, c, d, Sample.reach_s3, politeEvB_sound (by decide +kernel), fun r ⟨i, rnd, l, e, k, hk, k1, k2⟩ => by
    have : ∀ k ∈ Sample.s3.conns, (Sample.s3.cl k.client).type ≠ .server := by decide +kernel
    rw [← k2]; exact this k hk, h1, h4, h2, h3, h5⟩

end Ngircd
