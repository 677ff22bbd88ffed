import Verif.Lemmas.HOper

/-!
# Events as runs of guarded actions
-/

set_option linter.unusedSimpArgs false

namespace Ngircd

variable {x : Ctx} {s t u : Srv}

/-- What an event is about. -/
def evCtx (s : Srv) (e : Event) (bad loose : Prop) : Ctx :=
  match e with
  | .line i _ l =>
    match s.conn? i, parseRequest s.conf.scrubCTCP l with
    | some k, .request req => { cl := k.client, cmd := req.command, argv := req.argv,
                                peer := (s.cl k.client).type = .server, bad := bad, loose := loose,
                                fresh := (s.cl k.client).type ≠ .user,
                                oper := (s.cl k.client).modes.contains 'o' = true }
    | _, _ => { bad := bad, loose := loose }
  | .rehash conf => { bad := bad, loose := loose, newConf := some conf }
  | .accept .. => { bad := bad, loose := loose, opens := True }
  | .connect .. => { bad := bad, loose := loose, opens := True }
  | .established _ => { bad := bad, loose := loose }
  | .resolved .. => { bad := bad, loose := loose, idle := True }
  | .data _ => { bad := bad, loose := loose, clock := True }
  | .lost .. => { bad := bad, loose := loose, idle := True }
  | .tick _ => { bad := bad, loose := loose, idle := True, clock := True }

theorem conn?_none_idx {i : Nat} (h : (s.conn? i).isSome = false) : ∀ k ∈ s.conns, k.idx ≠ i := by
  intro k hk he
  have : s.conn? i = none := by simpa using h
  have := List.find?_eq_none.1 this k hk
  simp [he] at this

theorem newLocal_okay {i : Nat} {host : Option Str} {ty : CType} {k : Conn}
    (hi : (s.conn? i).isSome = false) (ht : ty = .unknown ∨ ty = .unknownServer)
    (hk : k.idx = i) (hc : k.client = s.nextRef)
    (hl : ty = .unknown → connLimitReached s k.ipa = false) (hp : k.pwd = [] ∧ k.authPing = 0) (ho : x.opens) :
    Okay x s (.newLocal (newClientC s (some i) s.this none ty none none host none 0 0 none false) k) := by
  obtain ⟨h1, h2, h3, h4, h5, h6, h7, h8⟩ := newClientC_fields s (some i) s.this none ty none none host
    none 0 0 none false
  refine ⟨h1, h5, h6, h3, by rw [h4]; exact ht, h2.trans (by rw [hk]), hc.trans h1.symm, ?_, h7, h8.trans ?_, ?_⟩
  · rw [hk]; exact conn?_none_idx hi
  · rcases ht with rfl | rfl <;> rfl
  · rw [h4]; exact ⟨hl, newClientC_caps .., hp.1, hp.2, ho⟩

theorem newConnection_steps (ho : x.opens) (i : Nat) (host ipa : Str) (ssl : Bool) :
    Steps (Okay x) s (newConnection s i host ipa ssl) := by
  simp only [newConnection]
  split
  · exact .rfl'
  · rename_i h
    simp only [Bool.or_eq_true, not_or, Bool.not_eq_true] at h
    refine Steps.trans (.one (.newLocal _ (newConn s i s.nextRef ipa ssl))
      (newLocal_okay (ty := .unknown) (host := none) h.1 (.inl rfl) rfl rfl (fun _ => h.2) ⟨rfl, rfl⟩ ho) rfl)
      (.setHost _ _ (.inl ?_))
    obtain ⟨g1, -, -, g4, -⟩ := newClientC_fields s (some i) s.this none .unknown none none none
        none 0 0 none false
    simp only [Act.run, initNewClient]
    generalize newClientC s (some i) s.this none .unknown none none none none 0 0 none false = c at *
    obtain ⟨a, b, h⟩ := adjustCounters_eq { s with clients := c :: s.clients, nextRef := s.nextRef + 1 } c
    rw [h]
    simp only [Srv.cl, Srv.cl?]
    rw [List.find?_cons_of_pos (by simp [g1])]
    simp [g4]

theorem newServer_steps (ho : x.opens) (slot i : Nat) (ipa : Str) :
    Steps (Okay x) s (newServer s slot i ipa) := by
  generalize hr : newServer s slot i ipa = r
  simp only [newServer] at hr
  split at hr
  · subst hr; exact .rfl'
  · rename_i h
    simp only [Bool.or_eq_true, not_or, Bool.not_eq_true] at h
    have h1 : Okay x s (.newLocal (newClientC s (some i) s.this none .unknownServer none none
        (some ipa) none 0 0 none false) (newConn s i s.nextRef ipa false)) :=
      newLocal_okay h.1 (.inr rfl) rfl rfl (fun h => by cases h) ⟨rfl, rfl⟩ ho
    obtain ⟨g1, g2, -⟩ := newClientC_fields s (some i) s.this none .unknownServer none none (some ipa)
        none 0 0 none false
    simp only [clientNewLocal, initNewClient] at hr
    generalize newClientC s (some i) s.this none .unknownServer none none (some ipa) none 0 0 none false = c at *
    obtain ⟨a, b, h⟩ := adjustCounters_eq { s with clients := c :: s.clients, nextRef := s.nextRef + 1 } c
    rw [h] at hr
    have hrun : Act.run s (.newLocal c (newConn s i s.nextRef ipa false)) =
        { s with clients := c :: s.clients, nextRef := s.nextRef + 1, maxUsers := a, myMaxUsers := b,
                 conns := newConn s i s.nextRef ipa false :: s.conns, numConns := s.numConns + 1 } := by
      simp only [Act.run, initNewClient, h]
    subst hr
    refine Steps.trans (.one _ h1 (congrArg Srv.core hrun.symm)) ?_
    refine Steps.trans (.one (.setIntro s.nextRef TOKEN_OUTBOUND) ?_ rfl) ?_
    · simp only [Okay, Srv.cl, Srv.cl?]
      rw [List.find?_cons_of_pos (by simp [g1])]
      simp [g2]
    · refine .one (.srvConn ((slot, i) :: s.srvConn)) (fun p hp => ?_) rfl
      rcases List.mem_cons.1 hp with rfl | hp
      · exact .inr ⟨newConn s i s.nextRef ipa false, List.mem_cons_self .., rfl⟩
      · exact .inl hp

theorem serverLogin_steps (i : Nat) : Steps (Okay x) s (serverLogin s i) := by
  simp only [serverLogin]
  split <;> exact .same rfl

theorem resolverResult_steps (hid : x.idle) (hb : Base s) (i : Nat) (host : Str) :
    Steps (Okay x) s (resolverResult s i host) := by
  generalize hr : resolverResult s i host = r
  simp only [resolverResult] at hr
  split at hr
  · subst hr; exact .rfl'
  · rename_i k hk
    split at hr
    · subst hr; exact .rfl'
    · rename_i hty
      generalize hs : (if host.isEmpty then s else clientSetHostname s k.client host) = s1 at hr
      have h1 : Steps (Okay x) s s1 := by
        rw [← hs]
        split
        · exact .rfl'
        · exact .setHost _ _ (.inl (fun e => hty (by rw [e]; decide)))
      subst hr
      exact h1.trans (.handleServerBans (h1.base hb) _ (.inr (.inl hid)))

theorem dataReceived_steps (hck : x.clock) (i : Nat) : Steps (Okay x) s (dataReceived s i) := by
  simp only [dataReceived]
  split
  · exact .rfl'
  · split
    · exact .one (.conn i (fun k => { k with lastData := s.now, lastPing := if k.lastPing > s.now then s.now else k.lastPing }))
        ⟨fun _ => ⟨rfl, rfl, rfl⟩, .inl (fun _ => rfl), .inr hck, .inl (fun _ => rfl)⟩ rfl
    · exact .rfl'

theorem checkConnection_steps (hid : x.idle) (hck : x.clock) (hb : Base s) (i : Nat) : Steps (Okay x) s (checkConnection s i) := by
  simp only [checkConnection]
  split
  · exact .rfl'
  · split
    · exact .rfl'
    · exact .one (.conn i (fun k => { k with lastPing := s.now })) ⟨fun _ => ⟨rfl, rfl, rfl⟩, .inl (fun _ => rfl), .inr hck, .inl (fun _ => rfl)⟩ rfl
    · exact .connClose hb (fun _ _ => .inr (.inl hid)) _ _

theorem Steps.foldl_base {α : Type} (f : Srv → α → Srv) (l : List α)
    (h : ∀ s, ∀ a ∈ l, Base s → Steps (Okay x) s (f s a))
    (s : Srv) (hb : Base s) : Steps (Okay x) s (l.foldl f s) := by
  induction l generalizing s with
  | nil => exact rfl'
  | cons a l ih =>
    have h1 := h s a List.mem_cons_self hb
    exact h1.trans (ih (fun s b hb' => h s b (List.mem_cons_of_mem _ hb')) _ (h1.base hb))

theorem checkConnections_steps (hid : x.idle) (hck : x.clock) (hb : Base s) (hx : ¬ x.fresh) : Steps (Okay x) s (checkConnections s) := by
  simp only [checkConnections]
  exact (Steps.foldl_base _ _ (fun s i _ hb => checkConnection_steps hid hck hb i) s hb).trans (.lines rfl
    ⟨fun h => h.expire _, fun h => h.expire _, .inr (.inl hx)⟩)

/-! ## Pre-defined channels -/

theorem predefLegacy_steps (hx : x.edits) (cc : ConfChannel) (chan : Nat) (arg : Str) :
    Steps (Okay x) s (predefLegacy s cc chan arg) := by
  simp only [predefLegacy]
  have hk : ∀ s : Srv, Steps (Okay x) s (channelModeAdd (channelSetKey s chan cc.key) chan 'k').1 := by
    intro s
    refine Steps.trans (t := channelSetKey s chan cc.key)
      (.chSoft (f := fun c => { c with key := strlcpy 65 cc.key }) (.edit hx (fun _ => ⟨rfl, rfl, rfl⟩) (fun _ => rfl) (fun _ h => h) (fun _ => rfl))) ?_
    exact .one (.chMode chan 'k' true) ⟨fun _ h => (by cases h), hx⟩ rfl
  have hl : ∀ s : Srv, Steps (Okay x) s (channelModeAdd (channelSetMaxUsers s chan cc.maxusers) chan 'l').1 := by
    intro s
    refine Steps.trans (t := channelSetMaxUsers s chan cc.maxusers)
      (.chSoft (f := fun c => { c with maxusers := cc.maxusers }) (.edit hx (fun _ => ⟨rfl, rfl, rfl⟩) (fun _ => rfl) (fun _ h => h) (fun _ => rfl))) ?_
    exact .one (.chMode chan 'l' true) ⟨fun _ h => (by cases h), hx⟩ rfl
  refine Steps.trans (t := if hasChar arg 'k' then (channelModeAdd (channelSetKey s chan cc.key) chan 'k').1 else s)
    (.ite (fun _ => hk s) (fun _ => .rfl')) (.ite (fun _ => hl _) (fun _ => .rfl'))

theorem chanName_not_nick {n : Nat} {name : Str} (h : isValidChanName name = true) (hne : name ≠ []) :
    isValidNick n name = false := by
  cases name with
  | nil => exact absurd rfl hne
  | cons c l =>
    simp only [isValidChanName, Bool.and_eq_true] at h
    have hc : c = '#' ∨ c = '&' ∨ c = '+' := by
      have := h.1.1
      rw [List.contains_iff_mem] at this
      simpa using this
    simp only [isValidNick, List.all_cons, Bool.and_eq_false_iff]
    refine .inr (.inl ?_)
    rcases hc with rfl | rfl | rfl <;> decide

theorem token_subset {d : Char → Prop} {a w : Str} {c : Char} (h : Spec.Token d a w) (hc : c ∈ w) : c ∈ a := by
  obtain ⟨_, _, p, q, rfl, -⟩ := h
  simp [hc]

theorem predefMode_steps (hx : x.edits) (cc : ConfChannel) (chan : Nat) (m : Str)
    (hn : isValidChanName cc.name = true) (hne : cc.name ≠ [])
    (hp : x.loose ∨ 'P' ∉ m) : Steps (Okay x) s (predefMode cc chan s m) := by
  simp only [predefMode]
  split
  · exact .rfl'
  · rename_i a args h
    have h1 := predefLegacy_steps (x := x) (s := s) hx cc chan a
    generalize predefLegacy s cc chan a = s1 at *
    refine h1.trans (ircMODE_gen (l := (a :: args).flatten) ?_ ?_ (fun _ _ _ => hx) ?_).1
    · exact fun m hm => List.mem_of_mem_drop hm
    · intro cl' o t _ _ hv
      have : isValidNick s1.conf.maxNickLength cc.name = true := hv
      rw [chanName_not_nick hn hne] at this
      cases this
    · intro ch _
      rcases hp with hp | hp
      · exact .inl hp
      · refine .inr (.inr ?_)
        intro hm
        apply hp
        have hm' : 'P' ∈ (a :: args).flatten := hm
        rw [← h] at hm'
        obtain ⟨w, hw, hw'⟩ := List.mem_flatten.1 hm'
        have hw := List.mem_of_mem_take hw
        have := ((mem_strtok _ _ _).1 hw)
        exact mem_strlcpy (token_subset this hw')

theorem Steps.setTopic (hx : x.topics) (ch : Nat) (c : Option Client) (w : Str) :
    Steps (Okay x) s (channelSetTopic s ch c w) :=
  .chSoft ⟨fun _ => ⟨rfl, rfl, rfl⟩, fun _ => rfl, fun _ h => h,
    .inr (fun _ _ => ⟨rfl, rfl, rfl, rfl, rfl⟩), .inr (.inr (fun _ => rfl)), .inl hx⟩

theorem predefChannel_steps (hx : x.newConf.isSome = true) (hb : Base s) (cc : ConfChannel)
    (hp : x.loose ∨ ∀ m ∈ cc.modes, 'P' ∉ m) : Steps (Okay x) s (predefChannel s cc) := by
  simp only [predefChannel]
  split
  · exact .rfl'
  · rename_i hv
    simp only [Bool.or_eq_true, Bool.not_eq_true', not_or, Bool.not_eq_true, Bool.not_eq_false] at hv
    have hne : cc.name ≠ [] := by
      intro h; rw [h] at hv; exact absurd hv.1 (by decide)
    split
    · exact .rfl'
    · rename_i hs
      generalize hs1 : (if cc.topic.isEmpty then (channelModeAdd (channelCreate s cc.name) s.nextRef 'P').1
        else channelSetTopic (channelModeAdd (channelCreate s cc.name) s.nextRef 'P').1 s.nextRef none cc.topic) = s1
      have h0 : Steps (Okay x) s (channelModeAdd (channelCreate s cc.name) s.nextRef 'P').1 := by
        refine .one (.create cc.name (fun c => { c with modes := (modeAdd c.modes 'P').1 }))
          ⟨hs, fun _ => ⟨rfl, rfl, rfl⟩, .inl ⟨hv.2, hne⟩, ?_, .inl ?_, fun _ h => h, .inr hx⟩ rfl
        · intro c hc; show (modeAdd c.modes 'P').1.Nodup; rw [hc]; decide
        · intro c hc; show 'P' ∈ (modeAdd c.modes 'P').1; rw [hc]; decide
      have h1 : Steps (Okay x) s s1 := by
        rw [← hs1]
        split
        · exact h0
        · exact h0.trans (.setTopic (.inr (.inr hx)) _ _ _)
      refine h1.trans (Steps.foldl_base _ _ ?_ s1 (h1.base hb))
      intro s m hm _
      refine predefMode_steps (.inr (.inr (.inr (.inr hx)))) cc _ m hv.2 hne ?_
      rcases hp with hp | hp
      · exact .inl hp
      · exact .inr (hp m hm)

theorem channelInitPredefined_steps (hx : x.newConf.isSome = true) (hb : Base s)
    (hp : x.loose ∨ ∀ ch ∈ s.conf.channels, ∀ m ∈ ch.modes, 'P' ∉ m) :
    Steps (Okay x) s (channelInitPredefined s) := by
  simp only [channelInitPredefined]
  have h1 : Steps (Okay x) s (s.conf.channels.foldl predefChannel s) := by
    refine Steps.foldl_base _ _ (fun t ch hc hb => predefChannel_steps hx hb ch ?_) s hb
    rcases hp with hp | hp
    · exact .inl hp
    · exact .inr (hp ch hc)
  generalize s.conf.channels.foldl predefChannel s = s1 at *
  split
  · exact h1
  · rename_i hs
    refine h1.trans (Steps.trans (t := channelSetModes (channelCreate s1 serverChan) s1.nextRef "mnPt".toList)
      (.one (.create serverChan (fun c => { c with modes := strlcpy CHANNEL_MODE_LEN "mnPt".toList })) ?_ rfl)
      (.setTopic (.inr (.inr hx)) _ _ _))
    refine ⟨hs, fun _ => ⟨rfl, rfl, rfl⟩, .inl ⟨by decide, by decide⟩, ?_, .inl ?_, fun _ h => h, .inr hx⟩
    · intro c _; show (strlcpy CHANNEL_MODE_LEN "mnPt".toList).Nodup; decide
    · intro c _; show 'P' ∈ (strlcpy CHANNEL_MODE_LEN "mnPt".toList); decide

theorem rehash_steps (hb : Base s) (conf : Conf) (hx : x.newConf = some conf) (hp : x.loose ∨ Spec.TidyConf conf) :
    Steps (Okay x) s (rehash s conf) := by
  simp only [rehash]
  have h1 : Steps (Okay x) s { s with conf := { conf with
      serverName := s.conf.serverName, maxNickLength := s.conf.maxNickLength, servers := s.conf.servers } } := by
    refine .one (.conf { conf with
      serverName := s.conf.serverName, maxNickLength := s.conf.maxNickLength, servers := s.conf.servers })
      ⟨?_, ?_, ?_, ?_, .inr ⟨conf, hx, rfl⟩, .inl (by rw [hx]; rfl)⟩ rfl
    · rfl
    · rfl
    · exact fun _ h => .inl h
    · rcases hp with hp | hp
      · exact .inr (.inl hp)
      · exact .inl hp
  have h2 := h1.trans (.softCl (r := s.this) ⟨keeps_setInfoC { conf with
      serverName := s.conf.serverName, maxNickLength := s.conf.maxNickLength, servers := s.conf.servers } conf.serverInfo,
      .inl (fun _ => setInfoC_caps _ _ _), .inr (.inl (fun e => by
        have := hb.this_mem.2.2.1
        exact absurd (this.symm.trans e) (by decide)))⟩)
  refine Steps.trans h2 (channelInitPredefined_steps (by rw [hx]; rfl) (h2.base hb) ?_)
  rcases hp with hp | hp
  · exact .inl hp
  · exact .inr hp.2

/-! ## Lines -/

theorem nextHopF_core (h : t.core = s.core) (n : Nat) (c : Client) : nextHopF n t c = nextHopF n s c := by
  induction n generalizing c with
  | zero => rfl
  | succ n ih => simp only [nextHopF, core_this h, core_cl h, ih]

theorem nextHop_core (h : t.core = s.core) (c : Client) : nextHop t c = nextHop s c := by
  simp only [nextHop, core_clients h]
  exact nextHopF_core h _ _

theorem validatePrefix_pass {i cl : Nat} {req req' : Request} (h : validatePrefix s i cl req = .pass req') :
    req'.command = req.command ∧ req'.argv = req.argv ∧
    (∀ p c, req'.prefix? = some p → clientSearch s p = some c → (nextHop s c).ref = cl) := by
  simp only [validatePrefix] at h
  split at h
  · rename_i hp
    split at h
    · cases h
    · injection h with h; subst h
      exact ⟨rfl, rfl, fun p c hp' => by rw [hp] at hp'; cases hp'⟩
  · rename_i p hp
    split at h
    · injection h with h; subst h
      exact ⟨rfl, rfl, fun p c hp' => by cases hp'⟩
    · split at h
      · split at h <;> cases h
      · rename_i c hc
        split at h
        · split at h <;> cases h
        · rename_i hn
          injection h with h; subst h
          refine ⟨rfl, rfl, fun p' c' hp' hc' => ?_⟩
          rw [hp] at hp'; injection hp' with hp'; subst hp'
          rw [hc] at hc'; injection hc' with hc'; subst hc'
          simpa using hn

theorem validatePrefix_drop {i cl : Nat} {req : Request} {b : Bool} (hb : Base s)
    (hm : ∀ k, s.conn? i = some k → x.mayAll k.client)
    (h : validatePrefix s i cl req = .drop t b) : Steps (Okay x) s t := by
  simp only [validatePrefix] at h
  repeat' split at h
  all_goals first
    | cases h; done
    | (injection h with h; subst h; exact .same rfl)
    | (injection h with h; subst h; exact .connClose hb hm _ _)

/-- What a handler may assume about the connection a line comes from. -/
theorem Hnd.of_line {i : Nat} {k : Conn} {rnd : Int} {l : Str} {req req' : Request} {bad loose : Prop}
    (hb : Base s) (hk : s.conn? i = some k) (hpq : parseRequest s.conf.scrubCTCP l = .request req)
    (hv : validatePrefix { s with rnd := rnd } i k.client req = .pass req')
    (hpol : bad ∨ Spec.PoliteEvent s (.line i rnd l)) (htidy : loose ∨ Spec.TidyEvent s (.line i rnd l))
    (hdef : loose ∨ 'P' ∉ s.conf.defaultUserModes) :
    Hnd (evCtx s (.line i rnd l) bad loose) { s with rnd := rnd } k.client req' := by
  have hx : evCtx s (.line i rnd l) bad loose =
      { cl := k.client, cmd := req.command, argv := req.argv,
        peer := (s.cl k.client).type = .server, bad := bad, loose := loose,
                                fresh := (s.cl k.client).type ≠ .user,
                                oper := (s.cl k.client).modes.contains 'o' = true } := by
    simp only [evCtx, hk, hpq]
  rw [hx]
  have hv' : validatePrefix s i k.client req = .pass req' := by
    simp only [validatePrefix] at hv ⊢
    revert hv
    cases req.prefix? with
    | none =>
      simp only
      intro hv
      have : isRfc1459 { s with rnd := rnd } i = isRfc1459 s i := rfl
      split at hv
      · cases hv
      · rename_i hc
        rw [if_neg]
        · exact hv
        · exact hc
    | some p =>
      simp only
      intro hv
      split at hv
      · rename_i hc
        rw [if_pos]
        · exact hv
        · exact hc
      · rename_i hc
        rw [if_neg (by exact hc)]
        have he : clientSearch { s with rnd := rnd } p = clientSearch s p := rfl
        rw [he] at hv
        cases hcs : clientSearch s p with
        | none => rw [hcs] at hv; simp only at hv; split at hv <;> cases hv
        | some c =>
          rw [hcs] at hv
          simp only at hv ⊢
          split at hv
          · split at hv <;> cases hv
          · rename_i hn
            rw [show nextHop { s with rnd := rnd } c = nextHop s c from nextHop_core (t := { s with rnd := rnd }) (s := s) rfl c] at hn
            rw [if_neg hn]
            exact hv
  obtain ⟨h1, h2, h3⟩ := validatePrefix_pass hv
  have hrec : Spec.Received s i l k.client req' := ⟨k, req, hk, rfl, hpq, hv'⟩
  obtain ⟨g1, g2, g3, g4⟩ := conn?_mem hb.cl hk
  have hpol' : bad ∨ Spec.Polite s k.client req' := hpol.imp id (fun h => h i rnd l rfl _ _ hrec)
  refine ⟨Base.of_core (s := s) rfl hb, ?_, rfl, h1.symm, h2.symm, id, id, fun e h => h e, fun h => h, fun h => h, h3, ?_, ?_, hdef⟩
  · show ((s.cl k.client).conn).isSome = true
    rw [g3]; rfl
  · rcases hpol' with h | h
    · exact .inl h
    · exact .inr ⟨h.server, h.rename, h.nick, h.service, h.join, h.njoin, h.chaninfo, h.pass, h.connect⟩
  · rcases htidy with h | h
    · exact .inl h
    · have := h.1 i rnd l rfl _ _ hrec
      exact .inr ⟨this.mode, this.chaninfo⟩

theorem step_steps {e : Event} {bad loose : Prop} (hb : Base s)
    (hpol : bad ∨ Spec.PoliteEvent s e) (htidy : loose ∨ Spec.TidyEvent s e)
    (hdef : loose ∨ 'P' ∉ s.conf.defaultUserModes) :
    Steps (Okay (evCtx s e bad loose)) s (step s e) := by
  cases e with
  | accept i host ipa ssl => exact newConnection_steps trivial i host ipa ssl
  | connect slot i ipa => exact newServer_steps trivial slot i ipa
  | established i => exact serverLogin_steps i
  | resolved i host => exact resolverResult_steps trivial hb i host
  | data i => exact dataReceived_steps trivial i
  | lost i r inf =>
    simp only [step]
    split
    · exact .connClose hb (fun _ _ => .inr (.inl trivial)) _ _
    · exact .rfl'
  | tick d =>
    refine Steps.trans (t := { s with now := s.now + d }) (.one (.time d) trivial rfl) ?_
    exact checkConnections_steps trivial trivial ((hb.act (x := {}) (a := .time d) trivial).of_core rfl) id
  | rehash conf =>
    refine rehash_steps hb conf rfl ?_
    rcases htidy with h | h
    · exact .inl h
    · exact .inr (h.2 conf rfl)
  | line i rnd l =>
    simp only [step]
    split
    · rename_i hk
      obtain ⟨k, hk⟩ := Option.isSome_iff_exists.1 hk
      have h0 : ∀ x, Steps (Okay x) s { s with rnd := rnd } := fun x => .same rfl
      refine (h0 _).trans ?_
      simp only [handleLine]
      have hk' : ({ s with rnd := rnd } : Srv).conn? i = some k := hk
      rw [hk']
      simp only
      split
      · exact .rfl'
      · exact .same rfl
      · rename_i req hreq
        split
        · rename_i t b hd
          refine validatePrefix_drop (Base.of_core (s := s) rfl hb) ?_ hd
          intro k' hk2
          rw [hk'] at hk2
          injection hk2 with hk2
          subst hk2
          simp only [evCtx, hk, hreq]
          exact self_may rfl
        · rename_i req' hv
          exact handleRequest_steps (Hnd.of_line hb hk hreq hv hpol htidy hdef)
    · exact .rfl'

/-! ## Every reachable state -/

theorem thisServerC_fields (conf : Conf) (host : Str) :
    (thisServerC conf host).ref = 1 ∧ (thisServerC conf host).type = .server ∧
    (thisServerC conf host).conn = none ∧ (thisServerC conf host).introducer = 1 ∧
    (thisServerC conf host).id = strlcpy CLIENT_ID_LEN conf.serverName ∧
    (thisServerC conf host).hash = Hash (strlcpy CLIENT_ID_LEN conf.serverName) ∧
    (thisServerC conf host).modes = [] ∧ (thisServerC conf host).mytoken = 1 := by
  have h := keeps_setInfoC conf conf.serverInfo (setIdC conf
    { ref := 1, type := .server, conn := none, introducer := 1, mytoken := 1, hops := 0,
      host := host } conf.serverName)
  simp only [thisServerC]
  simp only at h
  obtain ⟨h1, h2, h3, h4, h5, h6, h7, h8⟩ := h
  rw [h1, h2, h3, h4, h5, h6, h7, h8]
  simp only [setIdC]
  repeat' split
  all_goals exact ⟨rfl, rfl, rfl, rfl, rfl, rfl, rfl, rfl⟩

theorem clientInit_base (conf : Conf) (host : Str) (now : Nat) : Base (clientInit conf host now) := by
  obtain ⟨h1, h2, h3, h4, h5, h6, h7, h8⟩ := thisServerC_fields conf host
  refine ⟨⟨?_, ?_, ?_, ?_, ?_, ?_, ?_, ?_, ?_, ?_, ?_, ?_, ?_⟩, ⟨?_, ?_, ?_, ?_, ?_⟩⟩
  all_goals simp [clientInit, Desc, h1, h2, h3, h4, h5, h6]

theorem init_base (conf : Conf) (host : Str) (now : Nat) : Base (Srv.init conf host now) :=
  (channelInitPredefined_steps (x := { loose := True, newConf := some conf }) rfl (clientInit_base conf host now) (.inl trivial)).base
    (clientInit_base conf host now)

theorem step_base {e : Event} (hb : Base s) : Base (step s e) :=
  (step_steps (bad := True) (loose := True) hb (.inl trivial) (.inl trivial) (.inl trivial)).base hb

/-- The structural invariants hold in every reachable state. -/
theorem Reachable.base (h : Reachable s) : Base s := by
  induction h with
  | init conf host now => exact init_base _ _ _
  | step e _ _ ih => exact step_base ih

theorem Spec.ReachableWith.reachable {C : Conf → Prop} {P : Srv → Event → Prop} (h : Spec.ReachableWith C P s) :
    Reachable s := by
  induction h with
  | init conf host now _ => exact .init conf host now
  | step e _ hf _ ih => exact .step e ih hf

end Ngircd
