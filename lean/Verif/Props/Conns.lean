import Verif.Lemmas.Conns
import Verif.Props.Registration
import Verif.Spec.Messages

/-!
# Connections

Limits on connections (C37) and timeouts (C38).
-/

namespace Ngircd

open Spec

set_option linter.unusedSimpArgs false

variable {s t u : Srv} {x : Ctx} {i : Nat} {e : Event} {k : Conn}

/-! ## Specification -/

/-- The addresses of the open connections. -/
def Spec.addresses (s : Srv) : List Str := s.conns.map Conn.ipa

/-- A further connection from address `a` keeps to the limits (0: no limit). -/
def Spec.BelowLimits (s : Srv) (a : Str) : Prop :=
  (0 < s.conf.maxConnections → ((addresses s).length : Int) < s.conf.maxConnections) ∧
  (0 < s.conf.maxConnectionsIP → ((addresses s).count a : Int) < s.conf.maxConnectionsIP)

/-- The limits are kept. -/
def Spec.WithinLimits (s : Srv) : Prop :=
  (0 < s.conf.maxConnections → ((addresses s).length : Int) ≤ s.conf.maxConnections) ∧
  (0 < s.conf.maxConnectionsIP → ∀ a, ((addresses s).count a : Int) ≤ s.conf.maxConnectionsIP)

instance (s : Srv) (a : Str) : Decidable (BelowLimits s a) := by unfold BelowLimits; infer_instance

/-! ## Limits -/

theorem countConnections_eq (s : Srv) (a : Str) : countConnections s a = (addresses s).count a := by
  simp only [countConnections, addresses]
  induction s.conns with
  | nil => rfl
  | cons k l ih =>
    rw [List.map_cons, List.count_cons]
    by_cases h : k.ipa = a
    · rw [List.filter_cons_of_pos (by simp [h]), List.length_cons, ih]; simp [h]
    · rw [List.filter_cons_of_neg (by simp [h]), ih]; simp [h]

theorem connLimit_iff (hb : Base s) (a : Str) : connLimitReached s a = false ↔ BelowLimits s a := by
  have hn : (addresses s).length = s.numConns := by rw [hb.cl.num, addresses, List.length_map]
  simp only [connLimitReached, BelowLimits, countConnections_eq, hn, Bool.or_eq_false_iff, Bool.and_eq_false_iff,
    decide_eq_false_iff_not]
  constructor
  · rintro ⟨h1, h2⟩
    exact ⟨fun h => by rcases h1 with h1 | h1 <;> omega, fun h => by rcases h2 with h2 | h2 <;> omega⟩
  · rintro ⟨h1, h2⟩
    refine ⟨?_, ?_⟩
    · by_cases h : 0 < s.conf.maxConnections
      · right; have := h1 h; omega
      · left; omega
    · by_cases h : 0 < s.conf.maxConnectionsIP
      · right; have := h2 h; omega
      · left; omega

theorem newLocal_conns (i : Nat) (host : Option Str) (ty : CType) : (clientNewLocal s i host ty).conns = s.conns := by
  simp only [clientNewLocal, initNewClient]
  generalize newClientC s (some i) s.this none ty none none host none 0 0 none false = c
  obtain ⟨_, _, h⟩ := adjustCounters_eq { s with clients := c :: s.clients, nextRef := s.nextRef + 1 } c
  rw [h]

/-- **C37** A connection request is served if and only if the limits on all connections and on those from its
address are not reached (the operating system hands out sockets not in use). -/
theorem C37_accept (h : Reachable s) (i : Nat) (host a : Str) (ssl : Bool) (hi : ∀ k ∈ s.conns, k.idx ≠ i) :
    addresses (step s (.accept i host a ssl)) = if BelowLimits s a then a :: addresses s else addresses s := by
  have hc : s.conn? i = none := List.find?_eq_none.2 (fun k hk => by simpa using hi k hk)
  simp only [step, newConnection, hc]
  by_cases hl : BelowLimits s a
  · rw [if_pos hl, if_neg (by simp [(connLimit_iff h.base a).2 hl])]
    show List.map Conn.ipa (_ :: (clientNewLocal s i none .unknown).conns) = _
    rw [newLocal_conns]; rfl
  · rw [if_neg hl, if_pos]
    cases hr : connLimitReached s a with
    | true => rfl
    | false => exact absurd ((connLimit_iff h.base a).1 hr) hl

/-- **C37** Only accepting a connection and connecting to another server open connections. -/
theorem C37_others (h : Reachable s) (h1 : ∀ i host a ssl, e ≠ .accept i host a ssl)
    (h2 : ∀ n i a, e ≠ .connect n i a) : (addresses (step s e)).Sublist (addresses s) := by
  refine steps_conns _ (step_steps_any h.base e) ?_ (fun t i f hf k => (hf.keeps k).2.2)
  cases e with
  | accept i host a ssl => exact absurd rfl (h1 i host a ssl)
  | connect n i a => exact absurd rfl (h2 n i a)
  | line i rnd l => simp only [evCtx]; split <;> exact id
  | _ => exact id

/-- **C37** As long as the server does not connect to others itself and the configuration is not changed, the
limits are kept at any time. -/
theorem C37_limits (h : ReachableWith (fun _ => True)
    (fun _ e => (∀ n i a, e ≠ .connect n i a) ∧ (∀ c, e ≠ .rehash c)) s) : WithinLimits s := by
  induction h with
  | init conf host now _ =>
    have h0 : addresses (Srv.init conf host now) = [] := by
      have := steps_conns (x := { loose := True, newConf := some conf }) Conn.ipa
        (channelInitPredefined_steps rfl (clientInit_base conf host now) (.inl trivial)) id
        (fun t i f hf k => (hf.keeps k).2.2)
      exact List.sublist_nil.1 this
    refine ⟨fun h => ?_, fun h a => ?_⟩
    · rw [h0]; simp; omega
    · rw [h0]; simp; omega
  | @step s e hr hf hp ih =>
    have hR := hr.reachable
    have hconf : (step s e).conf.maxConnections = s.conf.maxConnections ∧
        (step s e).conf.maxConnectionsIP = s.conf.maxConnectionsIP := by
      have hx : (evCtx s e True True).newConf = none := by
        cases e with
        | rehash c => exact absurd rfl (hp.2 c)
        | line i rnd l => simp only [evCtx]; split <;> rfl
        | _ => rfl
      obtain ⟨sv, hs⟩ := steps_conf (step_steps_any hR.base e) hx
      rw [hs]; exact ⟨rfl, rfl⟩
    unfold WithinLimits
    rw [hconf.1, hconf.2]
    by_cases ha : ∃ i host a ssl, e = .accept i host a ssl
    · obtain ⟨i, host, a, ssl, rfl⟩ := ha
      by_cases hi : ∀ k ∈ s.conns, k.idx ≠ i
      · rw [C37_accept hR i host a ssl hi]
        split
        · rename_i hl
          refine ⟨fun h => ?_, fun h b => ?_⟩
          · have := hl.1 h; simp only [List.length_cons]; omega
          · rw [List.count_cons]
            split
            · rename_i he
              have he : a = b := by simpa using he
              subst he
              have := hl.2 h; omega
            · have := ih.2 h b; omega
        · exact ih
      · have : step s (.accept i host a ssl) = s := by
          simp only [step, newConnection]
          rw [if_pos]
          cases hc : s.conn? i with
          | some _ => rfl
          | none => exact absurd (fun k hk => by simpa using List.find?_eq_none.1 hc k hk) hi
        rw [this]; exact ih
    · have hsub := C37_others hR (fun i host a ssl h => ha ⟨i, host, a, ssl, h⟩) hp.1
      refine ⟨fun h => ?_, fun h a => ?_⟩
      · have := ih.1 h; have := hsub.length_le; omega
      · have := ih.2 h a; have := hsub.count_le a; omega

/-- Five connections from the same address, as many as are allowed. -/
def Sample.crowd : Srv := [10, 11, 12, 13, 14].foldl
  (fun s i => step s (.accept i "9.9.9.9".toList "9.9.9.9".toList false)) Sample.s0

theorem Sample.reach_crowd : Reachable Sample.crowd := by
  simp only [Sample.crowd, List.foldl_cons, List.foldl_nil]
  refine .step _ (.step _ (.step _ (.step _ (.step _ Sample.reach_s0 ?_) ?_) ?_) ?_) ?_ <;> decide +kernel

example : Reachable Sample.crowd ∧ (∀ k ∈ Sample.crowd.conns, k.idx ≠ 9) ∧
    ¬ BelowLimits Sample.crowd "9.9.9.9".toList ∧ BelowLimits Sample.crowd "1.2.3.4".toList :=
  ⟨Sample.reach_crowd, by decide +kernel, by decide +kernel, by decide +kernel⟩

example : ReachableWith (fun _ => True) (fun _ e => (∀ n i a, e ≠ .connect n i a) ∧ (∀ c, e ≠ .rehash c)) Sample.crowd ∧
    (addresses Sample.crowd).count "9.9.9.9".toList = 5 := by
  refine ⟨?_, by decide +kernel⟩
  simp only [Sample.crowd, List.foldl_cons, List.foldl_nil]
  refine .step _ (.step _ (.step _ (.step _ (.step _ (.init _ _ _ trivial) ?_ ?_) ?_ ?_) ?_ ?_) ?_ ?_) ?_ ?_
  all_goals first
    | exact ⟨fun _ _ _ h => (by cases h), fun _ h => (by cases h)⟩
    | decide +kernel

/-! ## Timeouts -/

/-- The client of a connection has registered. -/
def Spec.Enrolled (c : Client) : Prop := c.type = .user ∨ c.type = .server ∨ c.type = .service

instance (c : Client) : Decidable (Enrolled c) := by unfold Enrolled; infer_instance

/-- The connection has to be closed at time `now`: a registered client has not sent anything since the last PING,
which was more than PongTimeout ago; one that has not registered has had more than PongTimeout to do so. -/
def Spec.Overdue (s : Srv) (now : Nat) (k : Conn) : Prop :=
  if Enrolled (s.cl k.client) then k.lastData < k.lastPing ∧ (k.lastPing : Int) + s.conf.pongTimeout < now
  else (k.lastData : Int) + s.conf.pongTimeout < now

/-- A PING has to be sent at time `now`: none has been sent since the last data, which arrived more than
PingTimeout ago. -/
def Spec.PingDue (s : Srv) (now : Nat) (k : Conn) : Prop :=
  Enrolled (s.cl k.client) ∧ k.lastPing ≤ k.lastData ∧ (k.lastData : Int) + s.conf.pingTimeout < now

instance (s : Srv) (now : Nat) (k : Conn) : Decidable (Overdue s now k) := by unfold Overdue; infer_instance
instance (s : Srv) (now : Nat) (k : Conn) : Decidable (PingDue s now k) := by unfold PingDue; infer_instance

/-- The PINGs among some lines. -/
def Spec.pings (o : List Sent) : List Sent := o.filter (fun y => y.msg.cmd == "PING")

theorem enrolled_iff (c : Client) : isRegistered c.type = true ↔ Enrolled c := by
  unfold Enrolled isRegistered
  cases c.type <;> simp

theorem pingAct_spec (s : Srv) (k : Conn) :
    pingAct s.conf s.now (isRegistered (s.cl k.client).type) k =
      if Overdue s s.now k then .close (decide (Enrolled (s.cl k.client)))
      else if PingDue s s.now k then .ping else .none := by
  by_cases hr : Enrolled (s.cl k.client)
  · have h0 := (enrolled_iff _).2 hr
    simp only [pingAct, h0, if_true, Overdue, PingDue, hr, true_and, decide_true]
    by_cases h1 : k.lastPing > k.lastData
    · rw [if_pos h1]
      by_cases h2 : (k.lastPing : Int) < (s.now : Int) - s.conf.pongTimeout
      · rw [if_pos h2, if_pos ⟨h1, by omega⟩]
      · rw [if_neg h2, if_neg (by omega), if_neg (by omega)]
    · rw [if_neg h1, if_neg (show ¬ (k.lastData < k.lastPing ∧ (k.lastPing : Int) + s.conf.pongTimeout < s.now) from fun h => h1 h.1)]
      by_cases h2 : (k.lastData : Int) < (s.now : Int) - s.conf.pingTimeout
      · rw [if_pos h2, if_pos ⟨by omega, by omega⟩]
      · rw [if_neg h2, if_neg (by omega)]
  · have h0 : isRegistered (s.cl k.client).type = false := by
      cases h : isRegistered (s.cl k.client).type with
      | false => rfl
      | true => exact absurd ((enrolled_iff _).1 h) hr
    simp only [pingAct, h0, Overdue, PingDue, hr, if_false, false_and, Bool.false_eq_true, decide_false]
    by_cases h2 : (k.lastData : Int) < (s.now : Int) - s.conf.pongTimeout
    · rw [if_pos h2, if_pos (by omega)]
    · rw [if_neg h2, if_neg (by omega)]

/-- Lines other than PINGs on connection `i`. -/
def NoPing (i : Nat) (y : Sent) : Prop := y.conn ≠ i ∨ y.msg.cmd ≠ "PING"

theorem farewell_noPing {y : Sent} (h : Farewell y) : NoPing i y := by
  right
  rcases h with h | h | h | h <;> rw [h] <;> decide

theorem conn?_updConn {j : Nat} {f : Conn → Conn} (hf : ∀ k, (f k).idx = k.idx) :
    (s.updConn j f).conn? i = (s.conn? i).map (fun k => if k.idx = j then f k else k) := by
  simp only [Srv.conn?, Srv.updConn]
  induction s.conns with
  | nil => rfl
  | cons a l ih =>
    have ha : (if a.idx = j then f a else a).idx = a.idx := by split <;> simp [hf]
    rw [List.map_cons]
    by_cases hi : a.idx = i
    · rw [List.find?_cons_of_pos (by rw [ha]; simp [hi]), List.find?_cons_of_pos (by simp [hi])]; rfl
    · rw [List.find?_cons_of_neg (by rw [ha]; simp [hi]), List.find?_cons_of_neg (by simp [hi]), ih]

theorem check_still (hb : Base s) {j : Nat} (h : i ≠ j) :
    Still i s (checkConnection s j) ∧ Adds (NoPing i) s (checkConnection s j) ∧
    (checkConnection s j).clients.Sublist s.clients := by
  simp only [checkConnection]
  split
  · exact ⟨⟨rfl, fun _ _ => rfl, rfl, rfl⟩, .same rfl, List.Sublist.refl _⟩
  · rename_i k hk
    split
    · exact ⟨⟨rfl, fun _ _ => rfl, rfl, rfl⟩, .same rfl, List.Sublist.refl _⟩
    · refine ⟨⟨?_, fun _ _ => rfl, rfl, rfl⟩, ⟨[_], rfl, ?_⟩, List.Sublist.refl _⟩
      · show (s.updConn j _).conn? i = _
        rw [conn?_updConn (f := fun k => { k with lastPing := s.now }) (fun _ => rfl)]
        cases hi : s.conn? i with
        | none => rfl
        | some k' =>
          have : k'.idx = i := by simpa using List.find?_some hi
          simp only [Option.map_some, this, if_neg h]
      · intro y hy
        simp only [List.mem_cons, List.not_mem_nil, or_false] at hy
        rw [hy]; exact .inl (Ne.symm h)
    · exact ⟨connClose_still hb h _ _, (connClose_adds _ _ _).mono (fun _ => farewell_noPing), connClose_sub hb _ _ _⟩

theorem check_base (hb : Base s) (j : Nat) : Base (checkConnection s j) :=
  (checkConnection_steps (x := { idle := True, clock := True }) trivial trivial hb j).base hb

theorem checks_still (l : List Nat) (s : Srv) (hb : Base s) (h : i ∉ l) :
    Base (l.foldl checkConnection s) ∧ Still i s (l.foldl checkConnection s) ∧
    Adds (NoPing i) s (l.foldl checkConnection s) ∧ (l.foldl checkConnection s).clients.Sublist s.clients := by
  induction l generalizing s with
  | nil => exact ⟨hb, ⟨rfl, fun _ _ => rfl, rfl, rfl⟩, .same rfl, List.Sublist.refl _⟩
  | cons j l ih =>
    obtain ⟨h1, h2, h3⟩ := check_still hb (List.ne_of_not_mem_cons h)
    obtain ⟨g1, g2, g3, g4⟩ := ih (checkConnection s j) (check_base hb j) (List.not_mem_of_not_mem_cons h)
    exact ⟨g1, h1.trans g2, h2.trans g3, g4.trans h3⟩

theorem pings_none {o : List Sent} (h : ∀ y ∈ o, NoPing i y) : pings (onConn o i) = [] := by
  rw [pings, List.filter_eq_nil_iff]
  intro y hy
  obtain ⟨h1, h2⟩ := List.mem_filter.1 hy
  rcases h y h1 with g | g
  · exact absurd (by simpa using h2) g
  · simpa using g

/-- **C38** What the periodic check does at time `s.now + d` about each connection: it is closed (and the client gone)
if and only if it is overdue; otherwise one PING is sent, and its time noted, if and only if one is due. -/
theorem C38_tick (h : Reachable s) (hk : s.conn? i = some k) (d : Nat) :
    ∃ o, (step s (.tick d)).out = o ++ s.out ∧
      if Overdue s (s.now + d) k then
        (step s (.tick d)).conn? i = none ∧ (∀ c ∈ (step s (.tick d)).clients, c.ref ≠ k.client) ∧ pings (onConn o i) = []
      else if PingDue s (s.now + d) k then
        (step s (.tick d)).conn? i = some { k with lastPing := s.now + d } ∧
          pings (onConn o i) = [⟨i, none, ⟨"PING", [(s.cl s.this).ID]⟩⟩]
      else (step s (.tick d)).conn? i = some k ∧ pings (onConn o i) = [] := by
  have hb0 := h.base
  have hb : Base { s with now := s.now + d } := ((hb0.act (x := {}) (a := .time d) trivial).of_core rfl)
  have hk0 : ({ s with now := s.now + d } : Srv).conn? i = some k := hk
  have hidx : k.idx = i := by simpa using List.find?_some hk
  have hmem : i ∈ s.conns.map Conn.idx := List.mem_map.2 ⟨k, List.mem_of_find?_eq_some hk, hidx⟩
  have hnd : (s.conns.map Conn.idx).Nodup := hb0.cl.idx
  obtain ⟨l1, l2, hl⟩ := List.append_of_mem hmem
  rw [hl, List.nodup_append] at hnd
  obtain ⟨_, hnd2, hnd3⟩ := hnd
  have hi1 : i ∉ l1 := fun h => hnd3 i h i List.mem_cons_self rfl
  have hi2 : i ∉ l2 := (List.nodup_cons.1 hnd2).1
  obtain ⟨a1, a2, a3, a4⟩ := checks_still l1 { s with now := s.now + d } hb hi1
  generalize hs1 : l1.foldl checkConnection { s with now := s.now + d } = s1 at a1 a2 a3 a4
  have hk1 : s1.conn? i = some k := a2.conn.trans hk0
  obtain ⟨b1, b2, b3, b4⟩ := checks_still l2 (checkConnection s1 i) (check_base a1 i) hi2
  have hstep : step s (.tick d) = { l2.foldl checkConnection (checkConnection s1 i) with
      glines := listsExpire (l2.foldl checkConnection (checkConnection s1 i)).glines (l2.foldl checkConnection (checkConnection s1 i)).now,
      klines := listsExpire (l2.foldl checkConnection (checkConnection s1 i)).klines (l2.foldl checkConnection (checkConnection s1 i)).now } := by
    simp only [step, checkConnections]
    have : (s.conns.map (fun k => k.idx)).foldl checkConnection { s with now := s.now + d } =
        l2.foldl checkConnection (checkConnection s1 i) := by
      rw [show s.conns.map (fun k => k.idx) = l1 ++ i :: l2 from hl, List.foldl_append, hs1]; rfl
    rw [this]
  generalize hs3 : l2.foldl checkConnection (checkConnection s1 i) = s3 at *
  have hout : (step s (.tick d)).out = s3.out := by rw [hstep]
  have hconn : (step s (.tick d)).conn? i = s3.conn? i := by rw [hstep]; rfl
  have hcls : (step s (.tick d)).clients = s3.clients := by rw [hstep]
  rw [hout, hconn, hcls, b2.conn]
  have hcl1 : s1.cl k.client = s.cl k.client := a2.cl k hk0
  have hnow1 : s1.now = s.now + d := a2.now
  have hconf1 : s1.conf = s.conf := a2.conf
  have hov : Overdue s1 s1.now k ↔ Overdue s (s.now + d) k := by
    unfold Overdue; rw [hcl1, hnow1, hconf1]
  have hpd : PingDue s1 s1.now k ↔ PingDue s (s.now + d) k := by
    unfold PingDue; rw [hcl1, hnow1, hconf1]
  have hth : s1.this = s.this := by
    rw [← hs1]
    exact (Steps.foldl_base (x := { idle := True, clock := True }) _ _
      (fun s i _ hb => checkConnection_steps trivial trivial hb i) _ hb).this_eq
  have hthis : s1.cl s1.this = s.cl s.this := by
    have := a1.this_mem
    rw [hth] at this ⊢
    exact (cl_of_mem' hb0.cl.ord (a4.subset this.1) this.2.1).symm
  obtain ⟨o1, a5, a6⟩ := a3
  obtain ⟨o3, b5, b6⟩ := b3
  have hpa := pingAct_spec s1 k
  by_cases c1 : Overdue s (s.now + d) k
  · rw [if_pos (hov.2 c1)] at hpa
    have hcc : checkConnection s1 i = connClose s1 i (some (if decide (Enrolled (s1.cl k.client)) = true then "Ping timeout".toList
        else "Timeout".toList)) (decide (Enrolled (s1.cl k.client))) := by
      simp only [checkConnection, hk1, hpa]
    obtain ⟨o2, c5, c6⟩ := connClose_adds (s := s1) i (some (if decide (Enrolled (s1.cl k.client)) = true then "Ping timeout".toList
        else "Timeout".toList)) (decide (Enrolled (s1.cl k.client)))
    refine ⟨o3 ++ (o2 ++ o1), by rw [b5, hcc, c5, a5]; simp, ?_⟩
    rw [if_pos c1]
    refine ⟨?_, ?_, ?_⟩
    · rw [hcc]
      refine List.find?_eq_none.2 ?_
      rw [closed_conns hk1]
      intro k' hk'
      have := (List.mem_filter.1 hk').2
      simpa using this
    · intro c hc he
      have hc' := b4.subset hc
      rw [hcc] at hc'
      have hg := connClose_gone a1 hk1 (some (if decide (Enrolled (s1.cl k.client)) = true then "Ping timeout".toList
        else "Timeout".toList)) (decide (Enrolled (s1.cl k.client)))
      have := (hg.clients c).1 hc'
      exact this.2 (.self this.1 he)
    · refine pings_none (fun y hy => ?_)
      simp only [List.mem_append] at hy
      rcases hy with hy | hy | hy
      · exact b6 y hy
      · exact farewell_noPing (c6 y hy)
      · exact a6 y hy
  · rw [if_neg (fun h => c1 (hov.1 h))] at hpa
    simp only [if_neg c1]
    by_cases c2 : PingDue s (s.now + d) k
    · rw [if_pos (hpd.2 c2)] at hpa
      have hcc : checkConnection s1 i = (s1.updConn i (fun k => { k with lastPing := s1.now })).emit i none
          ⟨"PING", [(s1.cl s1.this).ID]⟩ := by
        simp only [checkConnection, hk1, hpa]
      refine ⟨o3 ++ (⟨i, none, ⟨"PING", [(s1.cl s1.this).ID]⟩⟩ :: o1), ?_, ?_⟩
      · rw [b5, hcc]
        show o3 ++ (⟨i, none, ⟨"PING", [(s1.cl s1.this).ID]⟩⟩ :: s1.out) = _
        rw [a5]; simp
      · rw [if_pos c2]
        refine ⟨?_, ?_⟩
        · rw [hcc]
          show (s1.updConn i (fun k => { k with lastPing := s1.now })).conn? i = _
          rw [conn?_updConn (f := fun k => { k with lastPing := s1.now }) (fun _ => rfl), hk1]
          simp only [Option.map_some, hidx, if_true, hnow1]
        · have e1 := pings_none b6
          have e2 := pings_none a6
          simp only [pings, onConn, List.filter_append, List.filter_cons] at e1 e2 ⊢
          simp only [e1, e2, beq_self_eq_true, if_true, List.nil_append, List.filter_cons, hthis]
    · rw [if_neg (fun h => c2 (hpd.1 h))] at hpa
      have hcc : checkConnection s1 i = s1 := by
        simp only [checkConnection, hk1, hpa]
      refine ⟨o3 ++ o1, by rw [b5, hcc, a5]; simp, ?_⟩
      rw [if_neg c2, hcc]
      refine ⟨hk1, pings_none (fun y hy => ?_)⟩
      rcases List.mem_append.1 hy with hy | hy
      · exact b6 y hy
      · exact a6 y hy

example : Reachable Sample.s5 ∧ Reachable Sample.s1 ∧
    (Sample.s5.conn? 5).any (fun k => decide (Enrolled (Sample.s5.cl k.client) ∧
      PingDue Sample.s5 (Sample.s5.now + 200) k ∧ ¬ Overdue Sample.s5 (Sample.s5.now + 200) k)) = true ∧
    (Sample.s1.conn? 5).any (fun k => decide (Overdue Sample.s1 (Sample.s1.now + 200) k)) = true :=
  ⟨Sample.reach_s5, Sample.reach_s1, by decide +kernel, by decide +kernel⟩

/-- **C38** Data received on a connection counts as sign of life of a registered client, and for no other
connection. -/
theorem C38_data (hk : s.conn? i = some k) (j : Nat) :
    (step s (.data j)).conn? i = some (if i = j ∧ Enrolled (s.cl k.client) then
      { k with lastData := s.now, lastPing := min k.lastPing s.now } else k) := by
  have hidx : k.idx = i := by simpa using List.find?_some hk
  simp only [step, dataReceived]
  by_cases hj : i = j
  · subst hj
    rw [hk]
    simp only [true_and]
    by_cases hr : Enrolled (s.cl k.client)
    · rw [if_pos ((enrolled_iff _).2 hr), if_pos hr]
      rw [conn?_updConn (f := fun k => { k with lastData := s.now, lastPing := if k.lastPing > s.now then s.now else k.lastPing })
        (fun _ => rfl), hk]
      simp only [Option.map_some, hidx, if_true]
      congr 2
      split <;> omega
    · rw [if_neg (fun h => hr ((enrolled_iff _).1 h)), if_neg hr, hk]
  · rw [if_neg (fun h => hj h.1)]
    split
    · exact hk
    · split
      · rw [conn?_updConn (f := fun k => { k with lastData := s.now, lastPing := if k.lastPing > s.now then s.now else k.lastPing })
          (fun _ => rfl), hk]
        simp only [Option.map_some, hidx, if_neg hj]
      · exact hk

/-- **C38** Nothing but data received and the periodic check changes the times noted for a connection; a new
connection starts with the present time. -/
theorem C38_times (h : Reachable s) (h1 : ∀ j, e ≠ .data j) (h2 : ∀ d, e ≠ .tick d) :
    ∀ k' ∈ (step s e).conns, (∃ k ∈ s.conns, k.idx = k'.idx ∧ k.client = k'.client ∧ k.lastData = k'.lastData ∧
      k.lastPing = k'.lastPing) ∨ (k'.client = s.nextRef ∧ k'.lastData = s.now ∧ k'.lastPing = 0) := by
  by_cases ho : (∃ i host a ssl, e = .accept i host a ssl) ∨ ∃ n i a, e = .connect n i a
  · intro k' hk'
    rcases ho with ⟨i, host, a, ssl, rfl⟩ | ⟨n, i, a, rfl⟩
    · simp only [step, newConnection] at hk'
      split at hk'
      · exact .inl ⟨k', hk', rfl, rfl, rfl, rfl⟩
      · have hk'' : k' ∈ newConn (clientNewLocal s i none .unknown) i s.nextRef a ssl :: (clientNewLocal s i none .unknown).conns := hk'
        rw [newLocal_conns] at hk''
        rcases List.mem_cons.1 hk'' with rfl | hk''
        · refine .inr ⟨rfl, ?_, rfl⟩
          show (clientNewLocal s i none .unknown).now = s.now
          exact run_now s (a := .newCl _) (by simp)
        · exact .inl ⟨k', hk'', rfl, rfl, rfl, rfl⟩
    · simp only [step, newServer] at hk'
      split at hk'
      · exact .inl ⟨k', hk', rfl, rfl, rfl, rfl⟩
      · have hk'' : k' ∈ newConn (clientNewLocal s i (some a) .unknownServer) i s.nextRef a false ::
            (clientNewLocal s i (some a) .unknownServer).conns := hk'
        rw [newLocal_conns] at hk''
        rcases List.mem_cons.1 hk'' with rfl | hk''
        · refine .inr ⟨rfl, ?_, rfl⟩
          show (clientNewLocal s i (some a) .unknownServer).now = s.now
          exact run_now s (a := .newCl _) (by simp)
        · exact .inl ⟨k', hk'', rfl, rfl, rfl, rfl⟩
  · have hop : ¬ (evCtx s e True True).opens ∧ ¬ (evCtx s e True True).clock := by
      cases e with
      | accept i host a ssl => exact absurd (.inl ⟨i, host, a, ssl, rfl⟩) ho
      | connect n i a => exact absurd (.inr ⟨n, i, a, rfl⟩) ho
      | data j => exact absurd rfl (h1 j)
      | tick d => exact absurd rfl (h2 d)
      | line i rnd l => simp only [evCtx]; split <;> exact ⟨id, id⟩
      | _ => exact ⟨id, id⟩
    have hsub := steps_conns (fun k => (k.idx, k.client, k.lastData, k.lastPing)) (step_steps_any h.base e) hop.1 (by
      intro t i f hf k
      obtain ⟨a1, a2, -⟩ := hf.keeps k
      rcases hf.times with ht | ht
      · simp only [a1, a2, (ht k).1, (ht k).2]
      · exact absurd ht hop.2)
    intro k' hk'
    obtain ⟨k, hk, he⟩ := List.mem_map.1 (hsub.subset (List.mem_map.2 ⟨k', hk', rfl⟩))
    simp only [Prod.mk.injEq] at he
    exact .inl ⟨k, hk, he.1, he.2.1, he.2.2.1, he.2.2.2⟩

/-! ## Silent clients -/

/-- A run from `s` on. -/
inductive Spec.Run (P : Srv → Event → Prop) (s : Srv) : Srv → Prop
  | start : Run P s s
  | step {t : Srv} (e : Event) : Run P s t → t.fault = false → P t e → Run P s (step t e)

theorem Spec.Run.reachable {P : Srv → Event → Prop} (hr : Reachable s) (h : Run P s t) : Reachable t := by
  induction h with
  | start => exact hr
  | step e _ hf _ ih => exact .step e ih hf

/-- Where the clients come from. -/
theorem steps_enrolled (h : Steps (Okay x) s t) (hb : Base s) (hbad : ¬ x.bad) : ∀ d ∈ t.clients,
    (∃ c ∈ s.clients, c.ref = d.ref ∧ c.conn = d.conn ∧ (c.conn.isSome = true → Enrolled c → Enrolled d)) ∨
    s.nextRef ≤ d.ref := by
  induction h with
  | refl hc => intro d hd; rw [core_clients hc] at hd; exact .inl ⟨d, hd, rfl, rfl, fun _ h => h⟩
  | @tail t0 t' a h0 hp hr ih =>
    intro d hd
    rw [core_clients hr] at hd
    have hb0 := h0.base hb
    rcases run_mem hp hd with ⟨c, hc, hk⟩ | ⟨h1, -⟩
    · rcases ih c hc with ⟨c', hc', e1, e2, e3⟩ | h
      · refine .inl ⟨c', hc', e1.trans hk.ref.symm, e2.trans hk.conn.symm, fun hl he => ?_⟩
        have hec := e3 hl he
        rcases hk.type with ht | ⟨ty, rfl, ht⟩
        · unfold Enrolled at *; rw [ht]; exact hec
        · obtain ⟨-, g2, -⟩ := hp
          rw [cl_of_mem' hb0.cl.ord hc rfl] at g2
          rcases (g2 (by rw [← e2]; exact hl)).2 with ⟨-, g⟩ | g
          · unfold Enrolled
            rw [ht]
            cases ty with
            | user => exact .inl rfl
            | server => exact .inr (.inl rfl)
            | service => exact .inr (.inr rfl)
            | unknown => exact absurd g id
            | gotPass | gotPass2813 =>
              rw [LocalType, cl_of_mem' hb0.cl.ord hc rfl] at g
              rcases g with g | ⟨g, -⟩ <;> rw [Enrolled, g] at hec <;> exact absurd hec (by decide)
            | gotNick =>
              rw [LocalType, cl_of_mem' hb0.cl.ord hc rfl] at g
              rcases g with ⟨-, -, g | g | g⟩ <;> rw [Enrolled, g] at hec <;> exact absurd hec (by decide)
            | gotUser =>
              rw [LocalType, cl_of_mem' hb0.cl.ord hc rfl] at g
              rcases g with ⟨-, g | g⟩ <;> rw [Enrolled, g] at hec <;> exact absurd hec (by decide)
            | waitAuthPing | waitCapEnd =>
              rw [LocalType, cl_of_mem' hb0.cl.ord hc rfl] at g
              rcases g with ⟨g, -⟩ | ⟨g, -⟩ | g | g <;> rw [Enrolled, g] at hec <;> exact absurd hec (by decide)
            | unknownServer =>
              rw [LocalType, cl_of_mem' hb0.cl.ord hc rfl] at g
              rcases g with g | g <;> rw [Enrolled, g] at hec <;> exact absurd hec (by decide)
          · exact absurd g hbad
      · right; rw [hk.ref]; exact h
    · right; rw [h1]; exact steps_nextRef h0

theorem steps_now (h : Steps (Okay x) s t) : s.now ≤ t.now := by
  induction h with
  | refl h => rw [core_now h]; exact Nat.le_refl _
  | @tail t0 t' a h0 hp hr ih =>
    rw [core_now hr]
    by_cases ha : ∃ d, a = .time d
    · obtain ⟨d, rfl⟩ := ha
      exact Nat.le_trans ih (Nat.le_add_right _ _)
    · rw [run_now t0 ha]; exact ih

theorem tick_now (hb0 : Base s) (d : Nat) : s.now + d ≤ (step s (.tick d)).now := by
  have hb : Base { s with now := s.now + d } := ((hb0.act (x := {}) (a := .time d) trivial).of_core rfl)
  exact steps_now (Steps.foldl_base (x := { idle := True, clock := True }) _ _
      (fun s i _ hb => checkConnection_steps trivial trivial hb i) _ hb)

theorem conn_at (hb : Base s) (hk : k ∈ s.conns) : s.conn? k.idx = some k := by
  cases h : s.conn? k.idx with
  | none => exact absurd (List.find?_eq_none.1 h k hk) (by simp)
  | some k' =>
    have := List.find?_some h
    rw [conn_eq_of_idx hb (List.mem_of_find?_eq_some h) hk (by simpa using this)]

/-- The times noted are past. -/
theorem times_past (h : Reachable s) : ∀ k ∈ s.conns, k.lastPing ≤ s.now := by
  induction h with
  | init conf host now =>
    have := steps_conns (x := { loose := True, newConf := some conf }) Conn.ipa
      (channelInitPredefined_steps rfl (clientInit_base conf host now) (.inl trivial)) id
      (fun t i f hf k => (hf.keeps k).2.2)
    have h0 : (Srv.init conf host now).conns = [] := List.map_eq_nil_iff.1 (List.sublist_nil.1 this)
    rw [h0]; intro k hk; cases hk
  | @step s e hr hf ih =>
    intro k' hk'
    have hb := hr.base
    have hb' : Base (step s e) := (step_steps_any hb e).base hb
    have hq := conn_at hb' hk'
    by_cases ht : ∃ d, e = .tick d
    · obtain ⟨d, rfl⟩ := ht
      have hnow := tick_now hb d
      have hsub := steps_conns (x := evCtx s (.tick d) True True) (fun k => k.idx) (step_steps_any hb (.tick d)) id (by
        intro t i f hf k
        exact (hf.keeps k).1)
      obtain ⟨k, hk, he⟩ := List.mem_map.1 (hsub.subset (List.mem_map.2 ⟨k', hk', rfl⟩))
      have hk0 := conn_at hb hk
      obtain ⟨o, -, h2⟩ := C38_tick hr hk0 d
      rw [he, hq] at h2
      have hp := ih k hk
      split at h2
      · cases h2.1
      · split at h2
        · have := congrArg Conn.lastPing (Option.some.inj h2.1)
          rw [this]; exact hnow
        · have := congrArg Conn.lastPing (Option.some.inj h2.1)
          omega
    · have hle := steps_now (step_steps_any hb e)
      by_cases hd : ∃ j, e = .data j
      · obtain ⟨j, rfl⟩ := hd
        obtain ⟨k, hk, he⟩ : ∃ k ∈ s.conns, k.idx = k'.idx := by
          simp only [step, dataReceived] at hk'
          split at hk'
          · exact ⟨k', hk', rfl⟩
          · split at hk'
            · obtain ⟨k, h1, h2⟩ := List.mem_map.1 hk'
              exact ⟨k, h1, by rw [← h2]; split <;> rfl⟩
            · exact ⟨k', hk', rfl⟩
        have hp := ih k hk
        have := C38_data (conn_at hb hk) j
        rw [he, hq, Option.some.injEq] at this
        rw [this]
        split
        · show min k.lastPing s.now ≤ _; omega
        · omega
      · rcases C38_times hr (fun j hj => hd ⟨j, hj⟩) (fun d hd => ht ⟨d, hd⟩) k' hk' with ⟨k, h1, -, -, -, h3⟩ | h
        · have := ih k h1; omega
        · omega

/-- Events of a run in which nothing is received from connection `i` and the configuration stays as it is. -/
def Spec.Silent (i : Nat) (s : Srv) (e : Event) : Prop :=
  PoliteEvent s e ∧ e ≠ .data i ∧ ∀ c, e ≠ .rehash c

/-- Client `r` does not exist any more. -/
def Spec.HasGone (s : Srv) (r : Nat) : Prop := r < s.nextRef ∧ ∀ c ∈ s.clients, c.ref ≠ r

theorem silent_step {r : Nat} (h : Reachable s) (hk : s.conn? i = some k) (hr : k.client = r) (he : Enrolled (s.cl r))
    (hs : Silent i s e) : HasGone (step s e) r ∨ ∃ k', (step s e).conn? i = some k' ∧ k'.client = r ∧
      Enrolled ((step s e).cl r) ∧ k'.lastData = k.lastData ∧
      (k.lastData < k.lastPing → k'.lastPing = k.lastPing) := by
  have hb := h.base
  have hst := step_steps_polite hb hs.1
  have hb' : Base (step s e) := hst.base hb
  have hidx : k.idx = i := by simpa using List.find?_some hk
  obtain ⟨c0, hc0, f1, f2⟩ := hb.cl.connCl k (List.mem_of_find?_eq_some hk)
  have hrlt : r < s.nextRef := by rw [← hr, ← f1]; exact hb.cl.lt c0 hc0
  by_cases hg : ∀ c ∈ (step s e).clients, c.ref ≠ r
  · exact .inl ⟨Nat.lt_of_lt_of_le hrlt (steps_nextRef hst), hg⟩
  · right
    obtain ⟨d, hd, hdr⟩ : ∃ d ∈ (step s e).clients, d.ref = r := by
      apply Classical.byContradiction
      intro h; exact hg (fun c hc hr => h ⟨c, hc, hr⟩)
    rcases steps_enrolled hst hb (evCtx_polite s e).2.2.2.2 d hd with ⟨c, hc, e1, e2, e3⟩ | h'
    · have hcc : c = c0 := by
        rw [← cl_of_mem' hb.cl.ord hc rfl, ← cl_of_mem' hb.cl.ord hc0 rfl, f1, hr, e1, hdr]
      subst hcc
      have hdc : d.conn = some i := by rw [← e2, f2, hidx]
      obtain ⟨k', hk', g1, g2⟩ := hb'.cl.clConn d hd i hdc
      have hq : (step s e).conn? i = some k' := by rw [← g1]; exact conn_at hb' hk'
      have hec : Enrolled c := by rw [← cl_of_mem' hb.cl.ord hc0 (f1.trans hr)]; exact he
      refine ⟨k', hq, g2.trans hdr, ?_, ?_⟩
      · rw [cl_of_mem' hb'.cl.ord hd hdr]
        exact e3 (by rw [f2]; rfl) hec
      · by_cases ht : ∃ d, e = .tick d
        · obtain ⟨n, rfl⟩ := ht
          obtain ⟨o, -, h2⟩ := C38_tick h hk n
          rw [hq] at h2
          split at h2
          · cases h2.1
          · split at h2
            · rename_i hp
              cases h2.1
              exact ⟨rfl, fun hl => absurd hp.2.1 (by omega)⟩
            · cases h2.1; exact ⟨rfl, fun _ => rfl⟩
        · by_cases hdt : ∃ j, e = .data j
          · obtain ⟨j, rfl⟩ := hdt
            have := C38_data hk j
            rw [hq, if_neg (fun h => hs.2.1 (by rw [h.1])), Option.some.injEq] at this
            rw [this]; exact ⟨rfl, fun _ => rfl⟩
          · rcases C38_times h (fun j hj => hdt ⟨j, hj⟩) (fun d hd => ht ⟨d, hd⟩) k' hk' with ⟨k1, h1, h2, h3, h4, h5⟩ | h'
            · have : k1 = k := conn_eq_of_idx hb h1 (List.mem_of_find?_eq_some hk) (by rw [h2, g1, hidx])
              subst this
              exact ⟨h4.symm, fun _ => h5.symm⟩
            · have := h'.1; rw [g2, hdr] at this; omega
    · omega

theorem silent_conf (h : Reachable s) (hs : Silent i s e) :
    (step s e).conf.pingTimeout = s.conf.pingTimeout ∧ (step s e).conf.pongTimeout = s.conf.pongTimeout := by
  have hn : (evCtx s e False True).newConf = none := by
    cases e with
    | rehash c => exact absurd rfl (hs.2.2 c)
    | line i rnd l => simp only [evCtx]; split <;> rfl
    | _ => rfl
  obtain ⟨sv, h'⟩ := steps_conf (step_steps_polite h.base hs.1) hn
  rw [h']; exact ⟨rfl, rfl⟩

theorem steps_origin (h : Steps (Okay x) s t) : ∀ d ∈ t.clients, (∃ c ∈ s.clients, c.ref = d.ref) ∨ s.nextRef ≤ d.ref := by
  induction h with
  | refl hc => intro d hd; rw [core_clients hc] at hd; exact .inl ⟨d, hd, rfl⟩
  | @tail t0 t' a h0 hp hr ih =>
    intro d hd
    rw [core_clients hr] at hd
    rcases run_mem hp hd with ⟨c, hc, hk⟩ | ⟨h1, -⟩
    · rw [hk.ref]; exact ih c hc
    · right; rw [h1]; exact steps_nextRef h0

theorem gone_step {r : Nat} (h : Reachable s) (hg : HasGone s r) (e : Event) : HasGone (step s e) r := by
  have hst := step_steps_any h.base e
  refine ⟨Nat.lt_of_lt_of_le hg.1 (steps_nextRef hst), fun d hd hdr => ?_⟩
  rcases steps_origin hst d hd with ⟨c, hc, e1⟩ | h'
  · exact hg.2 c hc (e1.trans hdr)
  · have := hg.1; omega

/-- **C38** A registered client that stays silent is gone at last: once the periodic check has run more than
PingTimeout after the last data, and again more than PongTimeout later. -/
theorem C38_silent {d1 d2 : Nat} (h : Reachable s) (hk : s.conn? i = some k) (he : Enrolled (s.cl k.client))
    (h1 : Run (Silent i) s t) (hf : t.fault = false)
    (ht1 : k.lastData + s.conf.pingTimeout < t.now + d1)
    (h2 : Run (Silent i) (step t (.tick d1)) u)
    (ht2 : t.now + d1 + s.conf.pongTimeout < u.now + d2) :
    ∀ c ∈ (step u (.tick d2)).clients, c.ref ≠ k.client := by
  have hsil : ∀ w d, Silent i w (.tick d) := fun w d => ⟨fun _ _ _ h => (by cases h), by simp, by simp⟩
  have a1 : (t.conf.pingTimeout = s.conf.pingTimeout ∧ t.conf.pongTimeout = s.conf.pongTimeout) ∧
      (HasGone t k.client ∨ ∃ k', t.conn? i = some k' ∧ k'.client = k.client ∧
      Enrolled (t.cl k.client) ∧ k'.lastData = k.lastData) := by
    clear hf ht1 h2 ht2
    induction h1 with
    | start => exact ⟨⟨rfl, rfl⟩, .inr ⟨k, hk, rfl, he, rfl⟩⟩
    | @step w e hw hf hp ih =>
      have hrw := hw.reachable h
      have hcf := silent_conf hrw hp
      refine ⟨⟨hcf.1.trans ih.1.1, hcf.2.trans ih.1.2⟩, ?_⟩
      rcases ih.2 with hg | ⟨k', b1, b2, b3, b4⟩
      · exact .inl (gone_step hrw hg e)
      · rcases silent_step hrw b1 b2 b3 hp with hg | ⟨k2, c1, c2, c3, c4, -⟩
        · exact .inl hg
        · exact .inr ⟨k2, c1, c2, c3, c4.trans b4⟩
  have hrt := h1.reachable h
  have hrt' : Reachable (step t (.tick d1)) := .step _ hrt hf
  have a2 : HasGone (step t (.tick d1)) k.client ∨ ∃ k', (step t (.tick d1)).conn? i = some k' ∧ k'.client = k.client ∧
      Enrolled ((step t (.tick d1)).cl k.client) ∧ k'.lastData < k'.lastPing ∧ k'.lastPing ≤ t.now + d1 := by
    rcases a1.2 with hg | ⟨k', b1, b2, b3, b4⟩
    · exact .inl (gone_step hrt hg _)
    · rcases silent_step hrt b1 b2 b3 (hsil t d1) with hg | ⟨k2, c1, c2, c3, c4, c5⟩
      · exact .inl hg
      · refine .inr ⟨k2, c1, c2, c3, ?_⟩
        have hpast := times_past hrt k' (List.mem_of_find?_eq_some b1)
        by_cases hl : k'.lastData < k'.lastPing
        · rw [c5 hl]; omega
        · obtain ⟨o, -, g⟩ := C38_tick hrt b1 d1
          rw [c1] at g
          have hpd : PingDue t (t.now + d1) k' := ⟨by rw [b2]; exact b3, by omega, by rw [a1.1.1]; omega⟩
          split at g
          · cases g.1
          · cases g.1
            show k'.lastData < t.now + d1 ∧ t.now + d1 ≤ t.now + d1
            omega
  have a3 : u.conf.pongTimeout = s.conf.pongTimeout ∧ (HasGone u k.client ∨ ∃ k', u.conn? i = some k' ∧ k'.client = k.client ∧
      Enrolled (u.cl k.client) ∧ k'.lastData < k'.lastPing ∧ k'.lastPing ≤ t.now + d1) := by
    clear ht2
    induction h2 with
    | start => exact ⟨(silent_conf hrt (hsil t d1)).2.trans a1.1.2, a2⟩
    | @step w e hw hf hp ih =>
      have hrw := hw.reachable hrt'
      refine ⟨(silent_conf hrw hp).2.trans ih.1, ?_⟩
      rcases ih.2 with hg | ⟨k', b1, b2, b3, b4, b5⟩
      · exact .inl (gone_step hrw hg e)
      · rcases silent_step hrw b1 b2 b3 hp with hg | ⟨k2, c1, c2, c3, c4, c5⟩
        · exact .inl hg
        · exact .inr ⟨k2, c1, c2, c3, by rw [c4, c5 b4]; exact b4, by rw [c5 b4]; exact b5⟩
  have hru := h2.reachable hrt'
  rcases a3.2 with hg | ⟨k', b1, b2, b3, b4, b5⟩
  · exact (gone_step hru hg _).2
  · obtain ⟨o, -, g⟩ := C38_tick hru b1 d2
    rw [if_pos (by unfold Overdue; rw [b2, if_pos b3, a3.1]; omega), b2] at g
    exact g.2.1

example : Reachable Sample.s5 ∧ Sample.s5.fault = false ∧
    (∃ k, Sample.s5.conn? 5 = some k ∧ Enrolled (Sample.s5.cl k.client) ∧
      k.lastData + Sample.s5.conf.pingTimeout < Sample.s5.now + 200) ∧
    Run (Silent 5) Sample.s5 Sample.s5 ∧
    Run (Silent 5) (step Sample.s5 (.tick 200)) (step (step Sample.s5 (.tick 200)) (.data 6)) ∧
    Sample.s5.now + 200 + Sample.s5.conf.pongTimeout < (step (step Sample.s5 (.tick 200)) (.data 6)).now + 100 := by
  refine ⟨Sample.reach_s5, by decide +kernel, ?_, .start, .step _ .start (by decide +kernel)
    ⟨fun _ _ _ h => (by cases h), fun h => (by cases h), fun _ h => (by cases h)⟩, by decide +kernel⟩
  have h : (Sample.s5.conn? 5).any (fun k => decide (Enrolled (Sample.s5.cl k.client) ∧
      k.lastData + Sample.s5.conf.pingTimeout < Sample.s5.now + 200)) = true := by decide +kernel
  obtain ⟨h1, h2⟩ := (Option.any_eq_true_iff_get _ _).1 h
  exact ⟨_, (Option.some_get h1).symm, of_decide_eq_true h2⟩

end Ngircd
