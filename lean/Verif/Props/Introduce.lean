import Verif.Lemmas.Introduce
import Verif.Spec.SampleNet
import Verif.Props.Kill

/-!
# C67: a newly introduced user or service becomes known to the whole network
-/

set_option linter.unusedSimpArgs false

namespace Ngircd
open Spec

variable {s : Srv} {i : Nat} {l : Str} {cl : Nat} {req : Request} {home : Client}

/-- The name is in use by nobody. -/
def Spec.FreeName (s : Srv) (n : Str) : Prop := ∀ c ∈ s.clients, c.id ≠ [] → ¬ SameCase c.id (nickPart n)

/-- `home` is the only server that the link `cl` has announced with the token `tok`. -/
structure Spec.Homed (s : Srv) (cl : Nat) (tok : Int) (home : Client) : Prop where
  mem : home ∈ s.clients
  type : home.type = .server
  via : home.introducer = cl
  token : home.token = tok
  nonzero : tok ≠ 0
  only : ∀ d ∈ s.clients, d.type = .server → d.introducer = cl → d.token = tok → d = home

theorem homed_token {tok : Int} (h : Homed s cl tok home) : clientGetFromToken s cl tok = some home := by
  simp only [clientGetFromToken, if_neg h.nonzero]
  cases hq : s.clients.find? (fun c => c.type = .server && c.introducer == cl && c.token == tok) with
  | none =>
    exact absurd (by simp [h.type, h.via, h.token]) (List.find?_eq_none.1 hq home h.mem)
  | some d =>
    have h2 := List.find?_some hq
    simp only [Bool.and_eq_true, decide_eq_true_eq, beq_iff_eq] at h2
    rw [h.only d (List.mem_of_find?_eq_some hq) h2.1.1 h2.1.2 h2.2]

theorem free_search (h : PoliteRun s) {n : Str} (hn : FreeName s n) : clientSearch s n = none := by
  cases hq : clientSearch s n with
  | none => rfl
  | some c =>
    obtain ⟨h1, h2, h3⟩ := (C13_lookup h n c).1 hq
    exact absurd h3 (hn c h1 h2)

theorem freeName_of {n : Str} (h : ∀ c ∈ s.clients, caseEq c.id (nickPart n) = false) : FreeName s n :=
  fun c hc _ hs => by
    have := (caseEq_same _ _).2 hs
    rw [h c hc] at this
    cases this

theorem introduce_told (hb : Base s) (hr : Received s i l cl req) (rnd : Int) {c : Client} (hc : c.ref = s.nextRef) (hcn : c.conn = none)
    {ty : CType} (hty : ty ≠ .server) (hst : step s (.line i rnd l) = clientIntroduce (initNewClient (s.roll rnd) c) (some cl) s.nextRef ty) :
    ∃ n o ty', (IsServiceOf s i c.ID → ty' = .service) ∧ (¬ IsServiceOf s i c.ID → ty' = ty) ∧
      Emitted (withNewcomer s { c with type := ty' } n) (step s (.line i rnd l)) o ∧
      Introduced (withNewcomer s { c with type := ty' } n) i (s.cl cl) { c with type := ty' } o := by
  obtain ⟨g1, g2, g3, g4⟩ := hr.owner hb
  have hb' : Base (step s (.line i rnd l)) := (step_steps_any hb _).base hb
  obtain ⟨n, ty', h1, h2, h3⟩ := introduce_new (s := s.roll rnd) (c := c) (f := cl) (i := i) (Base.of_core (s := s) rfl hb) hc hcn g1 g2 g3 hty
  have hT := hst.trans h3
  have hbt : Base (withNewcomer s { c with type := ty' } n) := by
    refine Base.of_core ?_ hb'
    rw [hT]; rfl
  have := introduced (t := (withNewcomer s { c with type := ty' } n).roll rnd) (Base.of_core (s := withNewcomer s { c with type := ty' } n) rfl hbt) (c := s.cl cl)
    (List.mem_cons_of_mem _ g1) g3 (s.cl cl) { c with type := ty' }
  rw [g2] at this
  exact ⟨n, _, ty', h1, h2, ⟨rnd, hT⟩, this.links, this.others⟩

/-- **C67** A linked server introduces a user of a server `home` it has announced, with a nick nobody has: afterwards exactly
this client is there in addition, nothing else has changed, every other linked server has got the introduction,
and nobody else has got anything. -/
theorem C67_user (h : PoliteRun s) (hr : Received s i l cl req) (hs : (s.cl cl).type = .server) (his : Is req "NICK")
    {nick hops user host tok modes info : Str} (hargs : req.argv = [nick, hops, user, host, tok, modes, info]) (hne : nick ≠ [])
    (hfree : FreeName s nick) (hh : Homed s cl (atoi tok) home) (rnd : Int) :
    ∃ n o ty, (IsServiceOf s i (nick.take 63) → ty = .service) ∧ (¬ IsServiceOf s i (nick.take 63) → ty = .user) ∧
      Emitted (withNewcomer s (newcomer s ty home nick (atoi hops) user host (atoi tok) (modes.drop 1) info) n) (step s (.line i rnd l)) o ∧
      Introduced (withNewcomer s (newcomer s ty home nick (atoi hops) user host (atoi tok) (modes.drop 1) info) n) i (s.cl cl)
        (newcomer s ty home nick (atoi hops) user host (atoi tok) (modes.drop 1) info) o := by
  have hb := h.reachable.base
  have hst : step s (.line i rnd l) = (ircNICK (s.roll rnd) cl req).1 :=
    step_do hr rnd his rfl (by rw [hs]; rfl) (by simp only [Command.argcOk, Request.argc, hargs]; rfl)
  have hrun : (ircNICK (s.roll rnd) cl req).1 = clientIntroduce (initNewClient (s.roll rnd)
      (newcomer s .user home nick (atoi hops) user host (atoi tok) (modes.drop 1) info)) (some cl) s.nextRef .user := by
    have e1 : clientSearch (s.roll rnd) nick = none := free_search h hfree
    have e2 : clientGetFromToken (s.roll rnd) cl (atoi tok) = some home := homed_token (s := s) hh
    have hi : nickIntro (s.roll rnd) cl req = ⟨atoi hops, user, host, atoi tok, modes.drop 1, info⟩ := by
      simp only [nickIntro, Request.argc, Request.arg, hargs]; rfl
    simp only [ircNICK]
    rw [roll_cl, hs]
    rw [if_neg (by decide), if_pos rfl, if_neg (by simp only [Request.argc, hargs]; simp)]
    simp only [nickRemote, hi]
    rw [if_neg (by simp only [Request.argc, hargs]; simp)]
    simp only [Request.arg, hargs, List.getD_cons_zero, e1, e2]
    rw [if_neg (by simp only [Request.argc, hargs]; simp)]
    simp only [clientNewRemoteUser, newClientC_newcomer]
    rfl
  have hID : (newcomer s .user home nick (atoi hops) user host (atoi tok) (modes.drop 1) info).ID = nick.take 63 := by
    simp only [Client.ID, newcomer]
    cases nick with
    | nil => exact absurd rfl hne
    | cons a b => rfl
  have := introduce_told hb hr rnd (c := newcomer s .user home nick (atoi hops) user host (atoi tok) (modes.drop 1) info) rfl rfl
    (ty := .user) (by decide) (hst.trans hrun)
  rw [hID] at this
  exact this

/-- A peer with servers behind it introduces a user of the farther one; the other link (not RFC 1459) gets one line. -/
example : ∃ req, PoliteRun Sample.net ∧ Received Sample.net 7 ":far.example.net NICK tom 2 tom host.example 5 +i :Tom T".toList 6 req ∧
    (Sample.net.cl 6).type = .server ∧ Is req "NICK" ∧
    req.argv = ["tom".toList, "2".toList, "tom".toList, "host.example".toList, "5".toList, "+i".toList, "Tom T".toList] ∧
    FreeName Sample.net "tom".toList ∧ Homed Sample.net 6 (atoi "5".toList) (Sample.net.cl 8) ∧
    isLink Sample.net 8 = true ∧ oldStyle Sample.net 8 = false :=
  ⟨⟨some "far.example.net".toList, "NICK".toList, ["tom".toList, "2".toList, "tom".toList, "host.example".toList, "5".toList, "+i".toList, "Tom T".toList]⟩,
    Sample.polite_net, recv_sound (by decide +kernel), by decide +kernel, by simp only [Is]; decide, rfl, freeName_of (by decide +kernel),
    ⟨by decide +kernel, by decide +kernel, by decide +kernel, by decide +kernel, by decide +kernel, by decide +kernel⟩, by decide +kernel, by decide +kernel⟩

/-- A service is introduced by its nick, or by nick, user and host. -/
def Spec.ServiceName (name : Str) (home : Client) (nick user host : Str) : Prop :=
  '!' ∉ nick ∧ '@' ∉ nick ∧ ((name = nick ∧ user = nick ∧ host = home.host) ∨ (name = nick ++ '!' :: user ++ '@' :: host ∧ '@' ∉ user))

theorem service_parts {name nick user host : Str} (h : ServiceName name home nick user host) :
    cutAt (cutAt name '@') '!' = nick ∧ afterOr (cutAt name '@') '!' nick = user ∧ afterOr name '@' home.host = host := by
  obtain ⟨h1, h2, ⟨rfl, rfl, rfl⟩ | ⟨rfl, h4⟩⟩ := h
  · refine ⟨?_, ?_, ?_⟩
    · rw [cutAt_of_not_mem h2, cutAt_of_not_mem h1]
    · rw [cutAt_of_not_mem h2, afterOr, strchr_none.2 h1]
    · rw [afterOr, strchr_none.2 h2]
  · have h5 : '@' ∉ nick ++ '!' :: user := by
      simp only [List.mem_append, List.mem_cons, not_or]
      exact ⟨h2, by decide, h4⟩
    have e : cutAt (nick ++ '!' :: user ++ '@' :: host) '@' = nick ++ '!' :: user := cutAt_at h5
    refine ⟨?_, ?_, ?_⟩
    · rw [e, cutAt_at h1]
    · rw [e, afterOr, strchr_at h1]; rfl
    · rw [afterOr, strchr_at h5]; rfl

/-- **C67** The same for a service. -/
theorem C67_service (h : PoliteRun s) (hr : Received s i l cl req) (hs : (s.cl cl).type = .server) (his : Is req "SERVICE")
    {name nick user host tok dist modes hops info : Str} (hargs : req.argv = [name, tok, dist, '+' :: modes, hops, info])
    (hname : ServiceName name home nick user host)
    (hfree : FreeName s name) (hh : Homed s cl (atoi tok) home) (rnd : Int) :
    ∃ n o, Emitted (withNewcomer s (newcomer s .service home nick (atoi hops) user host (atoi tok) modes info) n) (step s (.line i rnd l)) o ∧
      Introduced (withNewcomer s (newcomer s .service home nick (atoi hops) user host (atoi tok) modes info) n) i (s.cl cl)
        (newcomer s .service home nick (atoi hops) user host (atoi tok) modes info) o := by
  have hb := h.reachable.base
  have hst : step s (.line i rnd l) = (ircSERVICE (s.roll rnd) cl req).1 :=
    step_do hr rnd his rfl (by rw [hs]; rfl) (by simp only [Command.argcOk, Request.argc, hargs]; rfl)
  have hrun : (ircSERVICE (s.roll rnd) cl req).1 = clientIntroduce (initNewClient (s.roll rnd)
      (newcomer s .user home nick (atoi hops) user host (atoi tok) modes info)) (some cl) s.nextRef .service := by
    have e1 : clientSearch (s.roll rnd) name = none := free_search h hfree
    have e2 : clientGetFromToken (s.roll rnd) cl (atoi tok) = some home := homed_token (s := s) hh
    obtain ⟨p1, p2, p3⟩ := service_parts hname
    simp only [ircSERVICE]
    rw [roll_cl, hs]
    rw [if_neg (by decide), if_neg (by decide)]
    simp only [Request.arg, hargs, List.getD_cons_zero, List.getD_cons_succ, e1, e2, p1, p2, p3, List.head?_cons, if_true, List.tail_cons]
    simp only [clientNewRemoteUser, newClientC_newcomer]
    rfl
  obtain ⟨n, o, ty, h1, h2, h3, h4⟩ := introduce_told hb hr rnd (c := newcomer s .user home nick (atoi hops) user host (atoi tok) modes info) rfl rfl
    (ty := .service) (by decide) (hst.trans hrun)
  have : ty = .service := by
    by_cases g : IsServiceOf s i (newcomer s .user home nick (atoi hops) user host (atoi tok) modes info).ID
    · exact h1 g
    · exact h2 g
  subst this
  exact ⟨n, o, h3, h4⟩

/-- The peer has a service. -/
example : ∃ req, PoliteRun Sample.net ∧ Received Sample.net 7 ":peer.example.net SERVICE help!srv@host.example 1 * +oi 1 :Help".toList 6 req ∧
    (Sample.net.cl 6).type = .server ∧ Is req "SERVICE" ∧
    req.argv = ["help!srv@host.example".toList, "1".toList, "*".toList, '+' :: "oi".toList, "1".toList, "Help".toList] ∧
    ServiceName "help!srv@host.example".toList (Sample.net.cl 6) "help".toList "srv".toList "host.example".toList ∧
    FreeName Sample.net "help!srv@host.example".toList ∧ Homed Sample.net 6 (atoi "1".toList) (Sample.net.cl 6) ∧
    isLink Sample.net 8 = true ∧ 'S' ∈ (Sample.net.cl 10).flags :=
  ⟨⟨some "peer.example.net".toList, "SERVICE".toList, ["help!srv@host.example".toList, "1".toList, "*".toList, '+' :: "oi".toList, "1".toList, "Help".toList]⟩,
    Sample.polite_net, recv_sound (by decide +kernel), by decide +kernel, by simp only [Is]; decide, rfl,
    ⟨by decide, by decide, .inr ⟨by decide, by decide⟩⟩, freeName_of (by decide +kernel),
    ⟨by decide +kernel, by decide +kernel, by decide +kernel, by decide +kernel, by decide +kernel, by decide +kernel⟩, by decide +kernel, by decide +kernel⟩

/-! ## The old protocol -/

/-- The state with the client `r` changed by `g`; the highest number of users seen so far is now `n`. -/
def Spec.withCompleted (s : Srv) (r : Nat) (g : Client → Client) (n : Nat) : Srv := { withClient s r g with maxUsers := n }

/-- What the `USER` of the old protocol completes. -/
def Spec.completed (conf : Conf) (ty : CType) (user host info : Str) (c : Client) : Client :=
  { c with type := ty, host := knownHost conf c.host host, user := (if conf.cloakUserToNick then c.id else user).take 19,
           info := (if conf.cloakUserToNick then c.id else info).take 127 }

theorem setType_remote {g : Client → Client} {r n : Nat} {w : Client} (hb : Base s) (hw : w ∈ s.clients) (hwr : w.ref = r) (hg : ∀ c, (g c).ref = c.ref)
    (hgc : (g w).conn = none) {ty : CType} (hty : ty ≠ .server) :
    ∃ m, clientSetType (withCompleted s r g n) r ty = withCompleted s r (fun c => { g c with type := ty }) m := by
  have h1 : (withCompleted s r g n).updCl r (fun c => { c with type := ty }) = withCompleted s r (fun c => { g c with type := ty }) n := by
    simp only [Srv.updCl, withCompleted, withClient, List.map_map]
    congr 1
    refine List.map_congr_left (fun d _ => ?_)
    simp only [Function.comp]
    by_cases h : d.ref = r
    · rw [if_pos h, if_pos (by rw [hg]; exact h), if_pos h]
    · rw [if_neg h, if_neg h, if_neg h]
  have h2 : (withCompleted s r (fun c => { g c with type := ty }) n).cl r = { g w with type := ty } := by
    have := cl_updCl s r r (fun c => { g c with type := ty }) hg (fun _ => by rw [← hwr, cl?_of_mem hb.cl.ord hw]; rfl)
    rw [if_pos rfl, cl_of_mem' hb.cl.ord hw hwr] at this
    exact this
  simp only [clientSetType, if_neg hty]
  rw [h1, h2]
  simp only [adjustCounters]
  split
  · exact ⟨n, rfl⟩
  · simp only [hgc]
    exact ⟨_, rfl⟩

theorem completed_cl {g : Client → Client} {r n : Nat} (hg : ∀ c, (g c).ref = c.ref) {w : Client} (hb : Base s) (hw : w ∈ s.clients) (hwr : w.ref = r) :
    (withCompleted s r g n).cl r = g w := by
  have := cl_updCl s r r g hg (fun _ => by rw [← hwr, cl?_of_mem hb.cl.ord hw]; rfl)
  rw [if_pos rfl, cl_of_mem' hb.cl.ord hw hwr] at this
  exact this

theorem completed_old {g : Client → Client} {r n q : Nat} (hg : ∀ c, (g c).ref = c.ref) (hne : q ≠ r) :
    (withCompleted s r g n).cl q = s.cl q := by
  have := cl_updCl s r q g hg (fun h => absurd h hne)
  rw [if_neg hne] at this
  exact this

/-- **C67** With the old protocol the introduction is complete with the `USER` after the `NICK`. -/
theorem C67_old (h : PoliteRun s) (hr : Received s i l cl req) (hs : (s.cl cl).type = .server) (his : Is req "USER")
    {user host srv info p : Str} (hargs : req.argv = [user, host, srv, info]) (hpre : req.prefix? = some p) {w : Client} (hw : w ∈ s.clients)
    (hwi : w.id ≠ []) (hwn : SameCase w.id (nickPart p)) (hwt : w.type = .gotNick) (hwc : w.conn = none) (rnd : Int) :
    ∃ n o ty, (IsServiceOf s i w.id → ty = .service) ∧ (¬ IsServiceOf s i w.id → ty = .user) ∧
      Emitted (withCompleted s w.ref (completed s.conf ty user host info) n) (step s (.line i rnd l)) o ∧
      Introduced (withCompleted s w.ref (completed s.conf ty user host info) n) i (s.cl cl) (completed s.conf ty user host info w) o := by
  have hb := h.reachable.base
  obtain ⟨g1, g2, g3, g4⟩ := hr.owner hb
  have hne : cl ≠ w.ref := by
    intro he
    rw [he, cl_of_mem hb.cl.ord hw] at g3
    rw [hwc] at g3; cases g3
  have hst : step s (.line i rnd l) = (ircUSER (s.roll rnd) cl req).1 :=
    step_do hr rnd his rfl (by rw [hs]; rfl) (by simp only [Command.argcOk, Request.argc, hargs]; rfl)
  obtain ⟨R, hR⟩ : ∃ R, R = s.roll rnd := ⟨_, rfl⟩
  have hbR : Base R := by rw [hR]; exact Base.of_core (s := s) rfl hb
  have hwR : w ∈ R.clients := by rw [hR]; exact hw
  have hmid' : clientSetInfo (clientSetHostname (clientSetUser R w.ref user true) w.ref host) w.ref info =
      withCompleted R w.ref (fun c => { completed s.conf .user user host info c with type := c.type }) R.maxUsers := by
    have hcf : s.conf = R.conf := by rw [hR]; rfl
    rw [hcf]
    simp only [clientSetInfo, clientSetHostname, clientSetUser, Srv.updCl, List.map_map, withCompleted, withClient, setHostC_known]
    congr 1
    refine List.map_congr_left (fun d _ => ?_)
    simp only [Function.comp]
    have e1 : ∀ c : Client, (setUserC R.conf c user true).ref = c.ref := by
      intro c; simp only [setUserC]; split <;> rfl
    by_cases hd : d.ref = w.ref
    · simp only [hd, if_true, e1]
      simp only [setInfoC, setUserC, completed, hd]
      cases R.conf.cloakUserToNick <;> simp [strlcpy, CLIENT_USER_LEN, CLIENT_INFO_LEN]
    · simp only [if_neg hd]
  obtain ⟨m1, hm1⟩ := setType_remote (s := R) (w := w) (r := w.ref) (n := R.maxUsers)
    (g := fun c => { completed s.conf .user user host info c with type := c.type }) hbR hwR rfl (fun _ => rfl) hwc (ty := .user) (by decide)
  have hm1' : clientSetType (withCompleted R w.ref (fun c => { completed s.conf .user user host info c with type := c.type }) R.maxUsers) w.ref .user =
    withCompleted R w.ref (completed s.conf .user user host info) m1 := hm1
  have hID : (completed s.conf .user user host info w).ID = w.id := by
    have : (completed s.conf .user user host info w).ID = w.ID := rfl
    rw [this, Client.ID, if_neg (by simpa using hwi)]
  have e1 : (withCompleted R w.ref (completed s.conf .user user host info) m1).cl w.ref = completed s.conf .user user host info w :=
    completed_cl (g := completed s.conf .user user host info) (fun _ => rfl) hbR hwR rfl
  have eR : R.cl cl = s.cl cl := by rw [hR]; rfl
  have e2 : (withCompleted R w.ref (completed s.conf .user user host info) m1).cl cl = s.cl cl :=
    (completed_old (g := completed s.conf .user user host info) (fun _ => rfl) hne).trans eR
  have e3 : introducedAsService (withCompleted R w.ref (completed s.conf .user user host info) m1) (s.cl cl) (completed s.conf .user user host info w) = true ↔
      IsServiceOf s i w.id := by
    simp only [introducedAsService, g3, hID]
    have := confGetServer_iff (withCompleted R w.ref (completed s.conf .user user host info) m1) i w.id
    rw [hR] at this ⊢
    exact this
  have hsearch : clientSearch R p = some w := by
    rw [hR]; exact (C13_lookup h p w).2 ⟨hw, hwi, hwn⟩
  have hrun : (ircUSER R cl req).1 = clientIntroduce (withCompleted R w.ref (fun c => { completed s.conf .user user host info c with type := c.type }) R.maxUsers)
      (some cl) w.ref .user := by
    simp only [ircUSER]
    rw [eR, hs]
    rw [if_neg (by decide), if_pos (by decide), if_neg (by simp only [Request.argc, hargs]; simp)]
    simp only [hpre, hsearch, hwt, if_true]
    rw [← hmid']
    simp only [Request.arg, hargs, List.getD_cons_zero, List.getD_cons_succ]
  have hb' : Base (step s (.line i rnd l)) := (step_steps_any hb _).base hb
  have fin : ∀ (ty : CType) (m : Nat), clientIntroduce (withCompleted R w.ref (fun c => { completed s.conf .user user host info c with type := c.type }) R.maxUsers)
      (some cl) w.ref .user = (withCompleted R w.ref (completed s.conf ty user host info) m).emits
        ((peerServers (withCompleted R w.ref (completed s.conf ty user host info) m) (some cl) none).flatMap (fun to =>
          announceMsgs (withCompleted R w.ref (completed s.conf ty user host info) m) to (s.cl cl) (completed s.conf ty user host info w))) →
      ∃ o, Emitted (withCompleted s w.ref (completed s.conf ty user host info) m) (step s (.line i rnd l)) o ∧
        Introduced (withCompleted s w.ref (completed s.conf ty user host info) m) i (s.cl cl) (completed s.conf ty user host info w) o := by
    intro ty m he
    have hT := hst
    rw [← hR] at hT
    replace hT := hT.trans (hrun.trans he)
    have hbt : Base (withCompleted R w.ref (completed s.conf ty user host info) m) := by
      refine Base.of_core ?_ hb'
      rw [hT]; rfl
    have hmem : s.cl cl ∈ (withCompleted R w.ref (completed s.conf ty user host info) m).clients := by
      have := List.mem_map_of_mem (f := fun d => if d.ref = w.ref then completed s.conf ty user host info d else d) g1
      simp only [g2] at this
      rw [if_neg hne] at this
      rw [hR]; exact this
    have := introduced hbt (c := s.cl cl) hmem g3 (s.cl cl) (completed s.conf ty user host info w)
    rw [g2] at this
    subst hR
    exact ⟨_, ⟨rnd, hT⟩, this.links, this.others⟩
  by_cases hsv : IsServiceOf s i w.id
  · obtain ⟨m2, hm2⟩ := setType_remote (s := R) (w := w) (r := w.ref) (n := m1)
      (g := completed s.conf .user user host info) hbR hwR rfl (fun _ => rfl) hwc (ty := .service) (by decide)
    have hm2' : clientSetType (withCompleted R w.ref (completed s.conf .user user host info) m1) w.ref .service =
      withCompleted R w.ref (completed s.conf .service user host info) m2 := hm2
    have e4 : (withCompleted R w.ref (completed s.conf .service user host info) m2).cl w.ref = completed s.conf .service user host info w :=
      completed_cl (g := completed s.conf .service user host info) (fun _ => rfl) hbR hwR rfl
    have e5 : (withCompleted R w.ref (completed s.conf .service user host info) m2).cl cl = s.cl cl :=
      (completed_old (g := completed s.conf .service user host info) (fun _ => rfl) hne).trans eR
    obtain ⟨o, ho⟩ := fin .service m2 (by
      simp only [clientIntroduce, hm1', e1, e2]
      rw [if_pos (e3.2 hsv), hm2']
      simp only [e4, e5])
    exact ⟨m2, o, .service, fun _ => rfl, fun h => absurd hsv h, ho⟩
  · obtain ⟨o, ho⟩ := fin .user m1 (by
      simp only [clientIntroduce, hm1', e1, e2]
      rw [if_neg (fun h => hsv (e3.1 h))]
      simp only [e1, e2])
    exact ⟨m1, o, .user, fun h => absurd h hsv, fun _ => rfl, ho⟩

/-- The old-style peer of a network with two links. -/
def Sample.netOld : Srv := Sample.lines Sample.net 7 [":peer.example.net NICK tom 1"]

/-- The peer has sent the first half. -/
example : ∃ req, PoliteRun Sample.netOld ∧ Received Sample.netOld 7 ":tom USER tom host.example peer.example.net :Tom T".toList 6 req ∧
    (Sample.netOld.cl 6).type = .server ∧ Is req "USER" ∧
    req.argv = ["tom".toList, "host.example".toList, "peer.example.net".toList, "Tom T".toList] ∧ req.prefix? = some "tom".toList ∧
    Sample.netOld.cl 11 ∈ Sample.netOld.clients ∧ (Sample.netOld.cl 11).id ≠ [] ∧ SameCase (Sample.netOld.cl 11).id (nickPart "tom".toList) ∧
    (Sample.netOld.cl 11).type = .gotNick ∧ (Sample.netOld.cl 11).conn = none ∧ isLink Sample.netOld 8 = true :=
  ⟨⟨some "tom".toList, "USER".toList, ["tom".toList, "host.example".toList, "peer.example.net".toList, "Tom T".toList]⟩,
    (Sample.fine_lines Sample.fine_net 7 [":peer.example.net NICK tom 1"] (by decide +kernel)).mono (fun _ h => h.1) (fun _ _ h => h.1),
    recv_sound (by decide +kernel), by decide +kernel, by simp only [Is]; decide, rfl, rfl, by decide +kernel, by decide +kernel,
    (caseEq_same _ _).1 (by decide +kernel), by decide +kernel, by decide +kernel, by decide +kernel⟩

end Ngircd
