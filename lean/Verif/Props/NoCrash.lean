import Verif.Spec.Crash
import Verif.Spec.SamplePolite
import Verif.Lemmas.CalmOper
import Verif.Lemmas.SrvLinks
import Verif.Props.Links
import Verif.Props.Welcome
import Verif.Props.NetInfo

/-!
# C80: clients cannot make the server do something undefined
-/

set_option linter.unusedSimpArgs false

namespace Ngircd
open Spec

variable {s t : Srv} {c d : Client} {cl i : Nat} {l : Str} {req : Request}

/-! ## The situation of a request -/

theorem routed_all (h : PoliteRun s) (hc : c ∈ s.clients) (hne : c.ref ≠ s.this) : Routed s c := by
  have hb := h.reachable.base
  obtain ⟨j, o, -, hbe, -⟩ := behind_some hb (polite_kind h) _ c hc (Nat.le_refl _) hne
  rw [Routed, (nextHop_conn hb hc).2 hbe]
  rfl

theorem local_ne (hb : Base s) (hc : c ∈ s.clients) (hs : c.conn.isSome = true) : c.ref ≠ s.this := by
  intro e
  obtain ⟨z, hz, z1, -, z2, -⟩ := hb.cl.self
  rw [hb.cl.ord.eq_of_ref hc hz (e.trans z1.symm), z2] at hs
  cases hs

theorem here_mem (hb : Base s) : s.cl s.this ∈ s.clients ∧ (s.cl s.this).type = .server := by
  obtain ⟨z, hz, z1, z3, -⟩ := hb.cl.self
  rw [cl_of_mem' hb.cl.ord hz z1]
  exact ⟨hz, z3⟩

theorem conn_open (hb : Base s) (hc : c ∈ s.clients) (hi : c.conn = some i) : (s.conn? i).isSome = true := by
  obtain ⟨k, hk, -⟩ := conn?_of_mem hb.cl hc hi
  rw [hk]; rfl

theorem home_of (h : PoliteRun s) (hk : Owner s i cl) : Home s cl := by
  have hb := h.reachable.base
  obtain ⟨k, hk, h1, h2⟩ := hk
  obtain ⟨c, hc, c1, c2⟩ := hb.cl.connCl k hk
  have hcl : s.cl cl = c := cl_of_mem' hb.cl.ord hc (c1.trans h2)
  have hne : c.ref ≠ s.this := local_ne hb hc (by rw [c2]; rfl)
  refine ⟨⟨?_, fun c hc hne => routed_all h hc hne⟩, ?_, ?_, ⟨i, ?_, ?_⟩, (polite_nick h).conf, ?_, (here_mem hb).2, fun c hc hs => local_ne hb hc hs⟩
  · rw [hcl]; exact routed_all h hc hne
  · rw [hcl]; exact hc
  · rw [hcl]; exact c1.trans h2
  · rw [hcl, c2, h1]
  · exact conn_open hb hc (by rw [c2, h1])
  · rw [← h2, ← c1]; exact hne

theorem wide_of (h : PoliteRun s) (hh : Home s cl) : Wide s cl := by
  have hb := h.reachable.base
  refine ⟨hh.ref, fun c hc i hi => conn_open hb hc hi, fun c hc hne => ?_, fun k hk => ?_, fun p hp => ?_⟩
  · have hr := routed_all h hc hne
    have hm : nextHop s c ∈ s.clients := nextHop_mem hc hr
    rw [Routed, hb.nextHop_conn hm hr]
    exact hr
  · obtain ⟨c, hc, c1, c2⟩ := hb.cl.connCl k hk
    rw [cl_of_mem' hb.cl.ord hc c1]
    exact routed_all h hc (local_ne hb hc (by rw [c2]; rfl))
  · obtain ⟨k, hk, e⟩ := reach_srv h.reachable p hp
    obtain ⟨c, hc, c1, c2⟩ := hb.cl.connCl k hk
    exact conn_open hb hc (by rw [c2, e])

theorem ready_of (h : PoliteRun s) (hr : Received s i l cl req) (ht : (s.cl cl).type ≠ .server) : Ready s cl req := by
  have hb := h.reachable.base
  have ha := hr.asker hb 0
  obtain ⟨g1, g2, g3, g4⟩ := hr.owner hb
  refine ⟨routed_all h g1 (by rw [g2]; exact g4), ht, fun c hc hne => routed_all h hc hne, fun c hc hne => ?_,
    fun c hc => cl_of_mem' hb.cl.ord hc rfl, (here_mem hb).1, fun p c hp hs => ?_⟩
  · cases hcn : c.conn with
    | none =>
      obtain ⟨p, hp, e, -⟩ := (polite_kind h).intro c hc hcn
      rw [cl_of_mem' hb.cl.ord hp e]
      exact routed_all h hp (by rw [e]; exact hne)
    | some j =>
      have hl : c.introducer = c.ref := (hb.cl.loc c hc (by rw [hcn]; rfl)).resolve_right hne
      rw [hl, cl_of_mem' hb.cl.ord hc rfl]
      exact routed_all h hc (by rw [← hl]; exact hne)
  · refine routed_all h (List.mem_of_find?_eq_some hs) (fun e => ?_)
    have h1 := ha.pre p c hp hs
    obtain ⟨z, hz, z1, -, -, z2⟩ := hb.cl.self
    have hcz : c = z := hb.cl.ord.eq_of_ref (List.mem_of_find?_eq_some hs) hz (e.trans z1.symm)
    rw [nextHop_self (u := s.roll 0) (.inr (by rw [hcz]; exact z2)), e] at h1
    exact g4 h1.symm

theorem Ready.roll (h : Ready s cl req) (rnd : Int) : Ready (s.roll rnd) cl req := by
  have hm : Mild s (s.roll rnd) := (Calm.of_eq (s := s) (t := s.roll rnd) rfl rfl rfl).toMild
  exact ⟨hm.routed rfl h.me, h.ty, fun c hc hne => hm.routed rfl (h.all c hc hne), fun c hc hne => hm.routed rfl (h.intro c hc hne), h.self, h.here,
    fun p c h1 h2 => hm.routed rfl (h.pre p c h1 h2)⟩

theorem Home.roll (h : Home s cl) (rnd : Int) : Home (s.roll rnd) cl :=
  h.mild (t := s.roll rnd) (Calm.of_eq (s := s) (t := s.roll rnd) rfl rfl rfl).toMild rfl (fun _ => rfl) h.here

theorem Wide.roll (h : Wide s cl) (rnd : Int) : Wide (s.roll rnd) cl := by
  have hm : Mild s (s.roll rnd) := (Calm.of_eq (s := s) (t := s.roll rnd) rfl rfl rfl).toMild
  refine ⟨h.ref, h.opens, fun c hc hne => ?_, fun k hk => hm.routed rfl (h.owned k hk), h.links⟩
  rw [nextHop_core (s := s) (t := s.roll rnd) rfl c]
  exact hm.routed rfl (h.hop c hc hne)

/-! ## Every command -/

theorem pong_login (hi : (s.cl cl).conn = some i) (hp : ∀ k ∈ s.conns, k.client = cl → k.pwd = s.conf.serverPwd)
    (hk : ∃ k, s.conn? i = some k ∧ k.client = cl)
    (hg : ¬ Covers s s.glines (s.cl cl)) (hl : ¬ Covers s s.klines (s.cl cl)) :
    (loginUser (updConnOf s (s.cl cl) (fun k => { k with authPing := 0 })) cl).2 = true := by
  have e : updConnOf s (s.cl cl) (fun k => { k with authPing := 0 }) = s.updConn i (fun k => { k with authPing := 0 }) := by
    unfold updConnOf; rw [hi]
  rw [e]
  obtain ⟨k, hk, hkc⟩ := hk
  have hkm : k ∈ s.conns := List.mem_of_find?_eq_some hk
  have hki : k.idx = i := by simpa using List.find?_some hk
  have hc : (s.updConn i (fun k => { k with authPing := 0 })).conn? i = some { k with authPing := 0 } := by
    rw [conn?_updConn (s := s) (i := i) (f := fun k => { k with authPing := 0 }) (fun _ => rfl), hk]
    simp [hki]
  have h1 : authPingOf (s.updConn i (fun k => { k with authPing := 0 })) (s.cl cl) = 0 := by
    rw [authPingOf, hi, Option.bind_some, hc]
  have h2 : passwordOf (s.updConn i (fun k => { k with authPing := 0 })) (s.cl cl) = s.conf.serverPwd := by
    rw [passwordOf, hi, Option.bind_some, hc]
    exact hp k hkm hkc
  have h3 := mt covers_iff.1 hg
  have h4 := mt covers_iff.1 hl
  simp only [listsCheck, Option.isSome_iff_ne_none, ne_eq, Decidable.not_not] at h3 h4
  unfold loginUser
  simp only
  have hcl : (s.updConn i (fun k => { k with authPing := 0 })).cl cl = s.cl cl := rfl
  rw [hcl, h1, h2]
  have hb : (handleServerBans (s.updConn i (fun k => { k with authPing := 0 })) cl).2 = true := by
    unfold handleServerBans
    simp only
    have g3 : (listsCheckReason (s.updConn i (fun k => { k with authPing := 0 })).glines (masksOf (s.updConn i (fun k => { k with authPing := 0 })) (s.cl cl))).2 = none := by
      show (listsCheckReason s.glines (masksOf s (s.cl cl))).2 = none
      simpa using h3
    have g4 : (listsCheckReason (s.updConn i (fun k => { k with authPing := 0 })).klines (masksOf (s.updConn i (fun k => { k with authPing := 0 })) (s.cl cl))).2 = none := by
      show (listsCheckReason s.klines (masksOf s (s.cl cl))).2 = none
      simpa using h4
    rw [hcl, g3]
    simp only
    rw [g4]
  split
  · rfl
  · split
    · rfl
    · rw [if_neg (fun h => h rfl)]
      unfold loginPostAuth
      split
      · rename_i e; rw [e] at hb; cases hb
      · rfl

theorem rooted_tops (h : Rooted s) : ∀ c ∈ s.clients, c.type = .server → linksTop s c ≠ none := by
  intro c hc ht e
  unfold linksTop at e
  split at e
  · rename_i r hr
    obtain ⟨f, hf, e1⟩ := h c hc ht r hr
    rw [Srv.cl?, List.find?_eq_none] at e
    exact e f hf (by simpa using e1)
  · cases e

theorem no_server_row {cmd : Command} (ht : (s.cl cl).type ≠ .server) (hc : cmd.types = .server) : cmd.types.allows (s.cl cl).type = false := by
  rw [hc]
  exact decide_eq_false ht

/-- What is known about the client besides. -/
structure Plain (s : Srv) (cl : Nat) (req : Request) : Prop where
  ready : Ready s cl req
  home : Home s cl
  wide : Wide s cl
  two : Safe2 s cl
  svc : (s.cl cl).type ≠ .service
  named : (s.cl cl).type = .gotNick ∨ (s.cl cl).type = .waitCapEnd ∨ (s.cl cl).type = .waitAuthPing →
    isValidNick s.conf.maxNickLength (s.cl cl).id = true ∧ (s.cl cl).hash = Hash (s.cl cl).id
  nick : (s.cl cl).type ≠ .unknownServer → (s.cl cl).id = [] ∨ isValidNick s.conf.maxNickLength (s.cl cl).id = true
  mode : modeCl s cl req = cl
  conn : ∃ i k, (s.cl cl).conn = some i ∧ s.conn? i = some k ∧ k.client = cl

theorem command_fine {cmd : Command} (hc : cmd ∈ myCommands) (h : Plain s cl req) (ha : cmd.types.allows (s.cl cl).type = true) (hm : Is req cmd.name)
    (hh : Harmless s cl req) (hf : s.fault = false) : (cmd.run s cl req).1.fault = false := by
  obtain ⟨hr, ho, hw, h2, hsv, hnm, hnk, hmc, hcn⟩ := h
  have ht := hr.ty
  have hs := hr.safe
  have hsrv : cmd.types = .server → (cmd.run s cl req).1.fault = false := fun e => by rw [no_server_row ht e] at ha; cases ha
  obtain ⟨i, k, hi, hk, hkc⟩ := hcn
  simp only [myCommands, List.mem_cons, List.not_mem_nil, or_false] at hc
  rcases hc with rfl | hc
  · exact (calm_ircADMIN hr).ok hf -- ADMIN
  rcases hc with rfl | hc
  · exact (calm_ircAWAY hs).ok hf -- AWAY
  rcases hc with rfl | hc
  · exact fine_ircCAP ho (fun e => hnm (.inr (.inl e))) hf -- CAP
  rcases hc with rfl | hc
  · exact (calm_ircCONNECT hr hw).ok hf -- CONNECT
  rcases hc with rfl | hc
  · exact (calm_ircDIE hr hw).ok hf -- DIE
  rcases hc with rfl | hc
  · exact fine_ircDISCONNECT hr hw hf -- DISCONNECT
  rcases hc with rfl | hc
  · exact (fine_ircERROR ho).trans hf -- ERROR
  rcases hc with rfl | hc
  · exact (calm_ircXLINE hr hw (hh.lines (.inl hm))).ok hf -- GLINE
  rcases hc with rfl | hc
  · exact (calm_ircHELP hr).ok hf -- HELP
  rcases hc with rfl | hc
  · exact (calm_ircINFO hr).ok hf -- INFO
  rcases hc with rfl | hc
  · exact (calm_ircINVITE hs ho.here hr.self ht).ok hf -- INVITE
  rcases hc with rfl | hc
  · exact (calm_ircISON hr (fun c h1 h2 => (hh.names (.inl hm) c h1 h2).1)).ok hf -- ISON
  rcases hc with rfl | hc
  · exact (calm_ircJOIN hs ht).ok hf -- JOIN
  rcases hc with rfl | hc
  · exact (calm_ircKICK hs ho.loc ht).ok hf -- KICK
  rcases hc with rfl | hc
  · exact fine_ircKILL hr hw hf -- KILL
  rcases hc with rfl | hc
  · exact (calm_ircXLINE hr hw (hh.lines (.inr hm))).ok hf -- KLINE
  rcases hc with rfl | hc
  · exact (calm_ircLINKS hr (rooted_tops (hh.links hm))).ok hf -- LINKS
  rcases hc with rfl | hc
  · exact (calm_ircLIST hr).ok hf -- LIST
  rcases hc with rfl | hc
  · exact (calm_ircLUSERS hr).ok hf -- LUSERS
  rcases hc with rfl | hc
  · exact hsrv rfl -- METADATA
  rcases hc with rfl | hc
  · exact (calm_ircMODE hs ho.loc hr.self ht hmc (fun x hx e => hh.mode hm (e ▸ hx))).ok hf -- MODE
  rcases hc with rfl | hc
  · exact (calm_ircMOTD hr).ok hf -- MOTD
  rcases hc with rfl | hc
  · exact (calm_ircNAMES hr).ok hf -- NAMES
  rcases hc with rfl | hc
  · exact fine_ircNICK ho ht hnk hf -- NICK
  rcases hc with rfl | hc
  · exact hsrv rfl -- NJOIN
  rcases hc with rfl | hc
  · exact (calm_sendMessage h2 ht).ok hf -- NOTICE
  rcases hc with rfl | hc
  · exact (calm_ircOPER hs).ok hf -- OPER
  rcases hc with rfl | hc
  · exact (calm_ircPART hs ht).ok hf -- PART
  rcases hc with rfl | hc
  · exact fine_ircPASS ho hf -- PASS
  rcases hc with rfl | hc
  · exact (calm_ircPING hr).ok hf -- PING
  rcases hc with rfl | hc
  · exact fine_ircPONG ho ht (fun e => hnm (.inr (.inr e)))
      (fun e => let ⟨p1, p2, p3⟩ := hh.pong hm e; pong_login hi p1 ⟨k, hk, hkc⟩ p2 p3) hf -- PONG
  rcases hc with rfl | hc
  · exact (calm_sendMessage h2 ht).ok hf -- PRIVMSG
  rcases hc with rfl | hc
  · exact (fine_ircQUIT ho ht).trans hf -- QUIT
  rcases hc with rfl | hc
  · exact (calm_ircREHASH hr hw).ok hf -- REHASH
  rcases hc with rfl | hc
  · exact (calm_ircRESTART hr hw).ok hf -- RESTART
  rcases hc with rfl | hc
  · show (ircSERVER s cl req).1.fault = false -- SERVER
    obtain ⟨q1, q2⟩ := hh.server hm
    simp only [ircSERVER, hi, q1, q2, ht, decide_false, Bool.or_false, if_false, Bool.false_eq_true]
    exact hr.need.ok hf
  rcases hc with rfl | hc
  · exact fine_ircSERVICE ho ht hf -- SERVICE
  rcases hc with rfl | hc
  · exact (calm_ircSERVLIST hr).ok hf -- SERVLIST
  rcases hc with rfl | hc
  · exact (calm_sendMessage h2 ht).ok hf -- SQUERY
  rcases hc with rfl | hc
  · exact fine_ircSQUIT hr hw hf -- SQUIT
  rcases hc with rfl | hc
  · exact (calm_ircSTATS hr).ok hf -- STATS
  rcases hc with rfl | hc
  · exact hsrv rfl -- SVSNICK
  rcases hc with rfl | hc
  · exact (calm_ircSUMMON hr).ok hf -- SUMMON
  rcases hc with rfl | hc
  · exact (calm_ircTIME hr).ok hf -- TIME
  rcases hc with rfl | hc
  · exact (calm_ircTOPIC hs ht).ok hf -- TOPIC
  rcases hc with rfl | hc
  · exact (calm_ircTRACE hr (by rw [hi]; rfl)).ok hf -- TRACE
  rcases hc with rfl | hc
  · exact fine_ircUSER ho ht hsv (fun e => hnm (.inl e)) hf -- USER
  rcases hc with rfl | hc
  · exact (calm_ircUSERHOST hr (hh.names (.inr hm))).ok hf -- USERHOST
  rcases hc with rfl | hc
  · exact (calm_ircUSERS hr).ok hf -- USERS
  rcases hc with rfl | hc
  · exact (calm_ircVERSION hr).ok hf -- VERSION
  rcases hc with rfl | hc
  · exact (calm_ircWALLOPS hr hw).ok hf -- WALLOPS
  rcases hc with rfl | hc
  · exact fine_ircWEBIRC ho hf -- WEBIRC
  rcases hc with rfl | hc
  · exact (calm_ircWHO hr).ok hf -- WHO
  rcases hc with rfl | hc
  · exact (calm_ircWHOIS hr).ok hf -- WHOIS
  rcases hc with rfl | hc
  · exact (calm_ircWHOWAS hr).ok hf -- WHOWAS
  rcases hc with rfl | hc
  · exact hsrv rfl -- CHANINFO
  rcases hc with rfl | rfl
  · exact (fine_ircQUIT ho ht).trans hf -- GET
  · exact (fine_ircQUIT ho ht).trans hf -- POST

theorem request_fine (h : Plain s cl req) (hu : (s.cl cl).type ≠ .unknownServer) (hh : Harmless s cl req) (hf : s.fault = false) :
    (handleRequest s cl req).1.fault = false := by
  have hme := h.ready.me
  unfold handleRequest
  simp only [h.ready.ty, hu, decide_false, Bool.or_false, Bool.false_and, Bool.false_eq_true, if_false]
  cases hc : findCommand req.command with
  | none =>
    simp only
    split
    · exact hf
    · rw [if_pos h.ready.ty]
      exact (Calm.writeErr hme (.refl _)).ok hf
  | some cmd =>
    simp only
    have hmem : cmd ∈ myCommands := List.mem_of_find?_eq_some hc
    have his : Is req cmd.name := by have := List.find?_some hc; exact this
    unfold runCommand
    simp only
    split
    · split <;> exact (Calm.writeErr hme (.refl _)).ok hf
    · rename_i ha
      split
      · exact h.ready.need.ok hf
      · exact command_fine hmem h (by simpa using ha) his hh hf

theorem plain_of (h : PoliteRun s) (hr : Received s i l cl req) (ht : (s.cl cl).type ≠ .server) (hu : (s.cl cl).type ≠ .unknownServer) (rnd : Int) :
    Plain (s.roll rnd) cl req := by
  have hb := h.reachable.base
  obtain ⟨g1, g2, g3, g4⟩ := hr.owner hb
  have ho : Owner s i cl := by obtain ⟨k, q, h1, h2, -⟩ := hr; exact ⟨k, List.mem_of_find?_eq_some h1, by simpa using List.find?_some h1, h2⟩
  have hh := home_of h ho
  have hrd := ready_of h hr ht
  have hs : (s.cl cl).conn.isSome = true := by rw [g3]; rfl
  refine ⟨hrd.roll rnd, hh.roll rnd, (wide_of h hh).roll rnd, ⟨(hh.roll rnd).toSafe, fun c hc hty e => ?_⟩, hb.cl.locSvc _ g1 hs, fun e => ?_,
    fun _ => (polite_nick h).valid _ g1 hs ht hu, ?_, ?_⟩
  · obtain ⟨z, hz, z1, z3, -⟩ := hb.cl.self
    rw [hb.cl.ord.eq_of_ref hc hz (e.trans z1.symm), z3] at hty
    rcases hty with x | x <;> cases x
  · have hne : (s.cl cl).id ≠ [] := by
      refine (polite_nick h).named _ g1 hs ?_
      rcases e with e | e | e
      · exact .inl e
      · exact .inr (.inr (.inr e))
      · exact .inr (.inr (.inl e))
    exact ⟨((polite_nick h).valid _ g1 hs ht hu).resolve_left hne, (hb.cl.hash _ g1).resolve_right (fun q => hne q.1)⟩
  · have ha := hr.asker hb rnd
    unfold modeCl
    split
    · rename_i c hc
      obtain ⟨p, hp, hcs⟩ := Option.bind_eq_some_iff.1 hc
      refine if_neg (fun e => ?_)
      have h1 := ha.pre p c hp hcs
      obtain ⟨z, hz, z1, -, -, z2⟩ := hb.cl.self
      have hcz : c = z := hb.cl.ord.eq_of_ref (List.mem_of_find?_eq_some hcs) hz (e.trans z1.symm)
      rw [nextHop_self (u := s.roll rnd) (.inr (by rw [hcz]; exact z2)), e] at h1
      exact g4 h1.symm
    · rfl
  · obtain ⟨k, hk, hkc⟩ := conn?_of_mem hb.cl g1 g3
    exact ⟨i, k, g3, hk, hkc.trans g2⟩

theorem Spec.Harmless.roll (h : Harmless s cl req) (rnd : Int) : Harmless (s.roll rnd) cl req :=
  ⟨h.mode, h.names, h.links, h.pong, h.lines, h.server⟩

/-! ## C80 -/

/-- **C80** (requests).  No request of a client that is not a server makes the server do something undefined, if it avoids the known defects. -/
theorem C80_requests_partial (h : PoliteRun s) (hr : Received s i l cl req) (ht : (s.cl cl).type ≠ .server) (hu : (s.cl cl).type ≠ .unknownServer)
    (hh : Harmless s cl req) (hf : s.fault = false) (rnd : Int) : (step s (.line i rnd l)).fault = false := by
  rw [step_line hr rnd]
  exact request_fine (plain_of h hr ht hu rnd) hu (hh.roll rnd) hf

/-- **C80** (lines).  The same for every line received, whatever it consists of. -/
theorem C80_lines_partial (h : PoliteRun s) (ho : Owner s i cl) (ht : (s.cl cl).type ≠ .server) (hu : (s.cl cl).type ≠ .unknownServer)
    (hh : ∀ req, Received s i l cl req → Harmless s cl req) (hf : s.fault = false) (rnd : Int) : (step s (.line i rnd l)).fault = false := by
  have hb := h.reachable.base
  obtain ⟨k, hk, h1, h2⟩ := ho
  obtain ⟨c, hc, c1, c2⟩ := hb.cl.connCl k hk
  obtain ⟨k', hk', hkc'⟩ := conn?_of_mem hb.cl hc (c2.trans (by rw [h1]))
  have hkl : k'.client = cl := by rw [hkc', c1, h2]
  cases hp : parseRequest s.conf.scrubCTCP l with
  | scrubbed =>
    have e : step s (.line i rnd l) = s.roll rnd := by
      simp only [step, hk', Option.isSome_some, if_true, handleLine, show Srv.conn? { s with rnd := rnd } i = some k' from hk', hp]
      rfl
    rw [e]; exact hf
  | prefixError =>
    have e : step s (.line i rnd l) = (s.roll rnd).emit i none ⟨"ERROR", ["Prefix without command".toList]⟩ := by
      simp only [step, hk', Option.isSome_some, if_true, handleLine, show Srv.conn? { s with rnd := rnd } i = some k' from hk', hp]
      rfl
    rw [e]; exact hf
  | request req0 =>
    cases hv : validatePrefix s i cl req0 with
    | pass req =>
      have hr : Received s i l cl req := ⟨k', req0, hk', hkl, hp, hv⟩
      exact C80_requests_partial h hr ht hu (hh req hr) hf rnd
    | drop t b =>
      have e : ∀ t b, validatePrefix (s.roll rnd) i cl req0 = .drop t b → (step s (.line i rnd l)) = t := by
        intro t b hv
        simp only [step, hk', Option.isSome_some, if_true, handleLine, show Srv.conn? { s with rnd := rnd } i = some k' from hk', hp, hkl]
        rw [show validatePrefix { s with rnd := rnd } i cl req0 = .drop t b from hv]
      have key : ∀ t b, validatePrefix (s.roll rnd) i cl req0 = .drop t b → t.fault = false := by
        intro t b hv
        unfold validatePrefix at hv
        simp only at hv
        split at hv
        · split at hv
          · cases hv; exact hf
          · cases hv
        · split at hv
          · cases hv
          · split at hv
            · split at hv <;> (cases hv; exact hf)
            · split at hv
              · split at hv
                · cases hv
                  exact (fault_connClose (s := s.roll rnd) (by rw [show (s.roll rnd).conn? i = some k' from hk']; rfl)).trans hf
                · cases hv; exact hf
              · cases hv
      cases hv' : validatePrefix (s.roll rnd) i cl req0 with
      | drop t b => rw [e t b hv']; exact key t b hv'
      | pass req =>
        rw [(validatePrefix_rnd s rnd i cl req0 req).1 hv'] at hv
        cases hv

theorem events_newLocal {j : Nat} {x : Option Str} {ty : CType} : (clientNewLocal s j x ty).fault = s.fault := by
  unfold clientNewLocal initNewClient
  obtain ⟨a, b, e⟩ := adjustCounters_eq { s with clients := newClientC s (some j) s.this none ty none none x none 0 0 none false :: s.clients, nextRef := s.nextRef + 1 }
    (newClientC s (some j) s.this none ty none none x none 0 0 none false)
  rw [e]

theorem bans_fine (hc : ∃ i, (s.cl cl).conn = some i ∧ (s.conn? i).isSome = true) : (handleServerBans s cl).1.fault = s.fault := by
  unfold handleServerBans
  simp only
  split
  · exact fault_reject (s := { s with glines := (listsCheckReason s.glines (masksOf s (s.cl cl))).1 }) hc
  · split
    · exact fault_reject (s := { s with glines := (listsCheckReason s.glines (masksOf s (s.cl cl))).1, klines := (listsCheckReason s.klines (masksOf s (s.cl cl))).1 }) hc
    · rfl

/-- **C80** (events).  Nothing else that happens makes the server do something undefined: new connections, connections being lost, host names being found, time passing. -/
theorem C80_events (h : PoliteRun s) (hf : s.fault = false) (e : Event)
    (he : ∀ i rnd l, e ≠ .line i rnd l) (hc : ∀ conf, e ≠ .rehash conf) : (step s e).fault = false := by
  have hb := h.reachable.base
  cases e with
  | line i rnd l => exact absurd rfl (he i rnd l)
  | rehash conf => exact absurd rfl (hc conf)
  | accept i host ipa ssl =>
    simp only [step, newConnection]
    refine fault_ite hf ?_
    exact events_newLocal.trans hf
  | connect slot i ipa =>
    simp only [step, newServer]
    refine fault_ite hf ?_
    exact events_newLocal.trans hf
  | established i =>
    simp only [step, serverLogin]
    split <;> exact hf
  | resolved i host =>
    simp only [step, resolverResult]
    split
    · exact hf
    · rename_i k hk
      refine fault_ite hf ?_
      have hh : Home s k.client := home_of h ⟨k, List.mem_of_find?_eq_some hk, rfl, rfl⟩
      split
      · exact (bans_fine hh.conn).trans hf
      · exact (bans_fine (s := clientSetHostname s k.client host) (hh.upd (g := fun c => setHostC s.conf c host) (fun c => by unfold setHostC; split <;> (try split) <;> rfl)).conn).trans hf
  | data i =>
    simp only [step, dataReceived]
    split
    · exact hf
    · exact fault_ite hf hf
  | lost i reason inform =>
    simp only [step]
    split
    · rename_i hk
      exact (fault_connClose hk).trans hf
    · exact hf
  | tick d =>
    have hone : ∀ (t : Srv) (j : Nat), (checkConnection t j).fault = t.fault := by
      intro t j
      unfold checkConnection
      split
      · rfl
      · rename_i k hk
        split
        · rfl
        · rfl
        · exact fault_connClose (by rw [hk]; rfl)
    have hall : ∀ (l : List Nat) (t : Srv), (l.foldl checkConnection t).fault = t.fault := by
      intro l
      induction l with
      | nil => intro t; rfl
      | cons j l ih => intro t; rw [List.foldl_cons, ih, hone]
    simp only [step, checkConnections]
    exact (hall _ _).trans hf

/-! ## What is missing: the known defects -/

/-- A state in which what the client is asked for is missing or wrong: the password. -/
def Sample.pingBad : Srv := (Sample.runH [] (Srv.init Sample.strictConf "host".toList 1000)
  [.accept 5 "1.2.3.4".toList "1.2.3.4".toList false, Sample.say "PASS no", Sample.say "NICK alice", Sample.say "USER alice 0 * :Alice A"]).2

theorem Sample.polite_pingBad : PoliteRun Sample.pingBad :=
  (Sample.runH_history (.start _ _ _ (by decide +kernel)) _ (by decide +kernel)).polite

/-- **C80 violated.**  `MODE #channel +t :`, of any member, makes `Channel_Mode` read past the end of the empty argument. -/
theorem C80_violated_by_empty_mode : ∃ s, PoliteRun s ∧ s.fault = false ∧ (s.cl 3).type = .user ∧ Owner s 5 3 ∧
    (step s (.line 5 0 "MODE #c +t :".toList)).fault = true ∧ (step s (.line 5 0 "MODE alice +i :".toList)).fault = true := by
  have f : Sample.s5.fault = false ∧ (Sample.s5.cl 3).type = .user ∧ (∃ k ∈ Sample.s5.conns, k.idx = 5 ∧ k.client = 3) ∧
      (step Sample.s5 (.line 5 0 "MODE #c +t :".toList)).fault = true ∧ (step Sample.s5 (.line 5 0 "MODE alice +i :".toList)).fault = true := by decide +kernel
  exact ⟨Sample.s5, polite_s5, f⟩

/-- **C80 violated.**  If clients have to answer a PING before they are let in, one that answers it without having given the right password makes `IRC_PONG` use the
structures of the connection that was closed meanwhile. -/
theorem C80_violated_by_pong : ∃ s, PoliteRun s ∧ s.fault = false ∧ (s.cl 3).type = .waitAuthPing ∧ Owner s 5 3 ∧
    (step s (.line 5 0 "PONG 7".toList)).fault = true := by
  have f : Sample.pingBad.fault = false ∧ (Sample.pingBad.cl 3).type = .waitAuthPing ∧ (∃ k ∈ Sample.pingBad.conns, k.idx = 5 ∧ k.client = 3) ∧
      (step Sample.pingBad (.line 5 0 "PONG 7".toList)).fault = true := by decide +kernel
  exact ⟨Sample.pingBad, Sample.polite_pingBad, f⟩

/-- A second IRC operator, carol, from the same address as alice, at a newer connection. -/
def Sample.s5car : Srv :=
  Sample.lines (step Sample.s5 (.accept 9 "1.2.3.4".toList "1.2.3.4".toList false)) 9 ["NICK carol", "USER carol 0 * :Carol", "OPER root secret"]

theorem Sample.polite_s5car : PoliteRun Sample.s5car :=
  (Sample.fine_lines (Sample.fine_step Sample.fine_s5 _ (by decide +kernel)) 9 ["NICK carol", "USER carol 0 * :Carol", "OPER root secret"]
    (by decide +kernel)).mono (fun _ h => h.1) (fun _ _ h => h.1)

/-- **C80 violated.**  An IRC operator who adds a K-line that matches the own connection makes `IRC_xLINE` use the structures of the connection that was closed meanwhile. -/
theorem C80_violated_by_kline : ∃ s, PoliteRun s ∧ s.fault = false ∧ (s.cl 8).type = .user ∧ Owner s 9 8 ∧
    (step s (.line 9 0 "KLINE *!*@1.2.3.4 60 :bye".toList)).fault = true := by
  have f : Sample.s5car.fault = false ∧ (Sample.s5car.cl 8).type = .user ∧ (∃ k ∈ Sample.s5car.conns, k.idx = 9 ∧ k.client = 8) ∧
      (step Sample.s5car (.line 9 0 "KLINE *!*@1.2.3.4 60 :bye".toList)).fault = true := by decide +kernel
  exact ⟨Sample.s5car, Sample.polite_s5car, f⟩

/-! ## The hypotheses are met -/

example : ∃ req, PoliteRun Sample.pingSrv ∧ Received Sample.pingSrv 5 "PONG 7".toList 3 req ∧ (Sample.pingSrv.cl 3).type ≠ .server ∧
    (Sample.pingSrv.cl 3).type ≠ .unknownServer ∧ Harmless Sample.pingSrv 3 req ∧ Sample.pingSrv.fault = false := by
  have f : recv Sample.pingSrv 5 "PONG 7".toList = some (3, ⟨none, "PONG".toList, ["7".toList]⟩) ∧ (Sample.pingSrv.cl 3).type ≠ .server ∧
    (Sample.pingSrv.cl 3).type ≠ .unknownServer ∧ Sample.pingSrv.fault = false ∧
    (∀ k ∈ Sample.pingSrv.conns, k.client = 3 → k.pwd = Sample.pingSrv.conf.serverPwd) ∧
    ¬ Covers Sample.pingSrv Sample.pingSrv.glines (Sample.pingSrv.cl 3) ∧ ¬ Covers Sample.pingSrv Sample.pingSrv.klines (Sample.pingSrv.cl 3) := by decide +kernel
  obtain ⟨f1, f2, f3, f4, f5, f6, f7⟩ := f
  have no : ∀ n : String, caseEq "PONG".toList n.toList = false → ¬ Is ⟨none, "PONG".toList, ["7".toList]⟩ n := fun n h h' => by
    have h'' : caseEq "PONG".toList n.toList = true := h'
    rw [h] at h''; cases h''
  exact ⟨_, Sample.polite_ping, recv_sound f1, f2, f3,
    ⟨fun h => absurd h (no _ (by decide)), fun h => h.elim (fun h => absurd h (no _ (by decide))) (fun h => absurd h (no _ (by decide))),
     fun h => absurd h (no _ (by decide)), fun _ _ => ⟨f5, f6, f7⟩,
     fun h => h.elim (fun h => absurd h (no _ (by decide))) (fun h => absurd h (no _ (by decide))), fun h => absurd h (no _ (by decide))⟩, f4⟩

example : ∃ req, PoliteRun Sample.s5 ∧ Received Sample.s5 5 "MODE #c +kl x 7".toList 3 req ∧ (Sample.s5.cl 3).type ≠ .server ∧
    (Sample.s5.cl 3).type ≠ .unknownServer ∧ Harmless Sample.s5 3 req ∧ Sample.s5.fault = false := by
  have f : recv Sample.s5 5 "MODE #c +kl x 7".toList = some (3, ⟨none, "MODE".toList, ["#c".toList, "+kl".toList, "x".toList, "7".toList]⟩) ∧ (Sample.s5.cl 3).type ≠ .server ∧
    (Sample.s5.cl 3).type ≠ .unknownServer ∧ Sample.s5.fault = false := by decide +kernel
  obtain ⟨f1, f2, f3, f4⟩ := f
  have no : ∀ n : String, caseEq "MODE".toList n.toList = false → ¬ Is ⟨none, "MODE".toList, ["#c".toList, "+kl".toList, "x".toList, "7".toList]⟩ n := fun n h h' => by
    have h'' : caseEq "MODE".toList n.toList = true := h'
    rw [h] at h''; cases h''
  exact ⟨_, polite_s5, recv_sound f1, f2, f3,
    ⟨fun _ => by decide, fun h => h.elim (fun h => absurd h (no _ (by decide))) (fun h => absurd h (no _ (by decide))),
     fun h => absurd h (no _ (by decide)), fun h => absurd h (no _ (by decide)),
     fun h => h.elim (fun h => absurd h (no _ (by decide))) (fun h => absurd h (no _ (by decide))), fun h => absurd h (no _ (by decide))⟩, f4⟩

example : PoliteRun Sample.s5 ∧ Sample.s5.fault = false ∧ (∀ i rnd l, Event.tick 1000 ≠ .line i rnd l) ∧ (∀ conf, Event.tick 1000 ≠ .rehash conf) ∧
    (step Sample.s5 (.tick 1000)).out.length ≠ Sample.s5.out.length :=
  ⟨polite_s5, by decide +kernel, fun _ _ _ h => (by cases h), fun _ h => (by cases h), by decide +kernel⟩

end Ngircd
