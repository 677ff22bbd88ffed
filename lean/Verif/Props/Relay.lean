import Verif.Props.Introduce
import Verif.Props.Netsplit

/-!
# C68: servers behind a link
-/

set_option linter.unusedSimpArgs false

namespace Ngircd
open Spec

variable {s : Srv} {i : Nat} {l : Str} {cl : Nat} {req : Request} {f : Client}

/-- The server announced with these data by the link `cl`, cut to the sizes kept here; `f` is the server it is connected to and
`mine` the token it gets here. -/
def Spec.announcedServer (s : Srv) (cl : Nat) (f : Client) (name : Str) (hops token : Int) (info : Str) (mine : Int) : Client :=
  { ref := s.nextRef, id := name.take 63, hash := Hash (name.take 63), type := .server, conn := none, introducer := cl,
    topserver := some f.ref, host := knownHost s.conf [] name,
    user := if s.conf.cloakUserToNick then name.take 19 else [],
    info := (if s.conf.cloakUserToNick then name.take 63 else info).take 127,
    hops := hops, token := token, mytoken := mine, starttime := s.now }

theorem newClientC_server (s : Srv) (cl : Nat) (f : Client) (name info : Str) (hops tok : Int) :
    newClientC s none cl (some f.ref) .server (some name) none (some name) (some info) hops tok none true =
      announcedServer s cl f name hops tok info (genMyToken s) := by
  cases hk : s.conf.cloakUserToNick <;>
    simp [newClientC, withOpt, setHostC_known, setIdC, setInfoC, announcedServer, hk, Bool.false_eq_true, if_true, if_false,
      strlcpy, CLIENT_ID_LEN, CLIENT_USER_LEN, CLIENT_INFO_LEN, CLIENT_MODE_LEN, Client.hasMode, hasChar, List.take_take]

/-- Of the lines `o`, every server link except connection `i` got exactly the line `m`, coming from `f`, and nobody else got
anything. -/
structure Spec.Relayed (s : Srv) (i : Nat) (f : Client) (m : Msg) (o : List Sent) : Prop where
  links : ∀ j, j ≠ i → isLink s j = true → onConn o j = [⟨j, some f.ID, m⟩]
  others : ∀ y ∈ o, y.conn ≠ i ∧ isLink s y.conn = true

theorem relay_out (hb : Base s) {c : Client} (hc : c ∈ s.clients) (hci : c.conn = some i) (f : Client) (m : Msg) :
    ∃ o, writeServers s (some c.ref) f m = { s with out := o ++ s.out } ∧ Relayed s i f m o := by
  obtain ⟨o, h1, h2, h3⟩ := servers_spec hb (some c.ref) f m
  have hl := link_except hb hc hci
  refine ⟨o, h1 s ⟨rfl, rfl, rfl, rfl, rfl⟩, fun j hji hj => ?_, fun y hy => ?_⟩
  · obtain ⟨d, hd, e1, e2⟩ := isLink_mem.1 hj
    exact h2 j d hd e1 e2 ((hl j d hd e1 e2).2 hji)
  · obtain ⟨d, hd, e1, e2, e3⟩ := h3 y hy
    exact ⟨(hl _ d hd e1 e2).1 e3, by rw [isLink_iff hb hd e2]; simpa using e1⟩

/-- **C68** A linked server announces another server, with a name nobody has: exactly this server is added, with a token
no other client has, nothing else changes, every other link is told once, and nobody else is told
anything. -/
theorem C68_server (h : PoliteRun s) (hr : Received s i l cl req) (hs : (s.cl cl).type = .server) (his : Is req "SERVER")
    {name hops tok info p : Str} (hargs : req.argv = [name, hops, tok, info]) (hlen : name.length ≤ 63) (hne : name ≠ [])
    (hfree : ∀ c ∈ s.clients, ¬ SameCase c.id name)
    (hpre : req.prefix? = some p) (hf : f ∈ s.clients) (hfi : f.id ≠ []) (hfn : SameCase f.id (nickPart p)) (rnd : Int) :
    ∃ mine o, (∀ c ∈ s.clients, c.mytoken ≠ mine) ∧
      Emitted (withNewcomer s (announcedServer s cl f name (atoi hops) (atoi tok) info mine) s.maxUsers) (step s (.line i rnd l)) o ∧
      Relayed s i f ⟨"SERVER", [name, intStr (atoi hops + 1), intStr mine, (announcedServer s cl f name (atoi hops) (atoi tok) info mine).info]⟩ o := by
  have hb := h.reachable.base
  obtain ⟨g1, g2, g3, g4⟩ := hr.owner hb
  have hst : step s (.line i rnd l) = (ircSERVER (s.roll rnd) cl req).1 :=
    step_do hr rnd his rfl (by rw [hs]; rfl) (by simp only [Command.argcOk, Request.argc, hargs]; rfl)
  have hb' : Base (step s (.line i rnd l)) := (step_steps_any hb _).base hb
  obtain ⟨R, hR⟩ : ∃ R, R = s.roll rnd := ⟨_, rfl⟩
  have hfree' : (R.clients.any (fun c => caseEq c.id name)) = false := by
    rw [List.any_eq_false]
    intro c hc hx
    rw [hR] at hc
    exact hfree c hc ((caseEq_same _ _).1 hx)
  have eR : R.cl cl = s.cl cl := by rw [hR]; rfl
  have hsearch : clientSearch R p = some f := by
    rw [hR]; exact (C13_lookup h p f).2 ⟨hf, hfi, hfn⟩
  obtain ⟨N, hN⟩ : ∃ N, N = announcedServer s cl f name (atoi hops) (atoi tok) info (genMyToken s) := ⟨_, rfl⟩
  have hNr : N.ref = s.nextRef := by rw [hN]; rfl
  have hNR : N.ref = R.nextRef := by rw [hNr, hR]; rfl
  have hfr : f.ref ≠ s.nextRef := by have := hb.cl.lt _ hf; omega
  have hnew : clientNewRemoteServer R cl name f.ref (atoi hops) (atoi tok) info = withNewcomer R N s.maxUsers := by
    have e : newClientC R none cl (some f.ref) .server (some name) none (some name) (some info) (atoi hops) (atoi tok) none true = N := by
      rw [newClientC_server, hN, hR]; rfl
    simp only [clientNewRemoteServer, initNewClient, e]
    have et : N.type ≠ .user := by rw [hN]; simp [announcedServer]
    simp only [adjustCounters]
    rw [if_pos et, hR]; rfl
  have e1 : (withNewcomer R N s.maxUsers).cl R.nextRef = N := newcomer_cl hNR _
  have e2 : (withNewcomer R N s.maxUsers).cl f.ref = f := by
    rw [newcomer_old hNR _ (by rw [← hNR, hNr]; exact hfr), hR]
    exact cl_of_mem hb.cl.ord hf
  have hrun : (ircSERVER R cl req).1 = writeServers (withNewcomer R N s.maxUsers) (some cl) f
      ⟨"SERVER", [N.ID, intStr (N.hops + 1), intStr N.mytoken, N.info]⟩ := by
    have e3 : clientCheckID R (s.cl cl) name = (R, true) := by
      simp only [clientCheckID, g3, hfree']
      rw [if_neg (by simp only [CLIENT_ID_LEN]; omega), if_neg (by decide)]
    have e4 : (ircSERVER R cl req).1 = (serverRemote R cl req).1 := by
      simp only [ircSERVER, eR, g3, hs]
      rw [if_neg (by decide), if_pos trivial]
    rw [e4]
    simp only [serverRemote]
    rw [if_neg (by simp only [Request.argc, hargs]; simp)]
    simp only [Request.arg, hargs, List.getD_cons_zero, List.getD_cons_succ, eR, e3, hpre, hsearch, hnew, e1, e2]
  have hrunW : step s (.line i rnd l) = writeServers (withNewcomer R N s.maxUsers) (some (s.cl cl).ref) f
      ⟨"SERVER", [N.ID, intStr (N.hops + 1), intStr N.mytoken, N.info]⟩ := by
    rw [hst, ← hR, hrun, g2]
  have hbt : Base (withNewcomer R N s.maxUsers) := by
    refine Base.of_core ?_ hb'
    rw [hrunW]; rfl
  obtain ⟨o, h1, h2⟩ := relay_out hbt (c := s.cl cl) (i := i) (by rw [hR]; exact List.mem_cons_of_mem _ g1) g3 f
    ⟨"SERVER", [N.ID, intStr (N.hops + 1), intStr N.mytoken, N.info]⟩
  have hN1 : N.ID = name := by
    have : N.id = name := by rw [hN]; exact List.take_of_length_le hlen
    rw [Client.ID, this, if_neg (by simpa using hne)]
  have hN2 : N.hops = atoi hops := by rw [hN]; rfl
  have hN3 : N.mytoken = genMyToken s := by rw [hN]; rfl
  have hlk : ∀ j, isLink (withNewcomer R N s.maxUsers) j = isLink s j := by
    intro j
    have : N.conn = none := by rw [hN]; rfl
    subst hR
    simp only [isLink, withNewcomer, List.any_cons, this]
    rfl
  rw [hN1, hN2, hN3, hN] at h2
  refine ⟨genMyToken s, o, genMyToken_free s, ⟨rnd, ?_⟩, fun j hj hl => ?_, fun y hy => ?_⟩
  · rw [hrunW, h1, ← hN]; subst hR; rfl
  · exact h2.links j hj (by rw [← hN]; rw [hlk]; exact hl)
  · have := h2.others y hy
    rw [← hN, hlk] at this
    exact this

/-- The peer announces a third server behind it; the other link is told. -/
example : ∃ req, PoliteRun Sample.net ∧ Received Sample.net 7 ":peer.example.net SERVER new.example.net 2 9 :new".toList 6 req ∧
    (Sample.net.cl 6).type = .server ∧ Is req "SERVER" ∧ req.argv = ["new.example.net".toList, "2".toList, "9".toList, "new".toList] ∧
    (∀ c ∈ Sample.net.clients, ¬ SameCase c.id "new.example.net".toList) ∧ req.prefix? = some "peer.example.net".toList ∧
    Sample.net.cl 6 ∈ Sample.net.clients ∧ (Sample.net.cl 6).id ≠ [] ∧ SameCase (Sample.net.cl 6).id (nickPart "peer.example.net".toList) ∧
    isLink Sample.net 8 = true :=
  ⟨⟨some "peer.example.net".toList, "SERVER".toList, ["new.example.net".toList, "2".toList, "9".toList, "new".toList]⟩,
    Sample.polite_net, recv_sound (by decide +kernel), by decide +kernel, by simp only [Is]; decide, rfl,
    fun c hc hs => (by
      have h : ∀ c ∈ Sample.net.clients, caseEq c.id "new.example.net".toList = false := by decide +kernel
      have := (caseEq_same _ _).2 hs
      rw [h c hc] at this
      cases this), rfl, by decide +kernel, by decide +kernel, (caseEq_same _ _).1 (by decide +kernel), by decide +kernel⟩

/-- **C68** If the name is in use, the link is closed: the peer is told, everything behind it is lost, and the others hear
of it as of any netsplit. -/
theorem C68_taken (h : PoliteRun s) (hr : Received s i l cl req) (hs : (s.cl cl).type = .server) (his : Is req "SERVER")
    {name hops tok info : Str} (hargs : req.argv = [name, hops, tok, info]) (hlen : name.length ≤ 64) (hsig : s.sigQuit = false)
    {c : Client} (hc : c ∈ s.clients) (hcn : SameCase c.id name) (rnd : Int) :
    (∀ d, d ∈ (step s (.line i rnd l)).clients ↔ d ∈ s.clients ∧ ¬ Under s cl d) ∧
    ∃ o, (step s (.line i rnd l)).out = o ++ ⟨i, none, ⟨"ERROR", [(s.cl cl).ID, (s.cl cl).User, (s.cl cl).host,
        "ID \"".toList ++ name ++ "\" already registered".toList]⟩⟩ :: s.out ∧
      SplitTold s i cl (some ("ID \"".toList ++ name ++ "\" already registered".toList)) o := by
  have hb := h.reachable.base
  obtain ⟨g1, g2, g3, g4⟩ := hr.owner hb
  have hst : step s (.line i rnd l) = (ircSERVER (s.roll rnd) cl req).1 :=
    step_do hr rnd his rfl (by rw [hs]; rfl) (by simp only [Command.argcOk, Request.argc, hargs]; rfl)
  have hb0 : Base (s.roll rnd) := Base.of_core (s := s) rfl hb
  have hused : ((s.roll rnd).clients.any (fun c => caseEq c.id name)) = true := by
    rw [List.any_eq_true]
    exact ⟨c, hc, (caseEq_same _ _).2 hcn⟩
  have hrun : step s (.line i rnd l) = connClose (s.roll rnd) i (some ("ID \"".toList ++ name ++ "\" already registered".toList)) true := by
    have e3 : clientCheckID (s.roll rnd) (s.cl cl) name =
        (connClose (s.roll rnd) i (some ("ID \"".toList ++ name ++ "\" already registered".toList)) true, false) := by
      simp only [clientCheckID, g3]
      rw [if_neg (by simp only [CLIENT_ID_LEN]; omega), if_pos hused]
    have e4 : (ircSERVER (s.roll rnd) cl req).1 = (serverRemote (s.roll rnd) cl req).1 := by
      simp only [ircSERVER]
      rw [roll_cl, g3]
      simp only
      rw [hs, if_neg (by decide), if_pos rfl]
    rw [hst, e4]
    simp only [serverRemote]
    rw [if_neg (by simp only [Request.argc, hargs]; simp)]
    simp only [Request.arg, hargs, List.getD_cons_zero, roll_cl, e3]
  obtain ⟨k, hk, hkr⟩ := conn?_of_mem hb0.cl (c := s.cl cl) g1 g3
  rw [g2] at hkr
  have hgone := connClose_gone hb0 hk (some ("ID \"".toList ++ name ++ "\" already registered".toList)) true
  rw [hkr, ← hrun] at hgone
  obtain ⟨o, h1, h2⟩ := close_server_out hb0 hsig (c := s.cl cl) g1 hs g3 (some ("ID \"".toList ++ name ++ "\" already registered".toList)) true
  refine ⟨fun d => ?_, o, ?_, ?_⟩
  · refine (hgone.clients d).trans (and_congr_right (fun _ => not_congr (under_congr (t := s.roll rnd) (s := s) rfl)))
  · rw [hrun, h1]
    simp only [if_true, Option.getD_some, List.append_assoc, List.singleton_append]
    rfl
  · rw [g2] at h2
    exact SplitTold.roll rnd h2

/-- The peer announces a server that is linked here already: a loop in the network. -/
example : ∃ req, PoliteRun Sample.net ∧ Received Sample.net 7 ":peer.example.net SERVER HUB.example.net 2 9 :hub".toList 6 req ∧
    (Sample.net.cl 6).type = .server ∧ Is req "SERVER" ∧ req.argv = ["HUB.example.net".toList, "2".toList, "9".toList, "hub".toList] ∧
    Sample.net.sigQuit = false ∧ Sample.net.cl 10 ∈ Sample.net.clients ∧ SameCase (Sample.net.cl 10).id "HUB.example.net".toList :=
  ⟨⟨some "peer.example.net".toList, "SERVER".toList, ["HUB.example.net".toList, "2".toList, "9".toList, "hub".toList]⟩,
    Sample.polite_net, recv_sound (by decide +kernel), by decide +kernel, by simp only [Is]; decide, rfl, by decide +kernel, by decide +kernel,
    (caseEq_same _ _).1 (by decide +kernel)⟩

end Ngircd
