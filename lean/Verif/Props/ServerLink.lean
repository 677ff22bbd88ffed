import Verif.Props.Whowas

/-!
# C49: server links need matching credentials
-/

set_option linter.unusedSimpArgs false

namespace Ngircd

namespace Spec

/-- The connection `i` may become the link to the server `name`: the first configured server of
that name expects the password the connection has sent, it is in use for no other connection,
and no client (and not this server) has the name. -/
def MayLink (s : Srv) (i : Nat) (name : Str) : Prop :=
  (∃ (slot : Nat) (cs : ConfServer), s.conf.servers[slot]? = some cs ∧ SameCase cs.name name ∧
    (∀ j d, j < slot → s.conf.servers[j]? = some d → ¬ SameCase d.name name) ∧
    (∃ k ∈ s.conns, k.idx = i ∧ k.pwd = cs.pwdIn) ∧
    (s.srvConn.lookup slot = none ∨ s.srvConn.lookup slot = some i)) ∧
  ∀ c ∈ s.clients, ¬ SameCase c.id name

/-- The event is the SERVER command of client `r`, sent over a connection that may become the
link to the server it names. -/
def Admits (s : Srv) (e : Event) (r : Nat) : Prop :=
  ∃ i rnd l req, e = .line i rnd l ∧ Received s i l r req ∧ Is req "SERVER" ∧
    ((s.cl r).type = .gotPass ∨ (s.cl r).type = .gotPass2813) ∧ MayLink s i (req.arg 0)

/-- The event is this server opening a connection to a configured server, for client `r`. -/
def Opens (s : Srv) (e : Event) (r : Nat) : Prop :=
  ∃ slot i ipa, e = .connect slot i ipa ∧ r = s.nextRef

/-- The client is a server link, or about to become one. -/
def LinkType (c : Client) : Prop := c.type = .server ∨ c.type = .unknownServer

end Spec

open Spec

variable {s t u : Srv} {i cl : Nat} {l : Str} {req : Request} {x : Ctx}

theorem under_self (hb : Base s) {r : Nat} (hns : (s.cl r).type ≠ .server) {c : Client} (h : Under s r c) : c.ref = r := by
  induction h with
  | self _ h => exact h
  | @child c p h hu hs hi hne ih =>
    rw [cl_of_mem' hb.cl.ord hu.mem ih] at hns
    exact absurd hs hns

/-- Closing the connection of a client that is no server removes that client only. -/
theorem connClose_only (hb : Base s) {r : Nat} (ho : Owner s i r) (hns : (s.cl r).type ≠ .server) (fwd : Option Str) (inf : Bool) (c : Client) :
    c ∈ (connClose s i fwd inf).clients ↔ c ∈ s.clients ∧ c.ref ≠ r := by
  obtain ⟨k, hk, rfl⟩ := ho.conn hb
  rw [(connClose_gone hb hk fwd inf).clients c]
  constructor
  · rintro ⟨h1, h2⟩
    exact ⟨h1, fun he => h2 (.self h1 he)⟩
  · rintro ⟨h1, h2⟩
    exact ⟨h1, fun hu => h2 (under_self hb hns hu)⟩

theorem findServer_some {name : Str} {slot : Nat} (h : confFindServer s name = some slot) :
    ∃ cs, s.conf.servers[slot]? = some cs ∧ s.conf.servers.getD slot ⟨[], [], [], []⟩ = cs ∧ SameCase cs.name name ∧
      (∀ j d, j < slot → s.conf.servers[j]? = some d → ¬ SameCase d.name name) := by
  simp only [confFindServer] at h
  obtain ⟨h1, h2, h3⟩ := List.findIdx?_eq_some_iff_getElem.1 h
  refine ⟨_, List.getElem?_eq_getElem h1, by simp [h1], ((caseEq_same _ _).1 h2).symm, fun j d hj hd hs => ?_⟩
  have := h3 j hj
  rw [List.getElem?_eq_getElem (by omega)] at hd
  injection hd with hd
  rw [hd] at this
  exact this ((caseEq_same _ _).2 hs.symm)

theorem findServer_none {name : Str} (h : confFindServer s name = none) (j : Nat) (d : ConfServer)
    (hd : s.conf.servers[j]? = some d) : ¬ SameCase d.name name := by
  simp only [confFindServer] at h
  rw [List.findIdx?_eq_none_iff] at h
  intro hs
  have := h d (List.mem_of_getElem? hd)
  rw [(caseEq_same _ _).2 hs.symm] at this
  cases this

theorem lookup_find {l : List (Nat × Nat)} {a : Nat} : l.lookup a = (l.find? (fun p => p.1 == a)).map (·.2) := by
  induction l with
  | nil => rfl
  | cons p l ih =>
    obtain ⟨b, c⟩ := p
    rw [List.lookup_cons, List.find?_cons]
    by_cases hh : a = b
    · subst hh; simp
    · have h1 : (a == b) = false := by simpa using hh
      have h2 : (b == a) = false := by simpa using Ne.symm hh
      simp only [h1, h2, ih]

/-- What the tests of SERVER amount to. -/
theorem serverLink_run (hb : Base s) (ho : Owner s i cl) (hco : (s.cl cl).conn = some i) (ha : req.argc = 2 ∨ req.argc = 3)
    (hl : (req.arg 0).length ≤ 64) :
    (MayLink s i (req.arg 0) ∧ ∃ (slot : Nat) (cs : ConfServer) (u : Srv), s.conf.servers[slot]? = some cs ∧
      SameCase cs.name (req.arg 0) ∧ cs.pwdIn = passwordOf s (s.cl cl) ∧
      u.clients = s.clients ∧ u.conns = s.conns ∧ u.conf = s.conf ∧
      (serverLink s cl i req).1 = (serverAccept u cl i cs req).1) ∨
    (¬ MayLink s i (req.arg 0) ∧ ∃ fwd, (serverLink s cl i req).1 = connClose s i (some fwd) true) := by
  obtain ⟨k, hk, hkc⟩ := ho.conn hb
  have hpw : passwordOf s (s.cl cl) = k.pwd := by
    simp only [passwordOf, hco, Option.bind_some, hk]
  have hkm : k ∈ s.conns ∧ k.idx = i := by
    refine ⟨List.mem_of_find?_eq_some hk, ?_⟩
    have := List.find?_some hk
    simpa using this
  have hone : ∀ k' ∈ s.conns, k'.idx = i → k' = k := by
    intro k' h1 h2
    have := conn_at hb h1
    rw [h2, hk] at this
    injection this with this; exact this.symm
  simp only [serverLink]
  rw [if_neg (by rcases ha with h | h <;> rw [h] <;> decide)]
  cases hf : confFindServer s (req.arg 0) with
  | none =>
    right
    refine ⟨fun hm => ?_, _, by simp only [closeClient, hco]; rfl⟩
    obtain ⟨⟨slot, cs, h1, h2, -⟩, -⟩ := hm
    exact findServer_none hf slot cs h1 h2
  | some slot =>
    obtain ⟨cs, g1, g2, g3, g4⟩ := findServer_some hf
    have huniq : ∀ slot' cs', s.conf.servers[slot']? = some cs' → SameCase cs'.name (req.arg 0) →
        (∀ j d, j < slot' → s.conf.servers[j]? = some d → ¬ SameCase d.name (req.arg 0)) → slot' = slot ∧ cs' = cs := by
      intro slot' cs' e1 e2 e3
      have : slot' = slot := by
        rcases Nat.lt_trichotomy slot' slot with h | h | h
        · exact absurd e2 (g4 _ _ h e1)
        · exact h
        · exact absurd g3 (e3 _ _ h g1)
      subst this
      rw [g1] at e1
      exact ⟨rfl, (Option.some.inj e1).symm⟩
    simp only [g2]
    by_cases hp : passwordOf s (s.cl cl) ≠ cs.pwdIn
    · rw [if_pos hp]
      right
      refine ⟨fun hm => ?_, _, by simp only [closeClient, hco]; rfl⟩
      obtain ⟨⟨slot', cs', h1, h2, h3, ⟨k', hk', e1, e2⟩, -⟩, -⟩ := hm
      obtain ⟨-, rfl⟩ := huniq _ _ h1 h2 h3
      rw [hone k' hk' e1] at e2
      exact hp (hpw.trans e2)
    · rw [if_neg hp]
      have hp' : passwordOf s (s.cl cl) = cs.pwdIn := Decidable.not_not.1 hp
      by_cases hn : s.clients.any (fun c => caseEq c.id (req.arg 0)) = true
      · right
        have hck : clientCheckID s (s.cl cl) (req.arg 0) =
            (connClose s i (some ("ID \"".toList ++ req.arg 0 ++ "\" already registered".toList)) true, false) := by
          simp only [clientCheckID, hco]
          rw [if_neg (by unfold CLIENT_ID_LEN; omega), if_pos hn]
        refine ⟨fun hm => ?_, _, by rw [hck]⟩
        obtain ⟨c, hc, he⟩ := List.any_eq_true.1 hn
        exact hm.2 c hc ((caseEq_same _ _).1 he)
      · have hck : clientCheckID s (s.cl cl) (req.arg 0) = (s, true) := by
          simp only [clientCheckID, hco]
          rw [if_neg (by unfold CLIENT_ID_LEN; omega), if_neg hn]
        simp only [hck]
        have hfree : ∀ c ∈ s.clients, ¬ SameCase c.id (req.arg 0) := fun c hc hs =>
          hn (List.any_eq_true.2 ⟨c, hc, (caseEq_same _ _).2 hs⟩)
        have hml : (s.srvConn.lookup slot = none ∨ s.srvConn.lookup slot = some i) → MayLink s i (req.arg 0) := fun hh =>
          ⟨⟨slot, cs, g1, g3, g4, ⟨k, hkm.1, hkm.2, hpw.symm.trans hp'⟩, hh⟩, hfree⟩
        generalize hr : confSetServer s slot i = r
        simp only [confSetServer] at hr
        cases hfi : s.srvConn.find? (fun p => p.1 == slot) with
        | none =>
          rw [hfi] at hr
          simp only at hr
          subst hr
          left
          exact ⟨hml (.inl (by rw [lookup_find, hfi]; rfl)), slot, cs, { s with srvConn := (slot, i) :: s.srvConn }, g1, g3, hp'.symm, rfl, rfl, rfl, rfl⟩
        | some p =>
          rw [hfi] at hr
          simp only at hr
          by_cases hpi : p.2 = i
          · rw [if_neg (by simp [hpi])] at hr
            subst hr
            left
            exact ⟨hml (.inr (by rw [lookup_find, hfi]; simp [hpi])), slot, cs, s, g1, g3, hp'.symm, rfl, rfl, rfl, rfl⟩
          · rw [if_pos hpi] at hr
            subst hr
            right
            refine ⟨fun hm => ?_, _, rfl⟩
            obtain ⟨⟨slot', cs', h1, h2, h3, -, h5⟩, -⟩ := hm
            obtain ⟨rfl, -⟩ := huniq _ _ h1 h2 h3
            rw [lookup_find, hfi] at h5
            rcases h5 with h5 | h5
            · cases h5
            · exact hpi (by simpa using h5)

theorem step_SERVER (hr : Received s i l cl req) (hn : Is req "SERVER") (hb : Base s)
    (ht : (s.cl cl).type = .gotPass ∨ (s.cl cl).type = .gotPass2813) (rnd : Int) :
    step s (.line i rnd l) = (serverLink (s.roll rnd) cl i req).1 := by
  obtain ⟨g1, g2, g3, g4⟩ := hr.owner hb
  have hst : step s (.line i rnd l) = (ircSERVER (s.roll rnd) cl req).1 :=
    step_do hr rnd hn rfl (by rcases ht with h | h <;> rw [h] <;> rfl)
      (by simp only [Command.argcOk, Nat.zero_le, decide_true, Bool.and_self])
  rw [hst]
  simp only [ircSERVER]
  rw [roll_cl, g3]
  simp only
  rw [if_pos (by rcases ht with h | h <;> rw [h] <;> rfl)]

theorem owner_of (hr : Received s i l cl req) : Owner s i cl := by
  obtain ⟨k, req0, hk, hc, -⟩ := hr
  exact ⟨k, List.mem_of_find?_eq_some hk, by simpa using List.find?_some hk, hc⟩

theorem mayLink_roll {rnd : Int} {name : Str} : MayLink (s.roll rnd) i name ↔ MayLink s i name := Iff.rfl

/-- **C49** A connection that asks to become a server link without the credentials of a configured
server, for a server that is linked already, or with a name that is in use, is closed; nobody else
is affected. -/
theorem C49_refused (h : Reachable s) (hr : Received s i l cl req) (hn : Is req "SERVER")
    (ht : (s.cl cl).type = .gotPass ∨ (s.cl cl).type = .gotPass2813) (ha : req.argv.length = 2 ∨ req.argv.length = 3)
    (hl : (req.arg 0).length ≤ 64) (hm : ¬ MayLink s i (req.arg 0)) (rnd : Int) (c : Client) :
    c ∈ (step s (.line i rnd l)).clients ↔ c ∈ s.clients ∧ c.ref ≠ cl := by
  have hb := h.base
  obtain ⟨g1, g2, g3, g4⟩ := hr.owner hb
  have hb' : Base (s.roll rnd) := Base.of_core (s := s) rfl hb
  have ho : Owner (s.roll rnd) i cl := (show Owner s i cl from owner_of hr)
  rw [step_SERVER hr hn hb ht rnd]
  rcases serverLink_run (s := s.roll rnd) (req := req) hb' ho g3 ha hl with ⟨h1, -⟩ | ⟨-, fwd, h2⟩
  · exact absurd (mayLink_roll.1 h1) hm
  · rw [h2]
    exact connClose_only hb' ho (by show (s.cl cl).type ≠ _; rcases ht with h | h <;> rw [h] <;> decide) _ _ c

/-- Change one field of a client. -/
theorem cl_upd_self {r : Nat} (f : Client → Client) (hf : ∀ c, (f c).ref = c.ref) (h : (s.cl? r).isSome = true) :
    (s.updCl r f).cl r = f (s.cl r) := by
  rw [cl_updCl s r r f hf (fun _ => h), if_pos rfl]

theorem numENDOFMOTD_core (s : Srv) (cl : Nat) : (numENDOFMOTD s cl).1.core = (clientSetType s cl .server).core := by
  simp only [numENDOFMOTD]
  simp only [core_emits]
  split <;> rfl

theorem serverAccept_cl {cs : ConfServer} (hc : (s.cl cl).conn.isSome = true) :
    let t := (serverAccept s cl i cs req).1
    (t.cl cl).id = (req.arg 0).take 63 ∧ (t.cl cl).conn = (s.cl cl).conn ∧
    (t.cl cl).type = (if (s.cl cl).hasFlag 'H' then .unknownServer else .server) := by
  have hh : ∀ v : Srv, (v.cl cl).conn = (s.cl cl).conn → (v.cl? cl).isSome = true := fun v hv =>
    cl?_isSome_of_conn (by rw [hv]; exact hc)
  intro t
  show (((serverAccept s cl i cs req).1).cl cl).id = _ ∧ (((serverAccept s cl i cs req).1).cl cl).conn = _ ∧ (((serverAccept s cl i cs req).1).cl cl).type = _
  simp only [serverAccept]
  generalize h1 : clientSetID s cl (req.arg 0) = s1
  have a1 : (s1.cl cl).id = (req.arg 0).take 63 ∧ (s1.cl cl).conn = (s.cl cl).conn ∧ (s1.cl cl).flags = (s.cl cl).flags := by
    rw [← h1]
    refine ⟨setID_id _ (hh s rfl), setID_conn _ _ _ _, ?_⟩
    exact cl_updCl_field Client.flags s cl cl _ (fun _ => setIdC_ref _ _ _) (fun c => by simp only [setIdC]; split <;> rfl)
  generalize h2 : clientSetInfo (s1.updCl cl (fun c => { c with hops := 1 })) cl (req.argv.getLast?.getD []) = s2
  have a2 : (s2.cl cl).id = (req.arg 0).take 63 ∧ (s2.cl cl).conn = (s.cl cl).conn ∧ (s2.cl cl).flags = (s.cl cl).flags := by
    rw [← h2, clientSetInfo]
    have e0 := cl_upd_self (s := s1) (fun c => { c with hops := 1 }) (fun _ => rfl) (hh s1 a1.2.1)
    rw [cl_upd_self _ (fun c => (keeps_setInfoC _ _ c).1) (hh _ (by rw [e0]; exact a1.2.1)), e0]
    refine ⟨?_, ?_, ?_⟩
    · exact (keeps_setInfoC _ _ _).2.1.trans a1.1
    · exact (keeps_setInfoC _ _ _).2.2.2.2.1.trans a1.2.1
    · simp only [setInfoC]; split <;> exact a1.2.2
  clear h1 h2 a1
  generalize hs3 : (if (s2.cl cl).token ≠ TOKEN_OUTBOUND then
      (write (write s2 (s2.cl cl) ⟨"PASS", [cs.pwdOut, "0210-IRC+".toList]⟩)
        ((write s2 (s2.cl cl) ⟨"PASS", [cs.pwdOut, "0210-IRC+".toList]⟩).cl cl) ⟨"SERVER",
        [(write s2 (s2.cl cl) ⟨"PASS", [cs.pwdOut, "0210-IRC+".toList]⟩).conf.serverName, "1".toList,
         (write s2 (s2.cl cl) ⟨"PASS", [cs.pwdOut, "0210-IRC+".toList]⟩).conf.serverInfo]⟩).updCl cl
        (fun c => { c with introducer := cl, token := 1 })
    else s2.updCl cl (fun c => { c with token := atoi (req.arg 1) })) = s3
  have a3 : (s3.cl cl).id = (req.arg 0).take 63 ∧ (s3.cl cl).conn = (s.cl cl).conn ∧ (s3.cl cl).flags = (s.cl cl).flags := by
    have key : ∀ (w : Srv) (f : Client → Client), w.clients = s2.clients → (∀ c, (f c).ref = c.ref) →
        (∀ c, (f c).id = c.id ∧ (f c).conn = c.conn ∧ (f c).flags = c.flags) →
        ((w.updCl cl f).cl cl).id = (req.arg 0).take 63 ∧ ((w.updCl cl f).cl cl).conn = (s.cl cl).conn ∧
        ((w.updCl cl f).cl cl).flags = (s.cl cl).flags := by
      intro w f hw hf hk
      rw [cl_upd_self f hf (hh w (by rw [cl_congr hw]; exact a2.2.1)), cl_congr hw]
      obtain ⟨k1, k2, k3⟩ := hk (s2.cl cl)
      exact ⟨k1.trans a2.1, k2.trans a2.2.1, k3.trans a2.2.2⟩
    rw [← hs3]
    split
    · exact key _ (fun c => { c with introducer := cl, token := 1 }) rfl (fun _ => rfl) (fun _ => ⟨rfl, rfl, rfl⟩)
    · exact key _ (fun c => { c with token := atoi (req.arg 1) }) rfl (fun _ => rfl) (fun _ => ⟨rfl, rfl, rfl⟩)
  generalize hs4 : (if (s3.cl cl).type = .gotPass then s3.updConn i (fun k => { k with rfc1459 := true }) else s3) = s4
  have a4 : (s4.cl cl).id = (req.arg 0).take 63 ∧ (s4.cl cl).conn = (s.cl cl).conn ∧ (s4.cl cl).flags = (s.cl cl).flags := by
    rw [← hs4]; split <;> exact a3
  rw [setType_unkServer (by rw [a4.2.1]; exact hc)]
  have a5 : ((toUnkServer cl s4).cl cl).id = (req.arg 0).take 63 ∧ ((toUnkServer cl s4).cl cl).conn = (s.cl cl).conn ∧
      ((toUnkServer cl s4).cl cl).flags = (s.cl cl).flags ∧ ((toUnkServer cl s4).cl cl).type = .unknownServer := by
    rw [toUnkServer, cl_upd_self (fun c => { c with type := .unknownServer }) (fun _ => rfl) (hh _ a4.2.1)]
    exact ⟨a4.1, a4.2.1, a4.2.2, rfl⟩
  generalize toUnkServer cl s4 = s5 at *
  have hfl : (s5.cl cl).hasFlag 'H' = (s.cl cl).hasFlag 'H' := by simp only [Client.hasFlag, a5.2.2.1]
  rw [hfl]
  cases (s.cl cl).hasFlag 'H' with
  | true => exact ⟨a5.1, a5.2.1, a5.2.2.2⟩
  | false =>
    have e1 : ∀ v : Srv, v.clients = (clientSetType s5 cl .server).clients →
        (v.cl cl).id = (req.arg 0).take 63 ∧ (v.cl cl).conn = (s.cl cl).conn ∧ (v.cl cl).type = .server := by
      intro v hv
      rw [cl_congr hv]
      obtain ⟨b1, b2, -⟩ := setType_cl (s := s5) cl .server cl
      exact ⟨b1.trans a5.1, b2.trans a5.2.1, setType_type .server (hh _ a5.2.1)⟩
    simp only [Bool.false_eq_true, if_false]
    exact e1 _ (core_clients (numENDOFMOTD_core s5 cl))

/-- **C49** A connection with the credentials of a configured server becomes the link to that
server; it is registered at once unless it still has to end its message of the day (flag H). -/
theorem C49_accepted (h : Reachable s) (hr : Received s i l cl req) (hn : Is req "SERVER")
    (ht : (s.cl cl).type = .gotPass ∨ (s.cl cl).type = .gotPass2813) (ha : req.argv.length = 2 ∨ req.argv.length = 3)
    (hl : (req.arg 0).length ≤ 64) (hm : MayLink s i (req.arg 0)) (rnd : Int) :
    ∃ c ∈ (step s (.line i rnd l)).clients, c.ref = cl ∧ c.conn = some i ∧ c.id = (req.arg 0).take 63 ∧
      c.type = (if (s.cl cl).hasFlag 'H' then .unknownServer else .server) := by
  have hb := h.base
  obtain ⟨g1, g2, g3, g4⟩ := hr.owner hb
  have hb' : Base (s.roll rnd) := Base.of_core (s := s) rfl hb
  have ho : Owner (s.roll rnd) i cl := (show Owner s i cl from owner_of hr)
  rw [step_SERVER hr hn hb ht rnd]
  rcases serverLink_run (s := s.roll rnd) (req := req) hb' ho g3 ha hl with ⟨-, slot, cs, u, e1, e2, e3, e4, e5, e6, e7⟩ | ⟨h1, -⟩
  · have hcl : u.cl cl = s.cl cl := cl_congr (t := u) (s := s.roll rnd) e4 cl
    have := serverAccept_cl (s := u) (i := i) (req := req) (cs := cs) (cl := cl) (by rw [hcl, g3]; rfl)
    rw [hcl, g3] at this
    rw [e7]
    obtain ⟨b1, b2, b3⟩ := this
    have hme := mem_of_conn (s := (serverAccept u cl i cs req).1) (r := cl) (by rw [b2]; rfl)
    exact ⟨_, hme.1, hme.2, b2, b1, b3⟩
  · exact absurd (mayLink_roll.2 hm) h1

/-! ## Nobody else becomes a link -/

/-- Where the local links come from: there already, by a SERVER command of its own, or newly opened. -/
theorem links_from (h : Steps (Okay x) s t) (hb : Base s) (hbad : ¬ x.bad) :
    ∀ d ∈ t.clients, d.conn.isSome = true → LinkType d →
      (∃ c ∈ s.clients, c.ref = d.ref ∧ c.conn = d.conn ∧ LinkType c) ∨ (x.is "SERVER" ∧ d.ref = x.cl) ∨
      (x.opens ∧ s.nextRef ≤ d.ref) := by
  induction h with
  | refl hc => intro d hd h1 h2; rw [core_clients hc] at hd; exact .inl ⟨d, hd, rfl, rfl, h2⟩
  | @tail t0 t' a h0 hp hr ih =>
    intro d hd h1 h2
    rw [core_clients hr] at hd
    have hb0 := h0.base hb
    rcases run_mem hp hd with ⟨c, hc, hk⟩ | ⟨g1, g⟩
    · have hcc : c.conn.isSome = true := by rw [← hk.conn]; exact h1
      rw [hk.ref, hk.conn]
      rcases hk.type with ht | ⟨ty, rfl, ht⟩
      · exact ih c hc hcc (by simp only [LinkType, ← ht]; exact h2)
      · obtain ⟨p1, p2, p3⟩ := hp
        have hcl := cl_of_mem' hb0.cl.ord hc rfl
        obtain ⟨-, p4⟩ := p2 (by rw [hcl]; exact hcc)
        rcases p4 with ⟨p5, p6⟩ | p4
        · have : ty = .server ∨ ty = .unknownServer := by rw [← ht]; exact h2
          rcases this with rfl | rfl
          · rw [LocalType, hcl] at p6
            rcases p6.1 with e | e
            · exact ih c hc hcc (.inr e)
            · exact ih c hc hcc (.inl e)
          · exact .inr (.inl ⟨p6.2, p5⟩)
        · exact absurd p4 hbad
    · rcases g with ⟨-, g⟩ | -
      · rw [g] at h1; cases h1
      · by_cases ho : x.opens
        · exact .inr (.inr ⟨ho, by rw [g1]; exact steps_nextRef h0⟩)
        · exfalso
          have hb' : Base (a.run t0) := (Steps.one a hp rfl).base hb0
          obtain ⟨j, hj⟩ := Option.isSome_iff_exists.1 h1
          obtain ⟨k, hk, -, e2⟩ := hb'.cl.clConn d hd j hj
          have hsub := run_conns (fun k => k.client) hp ho (fun i f hf k => (hf.keeps k).2.1)
          obtain ⟨k', hk', he⟩ := List.mem_map.1 (hsub.subset (List.mem_map.2 ⟨k, hk, rfl⟩))
          obtain ⟨c, hc, h3, -⟩ := hb0.cl.connCl k' hk'
          have := hb0.cl.lt c hc
          rw [h3, he, e2, g1] at this
          exact Nat.lt_irrefl _ this

theorem steps_conn (h : Steps (Okay x) s t) :
    ∀ d ∈ t.clients, (∃ c ∈ s.clients, c.ref = d.ref ∧ c.conn = d.conn) ∨ s.nextRef ≤ d.ref := by
  induction h with
  | refl hc => intro d hd; rw [core_clients hc] at hd; exact .inl ⟨d, hd, rfl, rfl⟩
  | @tail t0 t' a h0 hp hr ih =>
    intro d hd
    rw [core_clients hr] at hd
    rcases run_mem hp hd with ⟨c, hc, hk⟩ | ⟨h1, -⟩
    · rw [hk.ref, hk.conn]; exact ih c hc
    · right; rw [h1]; exact steps_nextRef h0

theorem newLocal_cls (s : Srv) (i : Nat) (h : Option Str) (ty : CType) :
    (clientNewLocal s i h ty).clients = newClientC s (some i) s.this none ty none none h none 0 0 none false :: s.clients := by
  simp only [clientNewLocal, initNewClient]
  exact adjustCounters_clients _ _

theorem accept_links {host a : Str} {ssl : Bool} {d : Client} (hd : d ∈ (newConnection s i host a ssl).clients) (hl : LinkType d) :
    ∃ c ∈ s.clients, c.ref = d.ref ∧ c.conn = d.conn ∧ LinkType c := by
  simp only [newConnection] at hd
  split at hd
  · exact ⟨d, hd, rfl, rfl, hl⟩
  · simp only [clientSetHostname] at hd
    obtain ⟨c, hc, rfl⟩ := mem_updCl.1 hd
    rw [newLocal_cls] at hc
    have key : ∀ e : Client, (e = c ∨ e = setHostC s.conf c host) → e.type = c.type ∧ e.ref = c.ref ∧ e.conn = c.conn := by
      rintro e (rfl | rfl)
      · exact ⟨rfl, rfl, rfl⟩
      · obtain ⟨h1, h2, h3, h4, h5, -⟩ := keeps_setHostC s.conf host c
        exact ⟨h4, h1, h5⟩
    have hcf : ∀ v : Srv, v = clientNewLocal s i none .unknown → v.conf = s.conf := by
      rintro v rfl
      simp only [clientNewLocal, initNewClient]
      obtain ⟨a, b, h⟩ := adjustCounters_eq { s with clients := newClientC s (some i) s.this none .unknown none none none none 0 0 none false :: s.clients, nextRef := s.nextRef + 1 } (newClientC s (some i) s.this none .unknown none none none none 0 0 none false)
      rw [h]
    obtain ⟨k1, k2, k3⟩ := key (if c.ref = s.nextRef then setHostC (clientNewLocal s i none CType.unknown).conf c host else c) (by
      by_cases hr : c.ref = s.nextRef
      · right; rw [if_pos hr, hcf _ rfl]
      · left; rw [if_neg hr])
    rw [k2, k3]
    have hl' : LinkType c := by simp only [LinkType]; rw [← k1]; exact hl
    rcases List.mem_cons.1 hc with rfl | hc
    · obtain ⟨-, -, -, g4, -⟩ := newClientC_fields s (some i) s.this none .unknown none none none none 0 0 none false
      rcases hl' with h | h <;> rw [g4] at h <;> cases h
    · exact ⟨c, hc, rfl, rfl, hl'⟩

theorem connect_links {slot : Nat} {a : Str} {d : Client} (hd : d ∈ (newServer s slot i a).clients) (hl : LinkType d) :
    (∃ c ∈ s.clients, c.ref = d.ref ∧ c.conn = d.conn ∧ LinkType c) ∨ d.ref = s.nextRef := by
  simp only [newServer] at hd
  split at hd
  · exact .inl ⟨d, hd, rfl, rfl, hl⟩
  · obtain ⟨c, hc, rfl⟩ := mem_updCl.1 hd
    rw [newLocal_cls] at hc
    by_cases hr : c.ref = s.nextRef
    · right; rw [if_pos hr]; exact hr
    · rw [if_neg hr] at hl ⊢
      rcases List.mem_cons.1 hc with rfl | hc
      · exact absurd (newClientC_fields s (some i) s.this none .unknownServer none none (some a) none 0 0 none false).1 hr
      · exact .inl ⟨c, hc, rfl, rfl, hl⟩

/-- A local client becomes a link only by its own SERVER command with credentials, or because this
server has opened the connection. -/
theorem dropped_sub {b : Bool} (hb : Base s) (h : validatePrefix s i cl req = .drop t b) (hi : ∃ k, s.conn? i = some k) :
    ∀ c ∈ t.clients, c ∈ s.clients := by
  simp only [validatePrefix] at h
  obtain ⟨k, hk⟩ := hi
  repeat' split at h
  all_goals first
    | cases h; done
    | injection h with h1 h2; subst h1; exact fun c hc => hc
    | injection h with h1 h2; subst h1; exact fun c hc => (((connClose_gone hb hk _ _).clients c).1 hc).1

theorem link_step (h : PoliteRun s) {e : Event} (hp : PoliteEvent s e) {d : Client} (hd : d ∈ (step s e).clients)
    (hc : d.conn ≠ none) (hl : LinkType d) :
    (∃ c ∈ s.clients, c.ref = d.ref ∧ c.conn = d.conn ∧ LinkType c) ∨ Admits s e d.ref ∨ Opens s e d.ref := by
  have hb := h.reachable.base
  have hci : d.conn.isSome = true := by cases hx : d.conn <;> simp_all
  have hgen := links_from (step_steps_polite hb hp) hb (evCtx_polite s e).2.2.2.2 d hd hci hl
  rcases hgen with g | ⟨g1, g2⟩ | ⟨g1, g2⟩
  · exact .inl g
  · obtain ⟨i, rnd, l, req0, rfl, e2, e3, e4, e5⟩ := evCtx_argv (by decide) g1
    rw [← g2] at e2
    obtain ⟨k, hk, hkc⟩ := e2.conn hb
    by_cases hold : ∃ c ∈ s.clients, c.ref = d.ref ∧ c.conn = d.conn ∧ LinkType c
    · exact .inl hold
    · right; left
      have hsame : ∀ t : Srv, d ∈ t.clients → (∀ c ∈ t.clients, c ∈ s.clients) → False := fun t ht hsub =>
        hold ⟨d, hsub d ht, rfl, rfl, hl⟩
      have hb' : Base (s.roll rnd) := Base.of_core (s := s) rfl hb
      cases hv : validatePrefix (s.roll rnd) i k.client req0 with
      | drop t' b =>
        exfalso
        have hst : step s (.line i rnd l) = t' := by
          have hk' : ({ s with rnd := rnd } : Srv).conn? i = some k := hk
          simp only [step]
          rw [if_pos (by rw [hk]; rfl)]
          simp only [handleLine, hk']
          rw [e3]
          simp only
          rw [show validatePrefix { s with rnd := rnd } i k.client req0 = .drop t' b from hv]
        rw [hst] at hd
        exact hsame t' hd (dropped_sub (s := s.roll rnd) hb' hv ⟨k, hk⟩)
      | pass req =>
        have hv' := (validatePrefix_rnd s rnd i k.client req0 req).1 hv
        have hr : Received s i l d.ref req := ⟨k, req0, hk, hkc, e3, by rw [← hkc]; exact hv'⟩
        obtain ⟨c1, c2, -⟩ := validatePrefix_pass hv
        have hn : Is req "SERVER" := by simp only [Is]; rw [c1]; exact e4
        refine ⟨i, rnd, l, req, rfl, hr, hn, ?_⟩
        obtain ⟨m1, m2, m3, m4⟩ := hr.owner hb
        have hdc : d.conn = some i := by
          rcases steps_conn (step_steps_polite hb hp) d hd with ⟨c, q1, q2, q3⟩ | q
          · rw [← q3, hb.cl.ord.eq_of_ref q1 m1 (q2.trans m2.symm)]; exact m3
          · have := hb.cl.lt _ m1
            rw [m2] at this; omega
        have hnl : ¬ LinkType (s.cl d.ref) := fun hL => hold ⟨_, m1, m2, m3.trans hdc.symm, hL⟩
        have hst : step s (.line i rnd l) = (ircSERVER (s.roll rnd) d.ref req).1 :=
          step_do hr rnd hn rfl (by rfl) (by simp only [Command.argcOk, Nat.zero_le, decide_true, Bool.and_self])
        have hun : ∀ v : Srv, v.core = s.core → step s (.line i rnd l) = v → False := fun v hv he => by
          rw [he] at hd
          exact hsame v hd (fun c hc => by rw [core_clients hv] at hc; exact hc)
        have ht : (s.cl d.ref).type = .gotPass ∨ (s.cl d.ref).type = .gotPass2813 := by
          refine Classical.byContradiction (fun hnt => hun _ (?_ : _ = _) hst)
          simp only [ircSERVER]
          rw [roll_cl, m3]
          simp only
          rw [if_neg (by simpa using hnt), if_neg (fun hh => hnl (.inl hh))]
          exact core_needMoreParams _ _ _
        refine ⟨ht, ?_⟩
        have hrun := step_SERVER hr hn hb ht rnd
        by_cases ha : req.argc = 2 ∨ req.argc = 3
        · by_cases hlen : (req.arg 0).length ≤ 64
          · rcases serverLink_run (s := s.roll rnd) (req := req) hb' (show Owner s i d.ref from owner_of hr) m3 ha hlen with ⟨q, -⟩ | ⟨-, fwd, q⟩
            · exact q
            · exfalso
              rw [q] at hrun
              rw [hrun] at hd
              exact hsame _ hd (fun c hc => ((connClose_only hb' (show Owner s i d.ref from owner_of hr)
                (fun hh => hnl (.inl hh)) _ _ c).1 hc).1)
          · exfalso
            refine hsame _ hd ?_
            rw [hrun]
            simp only [serverLink]
            rw [if_neg (by rcases ha with h | h <;> rw [h] <;> decide)]
            have hck : clientCheckID (s.roll rnd) (s.cl d.ref) (req.arg 0) =
              (writeErr (s.roll rnd) (s.cl d.ref) ⟨"ERR_ERRONEUSNICKNAME_MSG", [(s.cl d.ref).ID, req.arg 0]⟩, false) := by
              simp only [clientCheckID, m3]
              rw [if_pos (by unfold CLIENT_ID_LEN; omega)]
            have hcl : ∀ fwd, ∀ c ∈ (closeClient (s.roll rnd) (s.cl d.ref) fwd).1.clients, c ∈ s.clients := by
              intro fwd c hc
              simp only [closeClient, m3] at hc
              exact ((connClose_only hb' (show Owner s i d.ref from owner_of hr) (fun hh => hnl (.inl hh)) _ _ c).1 hc).1
            rw [roll_cl]
            split
            · exact hcl _
            · split
              · exact hcl _
              · rw [hck]; exact fun c hc => hc
        · exfalso
          refine hun _ ?_ hrun
          simp only [serverLink]
          rw [if_pos (by simpa [not_or] using ha)]
          exact core_needMoreParams _ _ _
  · cases e with
    | accept i host a ssl => exact .inl (accept_links hd hl)
    | connect slot i a =>
      rcases connect_links hd hl with h | h
      · exact .inl h
      · exact .inr (.inr ⟨slot, i, a, rfl, h⟩)
    | line i rnd l =>
      simp only [evCtx] at g1
      split at g1 <;> exact absurd g1 (fun h => h)
    | _ => exact absurd g1 (fun h => h)

variable {h : List (Srv × Event)}

/-- **C49** Every server link has been admitted by its SERVER command, with the credentials of a
configured server and a name nobody had at that time, or is a connection this server has opened. -/
theorem C49_only (hh : History h s) {c : Client} (hc : c ∈ s.clients) (hco : c.conn ≠ none) (hl : LinkType c) :
    (∃ p ∈ h, Admits p.1 p.2 c.ref) ∨ ∃ p ∈ h, Opens p.1 p.2 c.ref := by
  induction hh generalizing c with
  | start conf host now hg =>
    exfalso
    have hst := channelInitPredefined_steps (x := { loose := True, newConf := some conf }) rfl
      (clientInit_base conf host now) (.inl trivial)
    rcases links_from hst (clientInit_base conf host now) (fun h => h) c hc (by cases hx : c.conn <;> simp_all) hl with
      ⟨d, hd, e1, e2, -⟩ | ⟨e1, -⟩ | ⟨e1, -⟩
    · simp only [clientInit, List.mem_singleton] at hd
      rw [hd] at e2
      rw [(thisServerC_fields conf host).2.2.1] at e2
      exact hco e2.symm
    · exact absurd e1 (by simp only [Ctx.is]; decide)
    · exact e1
  | @next h s e hh hf hp ih =>
    rcases link_step hh.polite hp hc hco hl with ⟨d, hd, e1, e2, e3⟩ | g | g
    · rw [← e1]
      rcases ih hd (by rw [e2]; exact hco) e3 with ⟨p, q1, q2⟩ | ⟨p, q1, q2⟩
      · exact .inl ⟨p, List.mem_cons_of_mem _ q1, q2⟩
      · exact .inr ⟨p, List.mem_cons_of_mem _ q1, q2⟩
    · exact .inl ⟨_, List.mem_cons_self .., g⟩
    · exact .inr ⟨_, List.mem_cons_self .., g⟩

/-- **C49** The password that counts is one the connection has sent with PASS. -/
theorem C49_password (hh : History h s) (hr : Received s i l cl req) (hm : MayLink s i (req.arg 0)) :
    ∃ cs ∈ s.conf.servers, SameCase cs.name (req.arg 0) ∧ (cs.pwdIn = [] ∨ SentPass h cl cs.pwdIn) := by
  obtain ⟨⟨slot, cs, h1, h2, -, ⟨k, hk, e1, e2⟩, -⟩, -⟩ := hm
  refine ⟨cs, List.mem_of_getElem? h1, h2, ?_⟩
  have hkc : k.client = cl := by
    obtain ⟨k', req0, g1, g2, -⟩ := hr
    have := conn_at hh.polite.reachable.base hk
    rw [e1, g1] at this
    injection this with this
    rw [← this, g2]
  have := (history_inv hh).2 k hk
  rw [e2, hkc] at this
  exact this

/-! ## Examples -/

/-- A connection that has sent a password. -/
def Sample.asks : List Event :=
  [.accept 7 "5.5.5.5".toList "5.5.5.5".toList false, .line 7 0 "PASS in 0210-IRC+ ngIRCd|:CLMSo".toList]

def Sample.asking : List (Srv × Event) × Srv := Sample.runH [] (Srv.init Sample.conf "host".toList 1000) Sample.asks

theorem Sample.asking_history : History Sample.asking.1 Sample.asking.2 :=
  Sample.runH_history (.start _ _ _ (by decide +kernel)) _ (by decide +kernel)

instance : Decidable (MayLink s i l) :=
  decidable_of_iff
    ((match confFindServer s l with
      | none => false
      | some slot => decide ((∃ k ∈ s.conns, k.idx = i ∧ k.pwd = (s.conf.servers.getD slot ⟨[], [], [], []⟩).pwdIn) ∧
          (s.srvConn.lookup slot = none ∨ s.srvConn.lookup slot = some i))) = true ∧
      ∀ c ∈ s.clients, ¬ SameCase c.id l) (by
    unfold MayLink
    refine and_congr_left (fun _ => ?_)
    cases hf : confFindServer s l with
    | none =>
      simp only [Bool.false_eq_true, false_iff]
      rintro ⟨slot, cs, h1, h2, -⟩
      exact findServer_none hf slot cs h1 h2
    | some slot =>
      obtain ⟨cs, g1, g2, g3, g4⟩ := findServer_some hf
      simp only [g2, decide_eq_true_eq]
      constructor
      · rintro ⟨h1, h2⟩
        exact ⟨slot, cs, g1, g3, g4, h1, h2⟩
      · rintro ⟨slot', cs', e1, e2, e3, e4, e5⟩
        have : slot' = slot := by
          rcases Nat.lt_trichotomy slot' slot with h | h | h
          · exact absurd e2 (g4 _ _ h e1)
          · exact h
          · exact absurd g3 (e3 _ _ h g1)
        subst this
        rw [g1] at e1
        rw [Option.some.inj e1]
        exact ⟨e4, e5⟩)

/-- With the name of the configured server it may become the link, with another name not. -/
example : ∃ req req' : Request, Reachable Sample.asking.2 ∧
    Received Sample.asking.2 7 "SERVER Peer.example.net 1 :peer".toList 3 req ∧ Is req "SERVER" ∧
    (Sample.asking.2.cl 3).type = .gotPass2813 ∧ MayLink Sample.asking.2 7 (req.arg 0) ∧
    Received Sample.asking.2 7 "SERVER other.example.net 1 :peer".toList 3 req' ∧ Is req' "SERVER" ∧
    ¬ MayLink Sample.asking.2 7 (req'.arg 0) ∧
    ((step Sample.asking.2 (.line 7 0 "SERVER Peer.example.net 1 :peer".toList)).cl 3).type = .server :=
  ⟨⟨none, "SERVER".toList, ["Peer.example.net".toList, "1".toList, "peer".toList]⟩,
    ⟨none, "SERVER".toList, ["other.example.net".toList, "1".toList, "peer".toList]⟩,
    Sample.asking_history.polite.reachable, recv_sound (by decide +kernel), by simp only [Is]; decide, by decide +kernel,
    by decide +kernel, recv_sound (by decide +kernel), by simp only [Is]; decide, by decide +kernel, by decide +kernel⟩

/-- This server connects to the configured server, and what answers says "end of MOTD" at once. -/
def Sample.opens : List Event := [.connect 0 7 "5.5.5.5".toList, .line 7 0 "376 *".toList]

def Sample.opened : List (Srv × Event) × Srv := Sample.runH [] (Srv.init Sample.conf "host".toList 1000) Sample.opens

/-- **C49** is violated for connections this server opens: whoever answers there becomes a server
link by the numeric 376, without ever having sent a name or a password. -/
theorem C49_violated_by_numeric : ∃ h s c, History h s ∧ c ∈ s.clients ∧ c.conn ≠ none ∧ c.type = .server ∧
    ¬ HasSent h c.ref "SERVER" ∧ ¬ HasSent h c.ref "PASS" := by
  refine ⟨Sample.opened.1, Sample.opened.2, Sample.opened.2.cl 3, Sample.runH_history (.start _ _ _ (by decide +kernel)) _ (by decide +kernel),
    by decide +kernel, by decide +kernel, by decide +kernel, ?_, ?_⟩
  all_goals
    rintro ⟨p, hp, i, rnd, l, req, e1, e2, e3, e4⟩
    simp only [Sample.opened, Sample.opens, Sample.runH, List.mem_cons, List.not_mem_nil, or_false] at hp
    rcases hp with rfl | rfl
    · injection e1 with e1 e1' e1''
      subst e1''
      rw [show parseRequest _ "376 *".toList = .request ⟨none, "376".toList, ["*".toList]⟩ from by decide +kernel] at e3
      injection e3 with e3
      subst e3
      revert e4
      simp only [Is]; decide
    · cases e1

end Ngircd
