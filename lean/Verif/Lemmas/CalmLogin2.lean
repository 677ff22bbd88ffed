import Verif.Lemmas.CalmLogin
import Verif.Lemmas.CalmMsg

/-!
# Commands of clients that are not registered yet cause no invalid access
-/

set_option linter.unusedSimpArgs false

namespace Ngircd
open Spec

variable {s t u : Srv} {c d f p : Client} {cl i : Nat} {req : Request} {m : Msg}

theorem hfault {q : Prop} [Decidable q] {a b : HRes} {z : Bool} (ha : a.1.fault = z) (hb : b.1.fault = z) : (if q then a else b).1.fault = z := by
  split <;> assumption

theorem hfine {q : Prop} [Decidable q] {a b : HRes} {z : Bool} (ha : q → a.1.fault = z) (hb : ¬ q → b.1.fault = z) : (if q then a else b).1.fault = z := by
  split
  · exact ha ‹_›
  · exact hb ‹_›

theorem sfine {q : Prop} [Decidable q] {a b : Srv} {z : Bool} (ha : q → a.fault = z) (hb : ¬ q → b.fault = z) : (if q then a else b).fault = z := by
  split
  · exact ha ‹_›
  · exact hb ‹_›

theorem caseEq_star {n : Str} (hce : caseEq ['*'] n = true) : n = ['*'] := by
  rw [caseEq_iff] at hce
  match n, hce with
  | [], hce => simp at hce
  | [c], hce =>
    simp only [lowerStr_cons, lowerStr_nil, List.cons.injEq, and_true] at hce
    have h1 : (toLower '*').toNat = (toLower c).toNat := by rw [hce]
    rw [toLower_toNat, toLower_toNat] at h1
    have h2 : '*'.toNat = c.toNat := by
      have : '*'.toNat = 42 := rfl
      have hA : 'A'.toNat = 65 := rfl
      have hZ : 'Z'.toNat = 90 := rfl
      split at h1 <;> split at h1 <;> simp_all <;> omega
    rw [char_ext_toNat h2]
  | _ :: _ :: _, hce => simp at hce

/-- A client with an open connection. -/
structure Home (s : Srv) (cl : Nat) : Prop extends Safe s cl where
  mem : s.cl cl ∈ s.clients
  ref : (s.cl cl).ref = cl
  conn : ∃ i, (s.cl cl).conn = some i ∧ (s.conn? i).isSome = true
  max : s.conf.maxNickLength ≤ CLIENT_NICK_LEN
  ne : cl ≠ s.this
  here : (s.cl s.this).type = .server
  loc : ∀ c ∈ s.clients, c.conn.isSome = true → c.ref ≠ s.this

theorem Home.entrant (h : Home s cl) (h1 : isValidNick s.conf.maxNickLength (s.cl cl).id = true)
    (h2 : (s.cl cl).hash = Hash (s.cl cl).id) : Entrant s cl :=
  ⟨h.toSafe, h.mem, h.ref, h.conn, h1, h2, h.max, h.ne, h.here, h.loc⟩

theorem Home.mild (h : Home s cl) (hm : Mild s t) (hc : t.conf = s.conf) (hk : ∀ i, (t.conn? i).isSome = (s.conn? i).isSome)
    (hth : (t.cl t.this).type = .server) : Home t cl := by
  have hx : ∃ d ∈ t.clients, d.ref = cl := by
    have : (s.cl cl).way ∈ t.clients.map Client.way := by rw [hm.ways]; exact List.mem_map.2 ⟨_, h.mem, rfl⟩
    obtain ⟨d, hd, e⟩ := List.mem_map.1 this
    exact ⟨d, hd, (congrArg Prod.fst e).trans h.ref⟩
  obtain ⟨d, hd, e⟩ := hx
  obtain ⟨m1, m2⟩ := clIn hd e
  obtain ⟨i, c1, c2⟩ := h.conn
  refine ⟨h.toSafe.calm hm, m1, m2, ⟨i, ?_, by rw [hk]; exact c2⟩, by rw [hc]; exact h.max, by rw [hm.this]; exact h.ne, hth, ?_⟩
  · exact (congrArg (fun x => x.2.1) (hm.clw cl)).trans c1
  · intro c hc hcn
    obtain ⟨z, hz, ez⟩ := hm.mem hc
    rw [hm.this, show c.ref = z.ref from congrArg Prod.fst ez]
    exact h.loc z hz (by rw [← show c.conn = z.conn from congrArg (fun x => x.2.1) ez]; exact hcn)

/-- A change of the client itself. -/
theorem Home.upd (h : Home s cl) {g : Client → Client} (hg : ∀ c, (g c).way = c.way) : Home (s.updCl cl g) cl := by
  refine h.mild (Mild.upd hg) rfl (fun _ => rfl) ?_
  show ((s.updCl cl g).cl s.this).type = .server
  rw [cl_updCl s cl s.this g (fun c => congrArg Prod.fst (hg c)) (fun e => absurd e.symm h.ne), if_neg (fun e => h.ne e.symm)]
  exact h.here

theorem Home.upd_cl (h : Home s cl) {g : Client → Client} (hg : ∀ c, (g c).way = c.way) : (s.updCl cl g).cl cl = g (s.cl cl) := by
  have hs : (s.cl? cl).isSome = true := by
    rw [Srv.cl?, List.find?_isSome]
    exact ⟨_, h.mem, by simpa using h.ref⟩
  rw [cl_updCl s cl cl g (fun c => congrArg Prod.fst (hg c)) (fun _ => hs), if_pos rfl]

theorem conn_upd {f : Conn → Conn} (hf : ∀ k, (f k).idx = k.idx) (j : Nat) : ((s.updConn i f).conn? j).isSome = (s.conn? j).isSome := by
  unfold Srv.conn? Srv.updConn
  simp only
  generalize s.conns = l
  induction l with
  | nil => rfl
  | cons k l ih =>
    rw [List.map_cons, List.find?_cons, List.find?_cons]
    have : (if k.idx = i then f k else k).idx = k.idx := by split; exact hf k; rfl
    rw [this]
    split
    · rfl
    · exact ih

theorem Home.updConn (h : Home s cl) {f : Conn → Conn} (hf : ∀ k, (f k).idx = k.idx) : Home (s.updConn i f) cl :=
  h.mild (t := s.updConn i f) (Calm.of_eq (s := s) (t := s.updConn i f) rfl rfl rfl).toMild rfl (conn_upd hf) h.here

theorem Home.updConnOf (h : Home s cl) {f : Conn → Conn} (hf : ∀ k, (f k).idx = k.idx) : Home (updConnOf s c f) cl := by
  unfold Ngircd.updConnOf
  split
  · exact h.updConn hf
  · exact h

theorem updConnOf_cl {f : Conn → Conn} (r : Nat) : (updConnOf s c f).cl r = s.cl r := by
  unfold updConnOf
  split <;> rfl
theorem updConnOf_fault {f : Conn → Conn} : (updConnOf s c f).fault = s.fault := by
  unfold updConnOf
  split <;> rfl

theorem fine_closeClient (h : Home s cl) {x : Option Str} : (closeClient s (s.cl cl) x).1.fault = s.fault := by
  obtain ⟨i, h1, h2⟩ := h.conn
  unfold closeClient
  rw [h1]
  exact fault_connClose h2

theorem fine_ircQUIT (h : Home s cl) (ht : (s.cl cl).type ≠ .server) : (ircQUIT s cl req).1.fault = s.fault := by
  simp only [ircQUIT, if_neg ht]
  exact fine_closeClient h

theorem fine_ircERROR (h : Home s cl) : (ircERROR s cl req).1.fault = s.fault := by
  obtain ⟨i, h1, h2⟩ := h.conn
  simp only [ircERROR, h1]
  split
  · rfl
  · exact fault_connClose h2

theorem calm_need (h : Safe s cl) : Calm s (needMoreParams s cl req).1 := Calm.writeErr h.me (.refl _)

theorem fine_ircPASS (h : Home s cl) (hf : s.fault = false) : (ircPASS s cl req).1.fault = false := by
  obtain ⟨i, h1, h2⟩ := h.conn
  simp only [ircPASS]
  refine hfault ?_ (hfault ?_ (hfault ?_ ?_))
  · exact (Calm.writeErr h.me (.refl _)).ok hf
  · simp only
    have key : ∀ v : Srv, ∀ q : Prop, ∀ _ : Decidable q, ∀ g, v.fault = false → (if q then v.updCl cl g else v).fault = false := by
      intro v q _ g hv
      split <;> exact hv
    exact key _ _ _ _ (fault_setType.trans (updConnOf_fault.trans hf))
  · exact (calm_need h.toSafe).ok hf
  · exact (Calm.writeErr h.me (.refl _)).ok hf

theorem fine_ircSERVICE (h : Home s cl) (ht : (s.cl cl).type ≠ .server) (hf : s.fault = false) : (ircSERVICE s cl req).1.fault = false := by
  unfold ircSERVICE
  simp only [if_pos ht]
  split <;> exact (Calm.writeErr h.me (.refl _)).ok hf

theorem setUser_way (conf : Conf) (x : Str) (b : Bool) (c : Client) : (setUserC conf c x b).way = c.way := by
  unfold setUserC
  split
  · rfl
  · split <;> rfl
theorem setInfo_way (conf : Conf) (x : Str) (c : Client) : (setInfoC conf c x).way = c.way := by
  unfold setInfoC
  split <;> rfl
theorem setID_way (conf : Conf) (x : Str) (c : Client) : (setIdC conf c x).way = c.way := by
  simp only [setIdC]; split <;> rfl

theorem fine_ircWEBIRC (h : Home s cl) (hf : s.fault = false) : (ircWEBIRC s cl req).1.fault = false := by
  unfold ircWEBIRC
  split
  · exact (Calm.writeErr h.me (.refl _)).ok hf
  · exact hf

theorem setUser_id (conf : Conf) (x : Str) (b : Bool) (c : Client) : (setUserC conf c x b).id = c.id ∧ (setUserC conf c x b).hash = c.hash := by
  unfold setUserC
  split
  · exact ⟨rfl, rfl⟩
  · split <;> exact ⟨rfl, rfl⟩
theorem setInfo_id (conf : Conf) (x : Str) (c : Client) : (setInfoC conf c x).id = c.id ∧ (setInfoC conf c x).hash = c.hash := by
  unfold setInfoC
  split <;> exact ⟨rfl, rfl⟩

theorem fine_ircUSER (h : Home s cl) (ht : (s.cl cl).type ≠ .server) (ht2 : (s.cl cl).type ≠ .service)
    (hn : (s.cl cl).type = .gotNick → isValidNick s.conf.maxNickLength (s.cl cl).id = true ∧ (s.cl cl).hash = Hash (s.cl cl).id)
    (hf : s.fault = false) : (ircUSER s cl req).1.fault = false := by
  obtain ⟨i, h1, h2⟩ := h.conn
  unfold ircUSER
  simp only [ht, ht2, decide_false, Bool.or_false, if_false, Bool.false_eq_true]
  refine hfault ?_ (hfault ?_ ?_)
  · refine hfault ?_ (hfault ?_ ?_)
    · exact (calm_need h.toSafe).ok hf
    · rw [h1]; exact (fault_connClose h2).trans hf
    · by_cases hg : (s.cl cl).type = .gotNick
      · rw [if_pos hg]
        obtain ⟨n1, n2⟩ := hn hg
        have hh1 := h.upd (setUser_way s.conf (cutAt (req.arg 0) '@') false)
        have e1 := h.upd_cl (setUser_way s.conf (cutAt (req.arg 0) '@') false)
        have hh2 := hh1.upd (setInfo_way s.conf (if (req.arg 3).isEmpty then ['-'] else req.arg 3))
        have e2 := hh1.upd_cl (setInfo_way s.conf (if (req.arg 3).isEmpty then ['-'] else req.arg 3))
        have e3 := e2.trans (congrArg (fun c => setInfoC s.conf c (if (req.arg 3).isEmpty then ['-'] else req.arg 3)) e1)
        refine fine_login (hh2.entrant ?_ ?_) hf
        · rw [e3, (setInfo_id ..).1, (setUser_id ..).1]; exact n1
        · rw [e3, (setInfo_id ..).1, (setUser_id ..).1, (setInfo_id ..).2, (setUser_id ..).2]; exact n2
      · rw [if_neg hg]
        exact fault_setType.trans hf
  · exact (Calm.writeErr h.me (.refl _)).ok hf
  · exact (Calm.writeErr h.me (.refl _)).ok hf

theorem fine_ircCAP (h : Home s cl) 
    (hn : (s.cl cl).type = .waitCapEnd → isValidNick s.conf.maxNickLength (s.cl cl).id = true ∧ (s.cl cl).hash = Hash (s.cl cl).id)
    (hf : s.fault = false) : (ircCAP s cl req).1.fault = false := by
  have key : ∀ {g : Client → Client} {v : Srv} {m : Msg}, (∀ c, (g c).way = c.way) → Home v cl → v.fault = false → (write (v.updCl cl g) ((v.updCl cl g).cl cl) m).fault = false := by
    intro g v m hg hv hf
    exact (Calm.write (hv.upd hg).me (.refl _)).ok hf
  unfold ircCAP
  simp only
  refine hfault ?_ (hfault ?_ (hfault ?_ (hfault ?_ (hfault ?_ (hfault ?_ ?_)))))
  · exact key (fun _ => rfl) h hf
  · unfold capEND
    refine hfault ?_ hf
    have hh := h.upd (g := fun c => { c with caps := { c.caps with pending := false } }) (fun _ => rfl)
    have e := h.upd_cl (g := fun c => { c with caps := { c.caps with pending := false } }) (fun _ => rfl)
    simp only [e]
    refine hfine (fun hw => ?_) (fun _ => hf)
    obtain ⟨n1, n2⟩ := hn hw
    exact fine_login (hh.entrant (by rw [e]; exact n1) (by rw [e]; exact n2)) hf
  · exact key (fun _ => rfl) h hf
  · exact (Calm.write h.me (.refl _)).ok hf
  · unfold capREQ
    simp only
    have hh := h.upd (g := fun c => { c with caps := { c.caps with pending := c.caps.pending || decide (c.type ≠ .user), supported := true } }) (fun _ => rfl)
    split
    · exact key (fun _ => rfl) h hf
    · exact key (fun _ => rfl) hh hf
  · exact hf
  · exact (Calm.writeErr h.me (.refl _)).ok hf

/-- The authentication PING: fine unless the client is then refused. -/
theorem fine_pongAuth (h : Home s cl)
    (hn : (s.cl cl).type = .waitAuthPing → isValidNick s.conf.maxNickLength (s.cl cl).id = true ∧ (s.cl cl).hash = Hash (s.cl cl).id)
    (hw : (s.cl cl).type = .waitAuthPing → (loginUser (updConnOf s (s.cl cl) (fun k => { k with authPing := 0 })) cl).2 = true)
    (hf : s.fault = false) : (pongAuth s cl req).fault = false := by
  unfold pongAuth
  simp only
  refine fault_ite hf (fault_ite (sfine (fun ht => ?_) (fun _ => updConnOf_fault.trans hf)) ?_)
  · have h1 := hw ht
    obtain ⟨n1, n2⟩ := hn ht
    have hh : Home (updConnOf s (s.cl cl) (fun k => { k with authPing := 0 })) cl := h.updConnOf (fun _ => rfl)
    have h2 := fine_login (hh.entrant (by rw [updConnOf_cl, updConnOf_conf]; exact n1) (by rw [updConnOf_cl]; exact n2)) (updConnOf_fault.trans hf)
    split
    · rename_i e; rw [e] at h2; exact h2
    · rename_i e; rw [e] at h1; cases h1
  · exact (Calm.write h.me (.refl _)).ok hf

theorem fine_ircPONG (h : Home s cl) (hty : (s.cl cl).type ≠ .server)
    (hn : (s.cl cl).type = .waitAuthPing → isValidNick s.conf.maxNickLength (s.cl cl).id = true ∧ (s.cl cl).hash = Hash (s.cl cl).id)
    (hw : (s.cl cl).type = .waitAuthPing → (loginUser (updConnOf s (s.cl cl) (fun k => { k with authPing := 0 })) cl).2 = true)
    (hf : s.fault = false) : (ircPONG s cl req).1.fault = false := by
  unfold ircPONG
  simp only [hty, decide_false, Bool.and_false, Bool.false_eq_true, if_false]
  refine hfault (hfault ?_ hf) (hfault ?_ (fine_pongAuth h hn hw hf))
  · exact (Calm.writeErr h.me (.refl _)).ok hf
  · exact (calm_need h.toSafe).ok hf

theorem mild_whowas : Mild s (registerWhowas s c) := by
  obtain ⟨a, b, e⟩ := registerWhowas_eq s c
  rw [e]
  exact ⟨rfl, rfl, id⟩

theorem calm_changeNick (h : Home s cl) {n : Str} {b : Bool} : Mild s (changeNick s cl cl n b) := by
  unfold changeNick
  simp only
  refine Mild.trans ?_ (Mild.upd (setID_way _ n))
  refine Mild.trans ?_ mild_whowas
  have hme := h.me
  refine Calm.toMild ?_
  cases b
  · exact Calm.writeRelatedPrefix (Calm.writeServers (.refl _))
  · exact Calm.writeRelatedPrefix (Calm.writeServers (Calm.writePrefix hme (.refl _)))

theorem fine_ircNICK (h : Home s cl) (ht : (s.cl cl).type ≠ .server)
    (hid : (s.cl cl).type ≠ .unknownServer → (s.cl cl).id = [] ∨ isValidNick s.conf.maxNickLength (s.cl cl).id = true)
    (hf : s.fault = false) : (ircNICK s cl req).1.fault = false := by
  have hme := h.me
  unfold ircNICK
  simp only [if_neg ht]
  refine hfine (fun hty => ?_) (fun _ => (Calm.writeErr hme (.refl _)).ok hf)
  refine hfault ((calm_need h.toSafe).ok hf) (hfault ((Calm.writeErr hme (.refl _)).ok hf) ?_)
  unfold nickTarget
  simp only
  refine hfine (fun _ => hf) (fun hne => ?_)
  have hchk : ∀ r : HRes, r = (if caseEq (s.cl cl).ID (req.arg 0) = true then (s, true) else clientCheckNick s (s.cl cl) (req.arg 0)) →
      (r.2 = true → r.1 = s ∧ isValidNick s.conf.maxNickLength (req.arg 0) = true) ∧ r.1.fault = false := by
    intro r hr
    by_cases hc : caseEq (s.cl cl).ID (req.arg 0) = true
    · rw [if_pos hc] at hr
      subst hr
      refine ⟨fun _ => ⟨rfl, ?_⟩, hf⟩
      have hu : (s.cl cl).type ≠ .unknownServer := by intro e; rw [e] at hty; cases hty
      rcases hid hu with hi | hi
      · exfalso
        rw [Client.ID, if_pos (by simpa using hi)] at hc hne
        exact hne (caseEq_star hc).symm
      · have hnn : (s.cl cl).id ≠ [] := by intro e; rw [e] at hi; cases hi
        rw [Client.ID, if_neg (by simpa using hnn)] at hc
        exact isValidNick_recase hi hc
    · rw [if_neg hc] at hr
      cases hx : clientCheckNick s (s.cl cl) (req.arg 0) with
      | mk v b =>
        rw [hx] at hr
        subst hr
        refine ⟨fun hb => ?_, ?_⟩
        · cases b with
          | false => cases hb
          | true =>
            obtain ⟨g1, g2, -⟩ := clientCheckNick_true hx
            exact ⟨g1, g2⟩
        · have e : v = (clientCheckNick s (s.cl cl) (req.arg 0)).1 := by rw [hx]
          show v.fault = false
          rw [e]
          unfold clientCheckNick
          refine hfault (hfault ?_ ?_) (hfault ?_ (hfault ?_ hf)) <;> exact (Calm.writeErr hme (.refl _)).ok hf
  obtain ⟨k1, k2⟩ := hchk _ rfl
  generalize (if caseEq (s.cl cl).ID (req.arg 0) = true then (s, true) else clientCheckNick s (s.cl cl) (req.arg 0)) = r at k1 k2
  obtain ⟨v, b⟩ := r
  cases b with
  | false => exact k2
  | true =>
    obtain ⟨e, hv⟩ := k1 rfl
    subst e
    simp only
    refine hfault ?_ ?_
    · unfold nickNew
      simp only
      have h1 : Home (clientSetID v cl (req.arg 0)) cl := h.upd (setID_way v.conf (req.arg 0))
      have e1 : (clientSetID v cl (req.arg 0)).cl cl = setIdC v.conf (v.cl cl) (req.arg 0) := h.upd_cl (setID_way v.conf (req.arg 0))
      have tail : ∀ w : Srv, Home w cl → (w.cl cl) = setIdC v.conf (v.cl cl) (req.arg 0) → w.conf = v.conf → w.fault = false →
          (if (w.cl cl).type = .gotUser then loginUser w cl else (clientSetType w cl .gotNick, true)).1.fault = false := by
        intro w hw e2 e3 hf
        refine hfault ?_ (fault_setType.trans hf)
        refine fine_login (hw.entrant ?_ ?_) hf
        · rw [e2, e3, setIdC_id, validNick_cpy h.max hv]; exact hv
        · rw [e2]; simp only [setIdC]; split <;> rfl
      have hc1 : (clientSetID v cl (req.arg 0)).conf = v.conf := rfl
      obtain ⟨w, hw⟩ : ∃ w, w = clientSetID v cl (req.arg 0) := ⟨_, rfl⟩
      have hwf : w.fault = false := by rw [hw]; exact hf
      rw [← hw] at h1 e1 hc1 ⊢
      by_cases ha : w.conf.authPing = true
      · rw [if_pos ha]
        have h2 : Home (updConnOf w (w.cl cl) (fun k => { k with authPing := w.rnd })) cl := h1.updConnOf (fun _ => rfl)
        obtain ⟨i, c1, c2⟩ := h2.conn
        simp only [c1]
        have f2 : (updConnOf w (w.cl cl) (fun k => { k with authPing := w.rnd })).fault = false := updConnOf_fault.trans hwf
        have g2 : (updConnOf w (w.cl cl) (fun k => { k with authPing := w.rnd })).cl cl = w.cl cl := updConnOf_cl _
        have g3 : (updConnOf w (w.cl cl) (fun k => { k with authPing := w.rnd })).conf = w.conf := updConnOf_conf _ _
        obtain ⟨y, hy⟩ : ∃ y, y = updConnOf w (w.cl cl) (fun k => { k with authPing := w.rnd }) := ⟨_, rfl⟩
        rw [← hy] at h2 f2 g2 g3 c1 c2 ⊢
        have h3 : Home (y.emit i none ⟨"PING", [intStr y.rnd]⟩) cl :=
          h2.mild (Calm.emit (.refl _) _ _ _).toMild rfl (fun _ => rfl) h2.here
        exact tail _ h3 (g2.trans e1) (g3.trans hc1) f2
      · rw [if_neg ha]
        exact tail w h1 e1 hc1 hwf
    · unfold nickChange
      simp only
      split
      · exact (Calm.writeErr hme (.refl _)).ok hf
      · exact (calm_changeNick h).ok hf

end Ngircd
