import Verif.Spec.Introduce
import Verif.Lemmas.JoinTold
import Verif.Props.Webirc

/-!
# Introducing users and services to the other servers
-/

set_option linter.unusedSimpArgs false

namespace Ngircd
open Spec

variable {s t u v : Srv} {i j r cl : Nat} {c d : Client}

theorem rfc_oldStyle (hb : Base v) (j : Nat) : isRfc1459 v j = oldStyle v j := by
  simp only [isRfc1459, oldStyle, Srv.conn?]
  cases hq : v.conns.find? (fun k => k.idx == j) with
  | none =>
    symm
    rw [List.any_eq_false]
    intro k hk
    have := List.find?_eq_none.1 hq k hk
    simp only [Bool.and_eq_true, not_and]
    intro h; exact absurd h this
  | some k =>
    have h1 := List.mem_of_find?_eq_some hq
    have h2 : k.idx = j := by simpa using List.find?_some hq
    simp only
    cases hk : k.rfc1459 with
    | true =>
      symm
      rw [List.any_eq_true]
      exact ⟨k, h1, by simp [h2, hk]⟩
    | false =>
      symm
      rw [List.any_eq_false]
      intro k' hk'
      simp only [Bool.and_eq_true, beq_iff_eq, not_and]
      intro he
      rw [conn_eq_of_idx hb hk' h1 (he.trans h2.symm), hk]
      decide

/-- The model's lines are those of the specification. -/
theorem announceMsgs_eq (hb : Base t) (hd : d ∈ t.clients) (hty : d.type = .server) (hj : d.conn = some j) (p w : Client) :
    announceMsgs t d p w = introLines t j d p w := by
  have e1 : d.hasFlag 'S' = decide ('S' ∈ d.flags) := by
    simp [Client.hasFlag, hasChar]
  have e2 : d.hasFlag 'M' = decide ('M' ∈ d.flags) := by
    simp [Client.hasFlag, hasChar]
  simp only [announceMsgs, hj, introLines]
  rw [rfc_oldStyle hb, hb.nextHop_conn hd (by rw [hj]; rfl), e1, e2]
  simp only [getPrefix, hty, if_true, List.isEmpty_iff, Bool.and_eq_true, decide_eq_true_eq]
  rfl

theorem introLines_conn {p w : Client} : ∀ y ∈ introLines t j d p w, y.conn = j := by
  intro y hy
  simp only [introLines, List.mem_append] at hy
  rcases hy with hy | hy
  · split at hy
    · simp only [List.cons_append, List.nil_append, List.mem_cons] at hy
      rcases hy with rfl | rfl | hy
      · rfl
      · rfl
      · split at hy
        · cases hy
        · rw [List.mem_singleton] at hy; rw [hy]
    · split at hy <;> rw [List.mem_singleton] at hy <;> rw [hy]
  · split at hy
    · rw [List.mem_append] at hy
      rcases hy with hy | hy <;> split at hy
      · rw [List.mem_singleton] at hy; rw [hy]
      · cases hy
      · rw [List.mem_singleton] at hy; rw [hy]
      · cases hy
    · cases hy

theorem intro_out (hb : Base t) (ex : Option Nat) (p w : Client) :
    (∀ j d, d ∈ t.clients → d.type = .server → d.conn = some j → some d.ref ≠ ex →
      (onConn ((peerServers t ex none).flatMap (fun to => announceMsgs t to p w)).reverse j).reverse = introLines t j d p w) ∧
    (∀ y ∈ ((peerServers t ex none).flatMap (fun to => announceMsgs t to p w)).reverse, ∃ d ∈ t.clients, d.type = .server ∧ d.conn = some y.conn ∧ some d.ref ≠ ex) := by
  obtain ⟨h1, h2⟩ := servers_lines hb ex (fun to => announceMsgs t to p w) (fun d hd hty j hj y hy => by
    rw [announceMsgs_eq hb hd hty hj] at hy
    exact introLines_conn y hy)
  refine ⟨fun j d hd hty hj hex => ?_, h2⟩
  rw [h1 j d hd hty hj hex, List.reverse_reverse, announceMsgs_eq hb hd hty hj]

theorem introduced (hb : Base t) (hcl : c ∈ t.clients) (hci : c.conn = some i) (p w : Client) :
    Introduced t i p w ((peerServers t (some c.ref) none).flatMap (fun to => announceMsgs t to p w)).reverse := by
  obtain ⟨h1, h2⟩ := intro_out hb (some c.ref) p w
  have hl := link_except hb hcl hci
  refine ⟨fun j d hd hty hj hji => h1 j d hd hty hj ((hl j d hd hty hj).2 hji), fun y hy => ?_⟩
  obtain ⟨d, hd, hty, hj, hex⟩ := h2 y hy
  exact ⟨(hl _ d hd hty hj).1 hex, by rw [isLink_iff hb hd hj]; simpa using hty⟩

theorem updCl_head {f : Client → Client} (hb : Base s) (hc : c.ref = s.nextRef) (m n : Nat) :
    ({ s with clients := c :: s.clients, nextRef := s.nextRef + 1, maxUsers := m, myMaxUsers := n } : Srv).updCl s.nextRef f =
      { s with clients := f c :: s.clients, nextRef := s.nextRef + 1, maxUsers := m, myMaxUsers := n } := by
  simp only [Srv.updCl, List.map_cons, hc, if_true]
  have : s.clients.map (fun d => if d.ref = s.nextRef then f d else d) = s.clients := by
    conv => rhs; rw [← List.map_id s.clients]
    refine List.map_congr_left (fun d hd => ?_)
    have := hb.cl.lt d hd
    rw [if_neg (by omega)]
    rfl
  rw [this]

theorem confGetServer_iff (s : Srv) (i : Nat) (n : Str) :
    ((match confGetServer s i with | none => false | some slot => nickIsService s slot n) = true) ↔ IsServiceOf s i n := by
  cases h : confGetServer s i with
  | none =>
    simp only [Bool.false_eq_true, false_iff]
    rintro ⟨slot, cs, h1, h2, -, -⟩
    rw [confGetServer, List.find?_eq_none] at h
    have hlt := (List.getElem?_eq_some_iff.1 h1).1
    exact h slot (List.mem_range.2 hlt) (by simpa using h2)
  | some slot =>
    simp only
    have hm := List.find?_some h
    rw [confGetServer, List.find?_range_eq_some] at h
    simp only [nickIsService]
    constructor
    · intro hx
      split at hx
      · rename_i cs hcs
        exact ⟨slot, cs, hcs, by simpa using hm, fun k hk => by simpa using h.2.2 k hk, hx⟩
      · cases hx
    · rintro ⟨slot', cs, h1, h2, h3, h4⟩
      have : slot' = slot := by
        rcases Nat.lt_trichotomy slot' slot with g | g | g
        · exact absurd h2 (by simpa using h.2.2 slot' g)
        · exact g
        · exact absurd (by simpa using hm) (h3 slot g)
      subst this
      rw [h1]; exact h4

theorem newClientC_newcomer (s : Srv) (home : Client) (nick user host modes info : Str) (hops tok : Int) :
    newClientC s none home.ref none .user (some nick) (some user) (some host) (some info) hops tok (some modes) true =
      newcomer s .user home nick hops user host tok modes info := by
  cases hk : s.conf.cloakUserToNick <;>
    simp only [newClientC, withOpt, setHostC_known, setIdC, setUserC, setInfoC, newcomer, hk, Bool.false_eq_true, if_true, if_false,
      show (CType.user = CType.server) = False from eq_false (by decide), strlcpy, CLIENT_ID_LEN, CLIENT_USER_LEN, CLIENT_INFO_LEN, CLIENT_MODE_LEN, Client.hasMode, hasChar, List.take_take] <;>
    (by_cases h : 'a' ∈ modes.take 20
     · rw [if_pos (by simpa using h), if_pos h]
     · rw [if_neg (by simpa using h), if_neg h])

theorem newcomer_cl (hc : c.ref = s.nextRef) (n : Nat) : (withNewcomer s c n).cl s.nextRef = c := by
  simp only [Srv.cl, Srv.cl?, withNewcomer]
  rw [List.find?_cons_of_pos (by simp [hc])]
  rfl

theorem newcomer_old (hc : c.ref = s.nextRef) (n : Nat) (hr : r ≠ s.nextRef) : (withNewcomer s c n).cl r = s.cl r := by
  simp only [Srv.cl, Srv.cl?, withNewcomer]
  rw [List.find?_cons_of_neg (by simp [hc]; exact fun h => hr h.symm)]

theorem adjust_new (hcn : c.conn = none) (n : Nat) : ∃ m, adjustCounters (withNewcomer s c n) c = withNewcomer s c m := by
  simp only [adjustCounters]
  split
  · exact ⟨n, rfl⟩
  · rw [hcn]
    exact ⟨_, rfl⟩

theorem initNew_newcomer (hcn : c.conn = none) : ∃ m, initNewClient s c = withNewcomer s c m :=
  adjust_new (s := s) hcn s.maxUsers

theorem setType_new (hb : Base s) (hc : c.ref = s.nextRef) (hcn : c.conn = none) (n : Nat) {ty : CType} (hty : ty ≠ .server) :
    ∃ m, clientSetType (withNewcomer s c n) s.nextRef ty = withNewcomer s { c with type := ty } m := by
  have h1 : (withNewcomer s c n).updCl s.nextRef (fun c => if ty = .server then { c with type := ty, mytoken := genMyToken (withNewcomer s c n) } else { c with type := ty }) =
      withNewcomer s { c with type := ty } n := by
    refine (updCl_head (s := s) (c := c) hb hc n s.myMaxUsers).trans ?_
    simp only [if_neg hty]
    rfl
  have h2 : (withNewcomer s { c with type := ty } n).cl s.nextRef = { c with type := ty }  := newcomer_cl (c := { c with type := ty }) hc n
  simp only [clientSetType, if_neg hty] at h1 ⊢
  rw [h1, h2]
  exact adjust_new (c := { c with type := ty }) hcn n

theorem introduce_new (hb : Base s) (hc : c.ref = s.nextRef) (hcn : c.conn = none) {f : Nat} (hf : s.cl f ∈ s.clients)
    (hfr : (s.cl f).ref = f) (hfi : (s.cl f).conn = some i) {ty : CType} (hty : ty ≠ .server) :
    ∃ n ty', (IsServiceOf s i c.ID → ty' = .service) ∧ (¬ IsServiceOf s i c.ID → ty' = ty) ∧
      clientIntroduce (initNewClient s c) (some f) s.nextRef ty =
        (withNewcomer s { c with type := ty' } n).emits ((peerServers (withNewcomer s { c with type := ty' } n) (some f) none).flatMap
          (fun to => announceMsgs (withNewcomer s { c with type := ty' } n) to (s.cl f) { c with type := ty' })) := by
  have hne : f ≠ s.nextRef := by
    have := hb.cl.lt _ hf
    rw [hfr] at this; omega
  obtain ⟨m, hm⟩ := initNew_newcomer (s := s) hcn
  obtain ⟨m1, hm1⟩ := setType_new (s := s) hb hc hcn m hty
  have e1 : (withNewcomer s { c with type := ty } m1).cl s.nextRef = { c with type := ty } := newcomer_cl (c := { c with type := ty }) hc m1
  have e2 : (withNewcomer s { c with type := ty } m1).cl f = s.cl f := newcomer_old (c := { c with type := ty }) hc m1 hne
  have e3 : introducedAsService (withNewcomer s { c with type := ty } m1) (s.cl f) { c with type := ty } = true ↔ IsServiceOf s i c.ID := by
    simp only [introducedAsService, hfi]
    exact confGetServer_iff s i c.ID
  by_cases hsv : IsServiceOf s i c.ID
  · obtain ⟨m2, hm2⟩ := setType_new (s := s) (c := { c with type := ty }) hb hc hcn m1 (ty := .service) (by decide)
    have e4 : (withNewcomer s { c with type := .service } m2).cl s.nextRef = { c with type := .service } := newcomer_cl (c := { c with type := .service }) hc m2
    have e5 : (withNewcomer s { c with type := .service } m2).cl f = s.cl f := newcomer_old (c := { c with type := .service }) hc m2 hne
    refine ⟨m2, .service, fun _ => rfl, fun h => absurd hsv h, ?_⟩
    simp only [clientIntroduce, hm, hm1, e1, e2]
    rw [if_pos (e3.2 hsv), hm2]
    simp only [e4, e5]
  · refine ⟨m1, ty, fun h => absurd h hsv, fun _ => rfl, ?_⟩
    simp only [clientIntroduce, hm, hm1, e1, e2]
    rw [if_neg (fun h => hsv (e3.1 h))]
    simp only [e1, e2]

end Ngircd
