import Verif.Lemmas.CalmMsg
import Verif.Lemmas.HLogin3
import Verif.Lemmas.Strict4

/-!
# Steps that go well: registration and closing connections
-/

set_option linter.unusedSimpArgs false

namespace Ngircd
open Spec

variable {s t u : Srv} {c d f p : Client} {cl i : Nat} {req : Request} {m : Msg}

/-! ## Closing -/

theorem fault_ite {q : Prop} [Decidable q] {a b : Srv} {z : Bool} (ha : a.fault = z) (hb : b.fault = z) : (if q then a else b).fault = z := by
  split <;> assumption

theorem fault_removeQuit {ch : Nat} {x : Str} : (removeClient s .quit ch c d x false).1.fault = s.fault := by
  unfold removeClient
  split
  · rfl
  · simp only [removeMsgs, deleteIfEmpty]
    exact fault_ite rfl rfl

theorem fault_channelQuit {x : Str} : (channelQuit s c x).fault = s.fault := by
  have key : ∀ (l : List Chan) (x : Str) (t : Srv), (l.foldl (fun s k => (removeClient s .quit k.ref c c x false).1) t).fault = t.fault := by
    intro l x
    induction l with
    | nil => intro t; rfl
    | cons a l ih => intro t; exact (ih _).trans fault_removeQuit
  unfold channelQuit
  simp only
  exact (key _ _ _).trans rfl

theorem fault_destroyUser {x : Option Str} {q : Bool} : (destroyUserOrService s c x q).fault = s.fault := by
  unfold destroyUserOrService
  simp only
  obtain ⟨a, b, e⟩ := registerWhowas_eq (channelQuit (if q = true then (if c.conn.isSome = true then writeServers s none c ⟨"QUIT", [x.getD []]⟩
    else writeServers s (some (nextHop s c).ref) c ⟨"QUIT", [x.getD []]⟩) else s) c (x.getD c.id)) c
  rw [e]
  refine fault_channelQuit.trans ?_
  split
  · split <;> rfl
  · rfl

theorem fault_destroySelf {x : Option Str} {q : Bool} : (destroySelf s c x q).fault = s.fault := by
  unfold destroySelf
  simp only
  split
  · exact fault_destroyUser
  · exact fault_destroyUser
  · split <;> rfl
  · rfl

theorem fault_destroyF {n : Nat} : ∀ {s : Srv} {r : Nat} {x : Option Str} {q : Bool}, (destroyF n s r x q).fault = s.fault := by
  induction n with
  | zero => intros; rfl
  | succ n ih =>
    intro s r x q
    unfold destroyF
    split
    · rfl
    · split
      · exact fault_destroySelf
      · exact ih.trans ih

theorem fault_connClose {x : Option Str} {b : Bool} (h : (s.conn? i).isSome = true) : (connClose s i x b).fault = s.fault := by
  unfold connClose
  split
  · rename_i e; rw [e] at h; cases h
  · show (clientDestroy _ _ _ _).fault = s.fault
    rw [clientDestroy, fault_destroyF]
    simp only
    split
    · simp only [closeMsgs]
      split <;> rfl
    · rfl

/-! ## Registration -/

theorem clIn {r : Nat} (hd : d ∈ s.clients) (h : d.ref = r) : s.cl r ∈ s.clients ∧ (s.cl r).ref = r := by
  have h1 : (s.cl? r).isSome = true := by
    rw [Srv.cl?, List.find?_isSome]
    exact ⟨d, hd, by simpa using h⟩
  cases hx : s.cl? r with
  | none => rw [hx] at h1; cases h1
  | some c =>
    have e : s.cl r = c := by rw [Srv.cl, hx]; rfl
    rw [e]
    exact ⟨List.mem_of_find?_eq_some hx, by simpa using List.find?_some hx⟩

theorem mild_setType {r : Nat} {ty : CType} : Mild s (clientSetType s r ty) := by
  unfold clientSetType
  simp only
  obtain ⟨a, b, e⟩ := adjustCounters_eq (s.updCl r (fun c => if ty = .server then { c with type := ty, mytoken := genMyToken s } else { c with type := ty }))
    ((s.updCl r (fun c => if ty = .server then { c with type := ty, mytoken := genMyToken s } else { c with type := ty })).cl r)
  rw [e]
  have h := Mild.upd (s := s) (r := r) (g := fun c => if ty = .server then { c with type := ty, mytoken := genMyToken s } else { c with type := ty })
    (fun c => by split <;> rfl)
  exact ⟨h.this, h.ways, h.ok⟩

theorem fault_setType {r : Nat} {ty : CType} : (clientSetType s r ty).fault = s.fault := by
  unfold clientSetType
  simp only
  obtain ⟨a, b, e⟩ := adjustCounters_eq (s.updCl r (fun c => if ty = .server then { c with type := ty, mytoken := genMyToken s } else { c with type := ty }))
    ((s.updCl r (fun c => if ty = .server then { c with type := ty, mytoken := genMyToken s } else { c with type := ty })).cl r)
  rw [e]
  rfl

/-- The situation of a client that may be going to be registered. -/
structure Entrant (s : Srv) (cl : Nat) : Prop extends Safe s cl where
  mem : s.cl cl ∈ s.clients
  ref : (s.cl cl).ref = cl
  conn : ∃ i, (s.cl cl).conn = some i ∧ (s.conn? i).isSome = true
  nick : isValidNick s.conf.maxNickLength (s.cl cl).id = true
  hash : (s.cl cl).hash = Hash (s.cl cl).id
  max : s.conf.maxNickLength ≤ CLIENT_NICK_LEN
  ne : cl ≠ s.this
  here : (s.cl s.this).type = .server
  loc : ∀ c ∈ s.clients, c.conn.isSome = true → c.ref ≠ s.this

/-- What is needed to find clients by name. -/
def tags (s : Srv) : List (Str × UInt32) := s.clients.map (fun c => (c.id, c.hash))

theorem search_tags (h : tags t = tags s) (n : Str) : (clientSearch t n).isSome = (clientSearch s n).isSome := by
  unfold clientSearch
  simp only
  unfold tags at h
  generalize t.clients = l, s.clients = l' at h
  induction l generalizing l' with
  | nil =>
    cases l' with
    | nil => rfl
    | cons b l' => cases h
  | cons a l ih =>
    cases l' with
    | nil => cases h
    | cons b l' =>
      simp only [List.map_cons, List.cons.injEq, Prod.mk.injEq] at h
      rw [List.find?_cons, List.find?_cons, h.1.1, h.1.2]
      split
      · rfl
      · exact ih _ h.2

theorem tags_setType {r : Nat} {ty : CType} : tags (clientSetType s r ty) = tags s := by
  have h : (clientSetType s r ty).clients = (s.updCl r (fun c =>
    if ty = .server then { c with type := ty, mytoken := genMyToken s } else { c with type := ty })).clients := by
    simp only [clientSetType, adjustCounters_clients]
  rw [tags, h, Srv.updCl, List.map_map, tags]
  refine List.map_congr_left (fun c _ => ?_)
  simp only [Function.comp]
  split
  · split <;> rfl
  · rfl

theorem calm_autojoinLoop {l : List ConfChannel} : ∀ {s : Srv}, Safe s cl → (s.cl cl).type ≠ .server → Calm s (autojoinLoop cl l s) := by
  induction l with
  | nil => intro s _ _; exact .refl _
  | cons ch l ih =>
    intro s hs ht
    have h1 : Calm s (if (ch.autojoin && (channelSearch s ch.name).isSome) = true then
        (ircJOIN s cl ⟨some (s.cl s.this).ID, "JOIN".toList, [ch.name]⟩).1 else s) := by
      split
      · exact calm_ircJOIN hs ht
      · exact .refl _
    exact h1.trans (ih (hs.calm h1.toMild) (by rw [h1.kind]; exact ht))

theorem calm_welcome (hc : Routed s c) : Calm s (welcome s c) := by
  unfold welcome
  simp only [sendISUPPORT]
  exact calm_showMOTD hc (calm_sendLUSERS hc (Calm.write hc (Calm.write hc (Calm.write hc (Calm.write hc (Calm.write hc (Calm.write hc (.refl _))))))))

theorem find_self (hc : c ∈ s.clients) (hg : GoodName c.id) (hh : c.hash = Hash c.id) : (clientSearch s c.id).isSome = true := by
  unfold clientSearch
  simp only
  rw [List.find?_isSome]
  refine ⟨c, hc, ?_⟩
  have e : cutAt (strlcpy CLIENT_ID_LEN c.id) '!' = c.id := by
    have h1 : strlcpy CLIENT_ID_LEN c.id = c.id := by
      rw [strlcpy]; exact List.take_of_length_le (by have := hg.2.2; omega)
    rw [h1]
    exact cutAt_of_not_mem hg.2.1
  rw [e, hh, caseEq_refl']
  simp
theorem fault_reject (hc : ∃ i, c.conn = some i ∧ (s.conn? i).isSome = true) {x : Str} {b : Bool} : (clientReject s c x b).fault = s.fault := by
  obtain ⟨i, h1, h2⟩ := hc
  unfold clientReject
  rw [h1]
  exact fault_connClose h2

theorem fault_bans (he : Entrant s cl) : (handleServerBans s cl).1.fault = s.fault := by
  unfold handleServerBans
  simp only
  split
  · exact fault_reject (s := { s with glines := (listsCheckReason s.glines (masksOf s (s.cl cl))).1 }) he.conn
  · split
    · exact fault_reject (s := { s with glines := (listsCheckReason s.glines (masksOf s (s.cl cl))).1, klines := (listsCheckReason s.klines (masksOf s (s.cl cl))).1 }) he.conn
    · rfl

/-- What is known after `Client_Introduce`. -/
theorem introduced_facts (he : Entrant s cl) (w : Srv) (hw : w = clientIntroduce s none cl .user) :
    Mild s w ∧ tags w = tags s ∧ w.conf = s.conf ∧ (w.cl cl).type = .user ∧ (w.cl cl).id = (s.cl cl).id ∧ (w.cl w.this).type = .server := by
  have h1 : Mild s (clientSetType s cl .user) := mild_setType
  have hcl : w.clients = (clientSetType s cl .user).clients := by rw [hw]; rfl
  have hth : w.this = s.this := by rw [hw]; exact h1.this
  have hs : (s.cl? cl).isSome = true := by
    rw [Srv.cl?, List.find?_isSome]
    exact ⟨_, he.mem, by simpa using he.ref⟩
  have hu : (clientSetType s cl .user).clients = (s.updCl cl (fun c => { c with type := .user })).clients := by
    simp only [clientSetType, adjustCounters_clients]
    rfl
  refine ⟨⟨hth, by rw [hcl]; exact h1.ways, fun e => by rw [hw]; exact h1.ok e⟩, ?_, ?_, ?_, ?_, ?_⟩
  · rw [tags, hcl]; exact tags_setType
  · rw [hw]
    show (clientSetType s cl .user).conf = s.conf
    unfold clientSetType
    simp only
    obtain ⟨a, b, e⟩ := adjustCounters_eq (s.updCl cl (fun c => if CType.user = .server then { c with type := .user, mytoken := genMyToken s } else { c with type := .user }))
      ((s.updCl cl (fun c => if CType.user = .server then { c with type := .user, mytoken := genMyToken s } else { c with type := .user })).cl cl)
    rw [e]; rfl
  · rw [cl_congr hcl]; exact setType_type .user hs
  · rw [cl_congr hcl]; exact (setType_cl cl .user cl).1
  · rw [hth, cl_congr hcl, cl_congr hu, cl_updCl s cl s.this (fun c => { c with type := .user }) (fun _ => rfl) (fun h => absurd h.symm he.ne),
      if_neg (fun h => he.ne h.symm)]
    exact he.here

theorem fine_postAuth (he : Entrant s cl) (hf : s.fault = false) : (loginPostAuth s cl).1.fault = false := by
  have hb := fault_bans he
  unfold loginPostAuth
  split
  · rename_i e; rw [e] at hb; exact hb.trans hf
  · rename_i s0 e
    obtain ⟨e0, -⟩ := handleServerBans_true e
    subst e0
    obtain ⟨w, hw⟩ : ∃ w, w = clientIntroduce s0 none cl .user := ⟨_, rfl⟩
    obtain ⟨g1, g2, g3, g4, g5, g6⟩ := introduced_facts he w hw
    rw [← hw]
    simp only
    have hsw := he.toSafe.calm g1
    have h1 := calm_welcome (s := w) (c := w.cl cl) hsw.me
    have hcore : (welcome w (w.cl cl)).core = w.core := core_welcome _ _
    obtain ⟨v, hv⟩ : ∃ v, v = welcome w (w.cl cl) := ⟨_, rfl⟩
    rw [← hv] at h1 hcore ⊢
    have c1 : v.clients = w.clients := show v.core.clients = w.core.clients by rw [hcore]
    have c2 : v.conf = w.conf := show v.core.conf = w.core.conf by rw [hcore]
    have hsv := hsw.calm h1.toMild
    have key : Calm v (if v.conf.defaultUserModes.isEmpty = true then v
        else (ircMODE v cl ⟨some (v.cl v.this).ID, "MODE".toList, [(v.cl cl).ID, strlcpy 22 ('+' :: v.conf.defaultUserModes)]⟩).1) := by
      split
      · exact .refl _
      · have hid : (v.cl cl).id = (s0.cl cl).id := by rw [cl_congr c1]; exact g5
        have hg := isValidNick_good he.max he.nick
        have hID : (v.cl cl).ID = (s0.cl cl).id := by
          rw [Client.ID, hid, if_neg (by simpa using hg.1)]
        have hvn : isValidNick v.conf.maxNickLength (s0.cl cl).id = true := by rw [c2, g3]; exact he.nick
        have hfind : (clientSearch v (s0.cl cl).id).isSome = true := by
          rw [search_tags (show tags v = tags s0 by rw [tags, c1]; exact g2)]
          exact find_self he.mem hg he.hash
        have hty : (v.cl cl).type ≠ .server := by rw [h1.kind, g4]; intro h; cases h
        unfold ircMODE
        rw [getSender, if_neg hty]
        simp only [Request.arg, List.getD_cons_zero, hID, hvn, if_true]
        cases hd : clientSearch v (s0.cl cl).id with
        | none => rw [hd] at hfind; cases hfind
        | some d =>
          simp only
          have hmd : d ∈ v.clients := List.mem_of_find?_eq_some hd
          obtain ⟨m1, m2⟩ := clIn (s := v) hmd rfl
          refine calm_clientMode hsv ?_ (fun hc => ?_) (fun x hx => absurd hx (by simp))
          · unfold modeCl
            split
            · split
              · exact .inr (by rw [h1.this, h1.kind]; exact g6)
              · exact .inl rfl
            · exact .inl rfl
          · refine hsv.all _ m1 ?_
            obtain ⟨z, hz, ez⟩ := (g1.trans h1.toMild).mem m1
            rw [h1.this, g1.this, show (v.cl d.ref).ref = z.ref from congrArg Prod.fst ez]
            exact he.loc z hz (by rw [← show (v.cl d.ref).conn = z.conn from congrArg (fun x => x.2.1) ez]; exact hc)
    have h3 := fun l => calm_autojoinLoop (l := l) (hsv.calm key.toMild) (by rw [key.kind, h1.kind, g4]; intro h; cases h)
    exact (h3 _).ok (key.ok (h1.ok (g1.ok hf)))

theorem fine_login (he : Entrant s cl) (hf : s.fault = false) : (loginUser s cl).1.fault = false := by
  unfold loginUser
  simp only
  split
  · exact fault_setType.trans hf
  · split
    · exact fault_setType.trans hf
    · split
      · exact (fault_reject he.conn).trans hf
      · exact fine_postAuth he hf

end Ngircd
