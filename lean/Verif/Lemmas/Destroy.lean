import Verif.Lemmas.BaseAct
import Verif.Spec.Server

/-!
# Removing a client with everything behind it

`destroyF` has enough fuel, removes the children of the client one by one and the client
last; `connClose` does the same and removes the connection.
-/

set_option linter.unusedSimpArgs false

namespace Ngircd

/-! ## Connections play no role -/

/-- The core without the connections. -/
def Srv.noConn (s : Srv) : Srv := { s.core with conns := [], srvConn := [], numConns := 0 }

theorem noConn_of_core {s t : Srv} (h : s.core = t.core) : s.noConn = t.noConn := by
  show ({ s.core with conns := [], srvConn := [], numConns := 0 } : Srv) = _
  rw [h]; rfl

theorem core_of_noConn {s t : Srv} (h : s.noConn = t.noConn) (h1 : s.conns = t.conns)
    (h2 : s.srvConn = t.srvConn) (h3 : s.numConns = t.numConns) : s.core = t.core := by
  have hs : s.core = { s.noConn with conns := s.conns, srvConn := s.srvConn, numConns := s.numConns } := rfl
  have ht : t.core = { t.noConn with conns := t.conns, srvConn := t.srvConn, numConns := t.numConns } := rfl
  rw [hs, ht, h, h1, h2, h3]

theorem noConn_clients {s t : Srv} (h : s.noConn = t.noConn) : s.clients = t.clients :=
  (congrArg Srv.clients h : s.noConn.clients = t.noConn.clients)
theorem noConn_chans {s t : Srv} (h : s.noConn = t.noConn) : s.chans = t.chans :=
  (congrArg Srv.chans h : s.noConn.chans = t.noConn.chans)

theorem deleteIfEmpty_noConn (s : Srv) (ch : Nat) :
    (deleteIfEmpty s ch).noConn = deleteIfEmpty s.noConn ch := by
  have h : ∀ s : Srv, deleteIfEmpty s ch =
    { s with chans := if !(s.chan ch).hasMode 'P' && (membersOf s ch).isEmpty then
      s.chans.filter (fun c => c.ref != ch) else s.chans } := by
    intro s; simp only [deleteIfEmpty]; split <;> rfl
  rw [h, h]
  rfl

theorem dropMember_noConn (s : Srv) (ch r : Nat) :
    (dropMember s ch r).noConn = dropMember s.noConn ch r := by
  have hm : isMemberOf s.noConn ch r = isMemberOf s ch r := rfl
  simp only [dropMember, hm]
  split
  · exact deleteIfEmpty_noConn _ _
  · rfl

theorem quitAll_noConn (s : Srv) (r : Nat) (l : List Chan) :
    (quitAll s r l).noConn = quitAll s.noConn r l := by
  induction l generalizing s with
  | nil => rfl
  | cons c l ih =>
    show (quitAll (dropMember s c.ref r) r l).noConn = quitAll (dropMember s.noConn c.ref r) r l
    rw [ih, dropMember_noConn]

theorem registerWhowas_noConn (s : Srv) (c : Client) :
    (registerWhowas s c).noConn = registerWhowas s.noConn c := by
  have h1 : s.noConn.conf = s.conf := rfl
  have h2 : s.noConn.now = s.now := rfl
  simp only [registerWhowas, h1, h2]
  split
  · rfl
  · split <;> rfl

theorem destroySelf_noConn {s t : Srv} (h : s.noConn = t.noConn) (c : Client) (f f' : Option Str)
    (q q' : Bool) : (destroySelf s c f q).noConn = (destroySelf t c f' q').noConn := by
  rw [noConn_of_core (destroySelf_core s c f q), noConn_of_core (destroySelf_core t c f' q')]
  have hd : (dropCl s c.ref).noConn = (dropCl t c.ref).noConn := by
    show dropCl s.noConn c.ref = dropCl t.noConn c.ref
    rw [h]
  split
  · rw [registerWhowas_noConn, registerWhowas_noConn, quitAll_noConn, quitAll_noConn, hd, noConn_chans h]
  · exact hd

theorem destroyHit_congr {s t : Srv} (h : s.clients = t.clients) (r : Nat) :
    destroyHit s r = destroyHit t r := by
  funext c
  have hcl : s.cl r = t.cl r := by simp only [Srv.cl, Srv.cl?, h]
  simp only [destroyHit]
  rw [hcl]

theorem destroyF_noConn (n : Nat) {s t : Srv} (h : s.noConn = t.noConn) (r : Nat) (f f' : Option Str)
    (q q' : Bool) : (destroyF n s r f q).noConn = (destroyF n t r f' q').noConn := by
  induction n generalizing s t r f f' q q' with
  | zero => exact h
  | succ n ih =>
    simp only [destroyF]
    rw [destroyHit_congr (noConn_clients h), noConn_clients h]
    cases t.clients.find? (destroyHit t r) with
    | none => exact h
    | some c =>
      simp only
      split
      · exact destroySelf_noConn h c _ _ _ _
      · exact ih (ih h _ _ _ _ _) _ _ _ _ _

theorem destroyF_conns (n : Nat) (s : Srv) (r : Nat) (f : Option Str) (q : Bool) :
    (destroyF n s r f q).conns = s.conns ∧ (destroyF n s r f q).srvConn = s.srvConn ∧
    (destroyF n s r f q).numConns = s.numConns ∧ (destroyF n s r f q).this = s.this := by
  induction n generalizing s r f q with
  | zero => exact ⟨rfl, rfl, rfl, rfl⟩
  | succ n ih =>
    simp only [destroyF]
    cases s.clients.find? (destroyHit s r) with
    | none => exact ⟨rfl, rfl, rfl, rfl⟩
    | some c =>
      simp only
      split
      · obtain ⟨-, h2, h3, h4, h5, -⟩ := destroySelf_fields s c f q
        exact ⟨h2, h3, h4, h5⟩
      · obtain ⟨a1, a2, a3, a4⟩ := ih (destroyF n s c.ref (some ((s.cl s.this).id ++ ' ' :: (s.cl r).id)) false) r f q
        obtain ⟨b1, b2, b3, b4⟩ := ih s c.ref (some ((s.cl s.this).id ++ ' ' :: (s.cl r).id)) false
        exact ⟨a1.trans b1, a2.trans b2, a3.trans b3, a4.trans b4⟩

/-! ## Children first -/

/-- The clients created not before `r`. -/
def clientsFrom (s : Srv) (r : Nat) : Nat := (s.clients.filter (fun c => decide (r ≤ c.ref))).length

theorem clientsFrom_le (s : Srv) (r : Nat) : clientsFrom s r ≤ s.clients.length :=
  List.length_filter_le _ _

theorem filter_length_lt {α : Type} (l : List α) (p q : α → Bool) (h : ∀ a ∈ l, q a = true → p a = true)
    {c : α} (hc : c ∈ l) (hp : p c = true) (hq : q c = false) :
    (l.filter q).length < (l.filter p).length := by
  induction l with
  | nil => cases hc
  | cons x l ih =>
    have hl : (l.filter q).length ≤ (l.filter p).length := by
      have : ∀ l : List α, (∀ a ∈ l, q a = true → p a = true) →
          (l.filter q).length ≤ (l.filter p).length := by
        intro l
        induction l with
        | nil => intro _; exact Nat.le_refl _
        | cons y l ih =>
          intro h
          have h1 := ih (fun a ha => h a (List.mem_cons_of_mem _ ha))
          have h2 := h y List.mem_cons_self
          simp only [List.filter_cons]
          cases hq : q y
          · simp only [Bool.false_eq_true, if_false]
            split <;> simp <;> omega
          · simp only [h2 hq, if_true, List.length_cons]; omega
      exact this l (fun a ha => h a (List.mem_cons_of_mem _ ha))
    rcases List.mem_cons.1 hc with rfl | hc'
    · simp only [List.filter_cons, hp, hq, if_true, List.length_cons, Bool.false_eq_true, if_false]
      omega
    · have h1 := ih (fun a ha => h a (List.mem_cons_of_mem _ ha)) hc'
      have h2 := h x List.mem_cons_self
      simp only [List.filter_cons]
      cases hq : q x
      · simp only [Bool.false_eq_true, if_false]
        split <;> simp <;> omega
      · simp only [h2 hq, if_true, List.length_cons]; omega

/-- A step that destroys a child (a client without connection) of `r`. -/
def ChildStep (x : Ctx) (r : Nat) (t : Srv) (a : Act) : Prop :=
  Okay x t a ∧ ∃ d, a = .destroy d ∧ d.conn = none ∧ r < d.ref ∧ Spec.Under t r d

theorem dropConn_none (s : Srv) (c : Client) (h : c.conn = none) : dropConn s c = s := by
  simp only [dropConn, h, Option.isSome_none, Bool.false_eq_true, if_false]
  have h1 : s.conns.filter (fun k => some k.idx != none) = s.conns :=
    List.filter_eq_self.2 (fun a _ => by simp)
  have h2 : s.srvConn.filter (fun k => some k.2 != none) = s.srvConn :=
    List.filter_eq_self.2 (fun a _ => by simp)
  rw [h1, h2]

theorem destroy_run_clients (s : Srv) (c : Client) :
    ((Act.destroy c).run s).clients = s.clients.filter (fun x => x.ref != c.ref) :=
  (destroySelf_fields s c none false).1

/-- Steps that only destroy children of `r` keep `r` and what is older. -/
theorem child_keep {x : Ctx} {r : Nat} {s t : Srv} (h : Steps (ChildStep x r) s t) :
    t.clients.Sublist s.clients ∧ (∀ c ∈ s.clients, c.ref ≤ r → c ∈ t.clients) ∧ t.this = s.this ∧
    t.conns = s.conns := by
  induction h with
  | refl hc => rw [core_clients hc, core_this hc, core_conns hc]; exact ⟨List.Sublist.refl _, fun _ h _ => h, rfl, rfl⟩
  | tail a _ hp hr ih =>
    obtain ⟨-, d, rfl, hd, hlt, -⟩ := hp
    obtain ⟨g1, g2, g3, g4, g5, g6⟩ := destroySelf_fields _ d none false
    rw [core_clients hr, core_this hr, core_conns hr, destroy_run_clients]
    refine ⟨List.filter_sublist.trans ih.1, ?_, ?_, ?_⟩
    · intro c hc hcr
      refine List.mem_filter.2 ⟨ih.2.1 c hc hcr, ?_⟩
      simp only [bne_iff_ne, ne_eq]; omega
    · simp only [Act.run, dropConn]
      exact g5.trans ih.2.2.1
    · show (dropConn _ d).conns = _
      rw [dropConn_none _ _ hd]
      exact g2.trans ih.2.2.2

theorem Spec.Under.mono {s t : Srv} (h : ∀ c ∈ t.clients, c ∈ s.clients) {r : Nat} {c : Client}
    (hu : Spec.Under t r c) : Spec.Under s r c := by
  induction hu with
  | self hc hr => exact .self (h _ hc) hr
  | child hc _ hs hi hn ih => exact .child (h _ hc) ih hs hi hn

theorem Spec.Under.mem {s : Srv} {r : Nat} {c : Client} (hu : Spec.Under s r c) : c ∈ s.clients := by
  cases hu <;> assumption

theorem Spec.Under.trans {s : Srv} (hi : Desc s.clients) {r : Nat} {c d : Client} (hu : Spec.Under s r c)
    (hv : Spec.Under s c.ref d) : Spec.Under s r d := by
  induction hv with
  | self hc hr =>
    have := hi.eq_of_ref hc hu.mem hr
    rw [this]; exact hu
  | child hc _ hs hi hn ih => exact .child hc ih hs hi hn

theorem child_mono {x : Ctx} {r : Nat} {c d : Client} {s t : Srv} (hi : Desc s.clients)
    (hc : c ∈ s.clients) (hcr : c.ref = r) (hsv : c.type = .server)
    (hd : d ∈ s.clients) (hdi : d.introducer = r) (hlt : r < d.ref) (h : Steps (ChildStep x d.ref) s t) :
    Steps (ChildStep x r) s t := by
  induction h with
  | refl hc => exact .refl hc
  | @tail t0 t' a h0 hp hr ih =>
    refine .tail a ih ?_ hr
    obtain ⟨h1, e, h2, h3, h4, h5⟩ := hp
    refine ⟨h1, e, h2, h3, by omega, ?_⟩
    have hk := child_keep h0
    refine Spec.Under.trans (List.Pairwise.sublist hk.1 hi) ?_ h5
    exact .child (hk.2.1 d hd (Nat.le_refl _)) (.self (hk.2.1 c hc (by omega)) hcr) hsv
      (by rw [hdi, hcr]) (by omega)

theorem find_hit {s : Srv} {r : Nat} {c : Client} (hc : c ∈ s.clients) (hr : c.ref = r) :
    ∃ d, s.clients.find? (destroyHit s r) = some d := by
  cases h : s.clients.find? (destroyHit s r) with
  | some d => exact ⟨d, rfl⟩
  | none =>
    have := List.find?_eq_none.1 h c hc
    simp [destroyHit, hr] at this

/-- `destroyF` removes children first, then the client. -/
theorem destroyF_steps (x : Ctx) (hid : x.idle) (n : Nat) {s : Srv} (hb : Base s) (r : Nat) (fwd : Option Str) (q : Bool)
    {c : Client} (hc : c ∈ s.clients) (hcr : c.ref = r) (hne : r ≠ s.this) (hn : clientsFrom s r ≤ n) :
    ∃ u, Steps (ChildStep x r) s u ∧ c ∈ u.clients ∧ u.clients.find? (destroyHit u r) = some c ∧
      (destroyF n s r fwd q).core = (destroySelf u c fwd q).core := by
  induction n generalizing s r fwd q c with
  | zero =>
    exfalso
    have : c ∈ s.clients.filter (fun c => decide (r ≤ c.ref)) :=
      List.mem_filter.2 ⟨hc, by simp [hcr]⟩
    have := List.length_pos_of_mem this
    simp only [clientsFrom] at hn
    omega
  | succ n ih =>
    obtain ⟨d, hd⟩ := find_hit hc hcr
    have hdm := List.mem_of_find?_eq_some hd
    have hdh := List.find?_some hd
    simp only [destroyF, hd]
    by_cases hdr : d.ref = r
    · have hdc : d = c := hb.cl.ord.eq_of_ref hdm hc (hdr.trans hcr.symm)
      subst hdc
      simp only [hdr, if_true]
      exact ⟨s, Steps.rfl', hc, hd, rfl⟩
    · simp only [hdr, if_false]
      have hint : d.introducer = r ∧ d.ref ≠ r ∧ c.type = .server := by
        simp only [destroyHit, Bool.or_eq_true, Bool.and_eq_true, beq_iff_eq, bne_iff_ne, ne_eq,
          decide_eq_true_eq] at hdh
        rcases hdh with h | h
        · refine ⟨h.1.2, hdr, ?_⟩
          rw [← cl_of_mem' hb.cl.ord hc hcr]; exact h.1.1
        · exact absurd h hdr
      have hlt : r < d.ref := by
        have := hb.cl.intro d hdm
        omega
      have hdconn : d.conn = none := by
        cases h : d.conn with
        | none => rfl
        | some i =>
          have := hb.cl.loc d hdm (by simp [h])
          omega
      have hdthis : d.ref ≠ s.this := by
        intro h
        obtain ⟨e, he, h1, h2, h3, h4⟩ := hb.cl.self
        have : d = e := hb.cl.ord.eq_of_ref hdm he (h.trans h1.symm)
        subst this
        omega
      have hBd : clientsFrom s d.ref ≤ n := by
        have : clientsFrom s d.ref < clientsFrom s r := by
          refine filter_length_lt _ _ _ ?_ hc ?_ ?_
          · intro a _ h; simp only [decide_eq_true_eq] at h ⊢; omega
          · simp [hcr]
          · simp only [decide_eq_false_iff_not]; omega
        omega
      obtain ⟨u', hs', hcu', hfu', hcore'⟩ :=
        ih hb d.ref (some ((s.cl s.this).id ++ ' ' :: (s.cl r).id)) false hdm rfl hdthis hBd
      have hk' := child_keep hs'
      generalize destroyF n s d.ref (some ((s.cl s.this).id ++ ' ' :: (s.cl r).id)) false = s' at hcore'
      have hone : Steps (ChildStep x r) s s' := by
        refine .tail (.destroy d) (child_mono hb.cl.ord hc hcr hint.2.2 hdm hint.1 hlt hs')
          ⟨⟨?_, hfu', .inr (.inl hid)⟩, d, rfl, hdconn, hlt, ?_⟩ ?_
        · rw [hk'.2.2.1]; exact hdthis
        · exact .child hcu' (.self (hk'.2.1 c hc (by omega)) hcr) hint.2.2 (by rw [hint.1, hcr]) (by omega)
        · rw [hcore']
          show _ = (dropConn (destroySelf u' d none false) d).core
          rw [dropConn_none _ _ hdconn, destroySelf_core, destroySelf_core]
      have hbase' : Base s' := (hone.mono (fun _ _ h => h.1)).base hb
      have hk := child_keep hone
      have hcs' : c ∈ s'.clients := hk.2.1 c hc (by omega)
      have hB : clientsFrom s' r ≤ n := by
        have hcl : s'.clients = u'.clients.filter (fun x => x.ref != d.ref) := by
          rw [core_clients hcore']; exact (destroySelf_fields u' d _ false).1
        have h1 : clientsFrom s' r < clientsFrom u' r := by
          simp only [clientsFrom, hcl, List.filter_filter]
          refine filter_length_lt _ _ _ ?_ hcu' ?_ ?_
          · intro a _ h; simp only [Bool.and_eq_true] at h; exact h.1
          · simp only [decide_eq_true_eq]; omega
          · simp
        have h2 : clientsFrom u' r ≤ clientsFrom s r :=
          (hk'.1.filter _).length_le
        omega
      obtain ⟨u, hs2, hcu, hfu, hcore⟩ := ih hbase' r fwd q hcs' hcr (by rw [hk.2.2.1]; exact hne) hB
      exact ⟨u, hone.trans hs2, hcu, hfu, hcore⟩

theorem Ctx.mayAll.may {x : Ctx} {r : Nat} {t : Srv} {d : Client} (h : x.mayAll r) (hu : Spec.Under t r d) : x.may t d := by
  rcases h with h | h | h | h
  · exact .inl h
  · exact .inr (.inl h)
  · exact .inr (.inr (.inl h))
  · exact .inr (.inr (.inr (h ▸ hu)))

theorem self_may {x : Ctx} {cl : Nat} (h : x.cl = cl) : x.mayAll cl := .inr (.inr (.inr h.symm))

theorem any_may {x : Ctx} (h : x.peer ∨ x.oper) (r : Nat) : x.mayAll r := h.elim .inl (fun h => .inr (.inr (.inl h)))

theorem child_may {x : Ctx} {r : Nat} {t : Srv} {a : Act} (hm : x.mayAll r) (h : ChildStep { x with idle := True } r t a) :
    ChildStep x r t a := by
  obtain ⟨h1, d, rfl, h3, h4, h5⟩ := h
  exact ⟨⟨h1.1, h1.2.1, hm.may h5⟩, d, rfl, h3, h4, h5⟩

/-- Does a client exist? -/
def Exists' (s : Srv) (r : Nat) : Prop := ∃ c ∈ s.clients, c.ref = r

/-- `Client_Destroy` of a client without connection. -/
theorem clientDestroy_steps (x : Ctx) {s : Srv} (hb : Base s) {c : Client} (hc : c ∈ s.clients)
    (hne : c.ref ≠ s.this) (hconn : c.conn = none) (hmay : x.mayAll c.ref) (fwd : Option Str) (q : Bool) :
    ∃ u, Steps (ChildStep x c.ref) s u ∧ c ∈ u.clients ∧ Okay x u (.destroy c) ∧
      (clientDestroy s c.ref fwd q).core = ((Act.destroy c).run u).core := by
  obtain ⟨u, h1, h2, h3, h4⟩ := destroyF_steps { x with idle := True } trivial (s.clients.length + 1) hb c.ref fwd q hc rfl hne
    (Nat.le_succ_of_le (clientsFrom_le s c.ref))
  have h1 := h1.mono (fun _ _ h => child_may hmay h)
  refine ⟨u, h1, h2, ⟨by rw [(child_keep h1).2.2.1]; exact hne, h3, hmay.may (.self h2 rfl)⟩, ?_⟩
  rw [clientDestroy, h4]
  show _ = (dropConn (destroySelf u c none false) c).core
  rw [dropConn_none _ _ hconn, destroySelf_core, destroySelf_core]

theorem conn?_of_mem {s : Srv} (hi : ClInv s) {c : Client} (hc : c ∈ s.clients) {i : Nat}
    (h : c.conn = some i) : ∃ k, s.conn? i = some k ∧ k.client = c.ref := by
  obtain ⟨k, hk, h1, h2⟩ := hi.clConn c hc i h
  cases hf : s.conn? i with
  | none =>
    have := List.find?_eq_none.1 hf k hk
    simp [h1] at this
  | some k' =>
    refine ⟨k', rfl, ?_⟩
    have hk' := List.mem_of_find?_eq_some hf
    have hi' : k'.idx = i := by simpa using List.find?_some hf
    obtain ⟨c', hc', e1, e2⟩ := hi.connCl k' hk'
    rw [← e1]
    exact congrArg Client.ref (hi.conn_inj hc' hc (e2.trans (congrArg some hi')) h)

theorem conn?_mem {s : Srv} (hi : ClInv s) {i : Nat} {k : Conn} (h : s.conn? i = some k) :
    s.cl k.client ∈ s.clients ∧ (s.cl k.client).ref = k.client ∧ (s.cl k.client).conn = some i ∧
    k.client ≠ s.this := by
  have hk := List.mem_of_find?_eq_some h
  have hki : k.idx = i := by simpa using List.find?_some h
  obtain ⟨c, hc, e1, e2⟩ := hi.connCl k hk
  have hcl : s.cl k.client = c := cl_of_mem' hi.ord hc e1
  rw [hcl]
  refine ⟨hc, e1, e2.trans (congrArg some hki), ?_⟩
  intro he
  obtain ⟨d, hd, g1, g2, g3, g4⟩ := hi.self
  have : c = d := hi.ord.eq_of_ref hc hd (by omega)
  subst this
  rw [g3] at e2; simp at e2

/-- `Conn_Close`: the client of the connection goes, after everything behind it. -/
theorem connClose_steps (x : Ctx) {s : Srv} (hb : Base s) {i : Nat} {k : Conn} (hk : s.conn? i = some k)
    (hmay : x.mayAll k.client) (fwd : Option Str) (inform : Bool) :
    ∃ u, Steps (ChildStep x k.client) s u ∧ s.cl k.client ∈ u.clients ∧
      Okay x u (.destroy (s.cl k.client)) ∧
      (connClose s i fwd inform).core = ((Act.destroy (s.cl k.client)).run u).core := by
  obtain ⟨hm, hr, hconn, hne⟩ := conn?_mem hb.cl hk
  have hne' : (s.cl k.client).ref ≠ s.this := by rw [hr]; exact hne
  obtain ⟨u, h1, h2, h3, h4⟩ := destroyF_steps { x with idle := True } trivial (s.clients.length + 1) hb k.client fwd true hm hr hne
    (Nat.le_succ_of_le (clientsFrom_le s k.client))
  have h1 := h1.mono (fun _ _ h => child_may hmay h)
  refine ⟨u, h1, h2, ⟨by rw [(child_keep h1).2.2.1]; exact hne', by rw [hr]; exact h3, hmay.may (.self h2 hr)⟩, ?_⟩
  generalize hc : s.cl k.client = c at *
  -- the state the destruction starts from
  simp only [connClose, hk]
  generalize hs1 : (if inform = true then closeMsgs s i (s.cl k.client) fwd else s) = s1
  have hcore1 : s1.core = s.core := by rw [← hs1]; split <;> simp
  have hlen : ({ s1 with conns := s1.conns.filter (fun x => x.idx != i) } : Srv).clients.length = s.clients.length := by
    show s1.clients.length = _
    rw [core_clients hcore1]
  have hno : ({ s1 with conns := s1.conns.filter (fun x => x.idx != i) } : Srv).noConn = s.noConn := by
    show s1.noConn = s.noConn
    exact noConn_of_core hcore1
  simp only [clientDestroy, hlen]
  have key := destroyF_noConn (s.clients.length + 1) hno k.client fwd fwd true true
  have hcs := destroyF_conns (s.clients.length + 1)
    { s1 with conns := s1.conns.filter (fun x => x.idx != i) } k.client fwd true
  have hcs' := destroyF_conns (s.clients.length + 1) s k.client fwd true
  generalize destroyF (s.clients.length + 1)
    { s1 with conns := s1.conns.filter (fun x => x.idx != i) } k.client fwd true = d1 at key hcs
  generalize destroyF (s.clients.length + 1) s k.client fwd true = d at key hcs' h4
  have hu : (destroySelf u c none false).core = d.core := by
    rw [h4, destroySelf_core, destroySelf_core]
  have hrun : ((Act.destroy c).run u).core = (dropConn d c).core := by
    show (dropConn (destroySelf u c none false) c).core = _
    have : ∀ t : Srv, (dropConn t c).core = dropConn t.core c := fun t => rfl
    rw [this, this, hu]
  rw [hrun]
  refine core_of_noConn ?_ ?_ ?_ ?_
  · show d1.noConn = d.noConn
    exact key
  · show d1.conns = d.conns.filter _
    rw [hcs.1, hcs'.1, hconn]
    show s1.conns.filter _ = _
    rw [core_conns hcore1]
    refine List.filter_congr (fun a _ => ?_)
    by_cases h : a.idx = i <;> simp [h, bne]
  · show d1.srvConn.filter _ = d.srvConn.filter _
    rw [hcs.2.1, hcs'.2.1, hconn]
    have : s1.srvConn = s.srvConn := (congrArg Srv.srvConn hcore1 : s1.core.srvConn = s.core.srvConn)
    show s1.srvConn.filter _ = _
    rw [this]
    refine List.filter_congr (fun a _ => ?_)
    by_cases h : a.2 = i <;> simp [h, bne]
  · show d1.numConns - 1 = if c.conn.isSome = true then d.numConns - 1 else d.numConns
    rw [hconn, hcs.2.2.1, hcs'.2.2.1]
    have : s1.numConns = s.numConns := (congrArg Srv.numConns hcore1 : s1.core.numConns = s.core.numConns)
    simp [this]

end Ngircd
