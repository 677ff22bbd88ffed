import Verif.Lemmas.TraceReg
import Verif.Lemmas.Under
import Verif.Lemmas.Notify

/-!
# What events do to the table of connections
-/

set_option linter.unusedSimpArgs false

namespace Ngircd

open Spec

variable {x : Ctx} {s t u : Srv} {i j : Nat}

/-! ## Actions -/

/-- Connections come and go, but do not change in what `g` shows of them. -/
theorem run_conns {α : Type} (g : Conn → α) {a : Act} (ho : Okay x t a) (hx : ¬ x.opens)
    (hg : ∀ i f, ConnOk x t i f → ∀ k, g (f k) = g k) :
    ((a.run t).conns.map g).Sublist (t.conns.map g) := by
  cases a with
  | umode r m set => simp only [Act.run]; split <;> exact List.Sublist.refl _
  | setType r ty =>
    simp only [Act.run, clientSetType]
    generalize hu : (t.updCl r fun c => if ty = .server then { c with type := ty, mytoken := genMyToken t } else { c with type := ty }) = u
    obtain ⟨_, _, h⟩ := adjustCounters_eq u (u.cl r)
    rw [h, ← hu]; exact List.Sublist.refl _
  | newCl c =>
    simp only [Act.run, initNewClient]
    obtain ⟨_, _, h⟩ := adjustCounters_eq { t with clients := c :: t.clients, nextRef := t.nextRef + 1 } c
    rw [h]; exact List.Sublist.refl _
  | newLocal c k' => exact absurd ho.2.2.2.2.2.2.2.2.2.2.2.2.2.2 hx
  | destroy c =>
    simp only [Act.run, dropConn, (destroySelf_fields t c none false).2.1]
    exact List.Sublist.map _ List.filter_sublist
  | whowas c =>
    obtain ⟨a', b', h2⟩ := registerWhowas_eq t c
    simp only [Act.run]; rw [h2]; exact List.Sublist.refl _
  | conn i f =>
    simp only [Act.run, Srv.updConn, List.map_map]
    have : (g ∘ fun k => if k.idx = i then f k else k) = g := by
      funext k
      simp only [Function.comp]
      split
      · exact hg i f ho k
      · rfl
    rw [this]; exact List.Sublist.refl _
  | remove ch r => simp only [Act.run, deleteIfEmpty]; split <;> exact List.Sublist.refl _
  | chMode ch m set => simp only [Act.run]; split <;> exact List.Sublist.refl _
  | mmode ch r m set => simp only [Act.run]; split <;> exact List.Sublist.refl _
  | _ => exact List.Sublist.refl _

theorem steps_conns {α : Type} (g : Conn → α) (h : Steps (Okay x) s t) (hx : ¬ x.opens)
    (hg : ∀ t i f, ConnOk x t i f → ∀ k, g (f k) = g k) :
    (t.conns.map g).Sublist (s.conns.map g) := by
  induction h with
  | refl h => rw [core_conns h]; exact List.Sublist.refl _
  | tail a h hp hr ih => rw [core_conns hr]; exact (run_conns g hp hx (hg _)).trans ih

/-! ## Closing -/

theorem closed_conns {k : Conn} (hk : s.conn? i = some k) (fwd : Option Str) (inform : Bool) :
    (connClose s i fwd inform).conns = s.conns.filter (fun k => k.idx != i) := by
  simp only [connClose, hk]
  generalize hs1 : (if inform = true then closeMsgs s i (s.cl k.client) fwd else s) = s1
  have hcore1 : s1.core = s.core := by rw [← hs1]; split <;> simp
  simp only [clientDestroy]
  rw [(destroyF_conns _ _ _ _ _).1, core_conns hcore1]

/-- The lines something adds to the output. -/
def Adds (P : Sent → Prop) (s t : Srv) : Prop := ∃ o, t.out = o ++ s.out ∧ ∀ y ∈ o, P y

theorem Adds.same {P : Sent → Prop} (h : t.out = s.out) : Adds P s t := ⟨[], by simpa using h, by simp⟩

theorem Adds.trans {P : Sent → Prop} (h : Adds P s t) (h' : Adds P t u) : Adds P s u := by
  obtain ⟨o, h1, h2⟩ := h
  obtain ⟨o', h3, h4⟩ := h'
  refine ⟨o' ++ o, by rw [h3, h1, List.append_assoc], ?_⟩
  intro y hy
  rcases List.mem_append.1 hy with hy | hy
  · exact h4 y hy
  · exact h2 y hy

theorem Adds.mono {P Q : Sent → Prop} (h : Adds P s t) (hpq : ∀ y, P y → Q y) : Adds Q s t := by
  obtain ⟨o, h1, h2⟩ := h
  exact ⟨o, h1, fun y hy => hpq y (h2 y hy)⟩

theorem Adds.emits {P : Sent → Prop} {l : List Sent} (h : ∀ y ∈ l, P y) : Adds P s (s.emits l) :=
  ⟨l.reverse, rfl, fun y hy => h y (List.mem_reverse.1 hy)⟩

theorem lineTo_msg {c p : Client} {m : Msg} {y : Sent} (h : lineTo s c p m = some y) : y.msg = m := by
  simp only [lineTo] at h
  obtain ⟨i, _, h⟩ := Option.map_eq_some_iff.1 h
  rw [← h]

theorem writeServers_adds (ex : Option Nat) (p : Client) (m : Msg) :
    Adds (fun y => y.msg = m) s (writeServers s ex p m) := by
  simp only [writeServers, writeServersFlag]
  refine .emits (fun y hy => ?_)
  obtain ⟨c, _, h⟩ := List.mem_filterMap.1 hy
  exact lineTo_msg h

theorem sendMarked_adds (p : Client) (hops : List Client) (m : Msg) :
    Adds (fun y => y.msg = m) s (sendMarked s p hops m) := by
  simp only [sendMarked]
  refine .emits (fun y hy => ?_)
  obtain ⟨c, _, h⟩ := List.mem_filterMap.1 hy
  split at h
  · cases h
  · injection h with h; rw [← h]

/-- The lines sent when a client goes. -/
def Farewell (y : Sent) : Prop :=
  y.msg.cmd = "QUIT" ∨ y.msg.cmd = "SQUIT" ∨ y.msg.cmd = "ERROR" ∨ y.msg.cmd = "NOTICE"

theorem destroySelf_adds (c : Client) (fwd : Option Str) (q : Bool) : Adds Farewell s (destroySelf s c fwd q) := by
  have key : ∀ u : Srv, u.out = s.out → Adds Farewell s (destroyUserOrService u c fwd q) := by
    intro u hu
    simp only [destroyUserOrService]
    generalize hs1 : (if q = true then if c.conn.isSome = true then writeServers u none c ⟨"QUIT", [fwd.getD []]⟩
        else writeServers u (some (nextHop u c).ref) c ⟨"QUIT", [fwd.getD []]⟩ else u) = s1
    have h1 : Adds Farewell s s1 := by
      refine Adds.trans (.same hu) ?_
      rw [← hs1]
      split
      · split
        · exact (writeServers_adds _ _ _).mono (fun y hy => .inl (by rw [hy]))
        · exact (writeServers_adds _ _ _).mono (fun y hy => .inl (by rw [hy]))
      · exact .same rfl
    refine h1.trans ?_
    simp only [channelQuit]
    refine Adds.trans (t := writeRelatedPrefix s1 c.ref c false ⟨"QUIT", [if s1.conf.morePrivacy = true then [] else fwd.getD c.id]⟩) ?_ ?_
    · exact (sendMarked_adds _ _ _).mono (fun y hy => .inl (by rw [hy]))
    · exact .same (by rw [registerWhowas_out, removeQuit_fold])
  simp only [destroySelf]
  split
  · exact key _ rfl
  · exact key _ rfl
  · split
    · exact .same rfl
    · exact Adds.trans (t := { s with clients := s.clients.filter (fun x => x.ref != c.ref) }) (.same rfl)
        ((writeServers_adds _ _ _).mono (fun y hy => .inr (.inl (by rw [hy]))))
  · exact .same rfl

theorem destroyF_adds (n : Nat) (s : Srv) (r : Nat) (fwd : Option Str) (q : Bool) : Adds Farewell s (destroyF n s r fwd q) := by
  induction n generalizing s r fwd q with
  | zero => exact .same rfl
  | succ n ih =>
    simp only [destroyF]
    split
    · exact .same rfl
    · split
      · exact destroySelf_adds _ _ _
      · exact (ih _ _ _ _).trans (ih _ _ _ _)

theorem connClose_adds (i : Nat) (fwd : Option Str) (inform : Bool) : Adds Farewell s (connClose s i fwd inform) := by
  simp only [connClose]
  split
  · exact .same rfl
  · rename_i k _
    generalize hs1 : (if inform = true then closeMsgs s i (s.cl k.client) fwd else s) = s1
    have h1 : Adds Farewell s s1 := by
      rw [← hs1]
      split
      · simp only [closeMsgs]
        split
        · refine ⟨[_, _], rfl, ?_⟩
          intro y hy
          simp only [List.mem_cons, List.not_mem_nil, or_false] at hy
          rcases hy with rfl | rfl
          · exact .inr (.inr (.inl rfl))
          · exact .inr (.inr (.inr rfl))
        · refine ⟨[_], rfl, ?_⟩
          intro y hy
          simp only [List.mem_cons, List.not_mem_nil, or_false] at hy
          rcases hy with rfl
          exact .inr (.inr (.inl rfl))
      · exact .same rfl
    refine h1.trans ?_
    have := destroyF_adds (s1.clients.length + 1) { s1 with conns := s1.conns.filter (fun x => x.idx != i) } k.client fwd true
    exact this

/-! ## A connection closed leaves the others -/

/-- A local client depends on nobody but itself. -/
theorem under_local (hb : Base s) {r : Nat} {c : Client} (hr : r ≠ s.this) (h : Under s r c) (hl : c.conn.isSome = true) : c.ref = r := by
  cases h with
  | self _ h => exact h
  | @child c p hd hup hps hdi hne =>
    rcases hb.cl.loc c hd hl with h | h
    · exact absurd (h.symm.trans hdi) hne
    · have hp : p.ref = s.this := hdi.symm.trans h
      have hth := hb.this_mem
      cases hup with
      | self _ h2 => exact absurd (h2.symm.trans hp) hr
      | @child p q h1 h2 h3 h4 h5 =>
        rw [← hp] at hth
        rw [cl_of_mem' hb.cl.ord h1 rfl] at hth
        exact absurd (hth.2.2.2.2.symm.trans h4) h5

/-- The connection and its client are as before, and so is what decides about timeouts. -/
structure Still (i : Nat) (s t : Srv) : Prop where
  conn : t.conn? i = s.conn? i
  cl : ∀ k, s.conn? i = some k → t.cl k.client = s.cl k.client
  now : t.now = s.now
  conf : t.conf = s.conf

theorem Still.trans (h : Still i s t) (h' : Still i t u) : Still i s u where
  conn := h'.conn.trans h.conn
  cl k hk := (h'.cl k (h.conn.trans hk)).trans (h.cl k hk)
  now := h'.now.trans h.now
  conf := h'.conf.trans h.conf

theorem run_now (t : Srv) {a : Act} (hc : ¬ ∃ d, a = .time d) : (a.run t).now = t.now := by
  cases a with
  | time c => exact absurd ⟨c, rfl⟩ hc
  | umode r m set => simp only [Act.run]; split <;> rfl
  | setType r ty =>
    simp only [Act.run, clientSetType]
    generalize hu : (t.updCl r fun c => if ty = .server then { c with type := ty, mytoken := genMyToken t } else { c with type := ty }) = u
    obtain ⟨_, _, h⟩ := adjustCounters_eq u (u.cl r)
    rw [h, ← hu]; rfl
  | newCl c =>
    simp only [Act.run, initNewClient]
    obtain ⟨_, _, h⟩ := adjustCounters_eq { t with clients := c :: t.clients, nextRef := t.nextRef + 1 } c
    rw [h]
  | newLocal c k =>
    simp only [Act.run, initNewClient]
    obtain ⟨_, _, h⟩ := adjustCounters_eq { t with clients := c :: t.clients, nextRef := t.nextRef + 1 } c
    rw [h]
  | destroy c =>
    have := destroySelf_core t c none false
    show (destroySelf t c none false).now = _
    rw [core_now this]
    split
    · obtain ⟨a, b, h1⟩ := quitAll_eq (dropCl t c.ref) c.ref t.chans
      obtain ⟨a', b', h2⟩ := registerWhowas_eq (quitAll (dropCl t c.ref) c.ref t.chans) c
      rw [h2, h1]; rfl
    · rfl
  | whowas c =>
    obtain ⟨a', b', h2⟩ := registerWhowas_eq t c
    simp only [Act.run]; rw [h2]
  | remove ch r => simp only [Act.run, deleteIfEmpty]; split <;> rfl
  | chMode ch m set => simp only [Act.run]; split <;> rfl
  | mmode ch r m set => simp only [Act.run]; split <;> rfl
  | _ => rfl

theorem child_fixed {r : Nat} (h : Steps (ChildStep x r) s t) : t.conf = s.conf ∧ t.now = s.now := by
  induction h with
  | refl h => exact ⟨core_conf h, core_now h⟩
  | tail a h hp hr ih =>
    obtain ⟨-, d, rfl, -⟩ := hp
    exact ⟨(core_conf hr).trans ((run_conf _ (by simp)).trans ih.1), (core_now hr).trans ((run_now _ (by simp)).trans ih.2)⟩

theorem connClose_fixed (hb : Base s) (i : Nat) (fwd : Option Str) (inform : Bool) :
    (connClose s i fwd inform).conf = s.conf ∧ (connClose s i fwd inform).now = s.now := by
  cases hk : s.conn? i with
  | none => simp [connClose, hk, Srv.crash]
  | some k =>
    obtain ⟨u, h1, h2, h3, h4⟩ := connClose_steps (x := { peer := True }) hb hk (.inl trivial) fwd inform
    have := child_fixed h1
    exact ⟨(core_conf h4).trans ((run_conf _ (by simp)).trans this.1), (core_now h4).trans ((run_now _ (by simp)).trans this.2)⟩

theorem conn?_filter (h : i ≠ j) (hs : t.conns = s.conns.filter (fun k => k.idx != j)) : t.conn? i = s.conn? i := by
  simp only [Srv.conn?, hs]
  induction s.conns with
  | nil => rfl
  | cons a l ih =>
    by_cases ha : a.idx = j
    · rw [List.filter_cons_of_neg (by simp [ha]), ih, List.find?_cons_of_neg (by simp [ha, Ne.symm h])]
    · rw [List.filter_cons_of_pos (by simp [ha])]
      by_cases hi : a.idx = i
      · rw [List.find?_cons_of_pos (by simp [hi]), List.find?_cons_of_pos (by simp [hi])]
      · rw [List.find?_cons_of_neg (by simp [hi]), List.find?_cons_of_neg (by simp [hi]), ih]

/-- Closing a connection leaves the others alone. -/
theorem connClose_still (hb : Base s) (h : i ≠ j) (fwd : Option Str) (inform : Bool) : Still i s (connClose s j fwd inform) := by
  obtain ⟨f1, f2⟩ := connClose_fixed hb j fwd inform
  cases hk : s.conn? j with
  | none =>
    have : connClose s j fwd inform = s.crash := by simp [connClose, hk]
    rw [this]
    exact ⟨rfl, fun _ _ => rfl, rfl, rfl⟩
  | some k =>
    refine ⟨conn?_filter h (closed_conns hk fwd inform), ?_, f2, f1⟩
    intro k' hk'
    obtain ⟨g1, g2, g3, g4⟩ := conn?_mem hb.cl hk'
    obtain ⟨e1, e2, e3, e4⟩ := conn?_mem hb.cl hk
    have hg := connClose_gone hb hk fwd inform
    have hm : s.cl k'.client ∈ (connClose s j fwd inform).clients := by
      refine (hg.clients _).2 ⟨g1, fun hu => ?_⟩
      have := under_local hb e4 hu (by rw [g3]; rfl)
      rw [g2] at this
      rw [this, e3] at g3
      injection g3 with g3
      exact h g3.symm
    have hb' : Base (connClose s j fwd inform) :=
      (Steps.connClose (x := { peer := True }) hb (fun _ _ => .inl trivial) fwd inform).base hb
    exact cl_of_mem' hb'.cl.ord hm g2

end Ngircd
