import Verif.Lemmas.Destroy

/-!
# Handlers as runs of guarded actions: preliminaries
-/

set_option linter.unusedSimpArgs false

namespace Ngircd

variable {x : Ctx} {s t u : Srv}

/-- What a handler may assume: the structural invariants hold, the request comes from the
open connection of client `cl`, and a prefix left by `Validate_Prefix` names a client behind
that connection. -/
structure Hnd (x : Ctx) (s : Srv) (cl : Nat) (req : Request) : Prop where
  base : Base s
  conn : (s.cl cl).conn.isSome = true
  xcl : x.cl = cl
  cmd : x.cmd = req.command
  argv : x.argv = req.argv
  peer : (s.cl cl).type = .server → x.peer
  fresh : (s.cl cl).type ≠ .user → x.fresh
  stale : (s.cl cl).type = .user → ¬ x.fresh
  own : (s.cl cl).type ≠ .server → ¬ x.peer
  oper : (s.cl cl).modes.contains 'o' = true → x.oper
  pre : ∀ p c, req.prefix? = some p → clientSearch s p = some c → (nextHop s c).ref = cl
  polite : x.bad ∨ Spec.Polite s cl req
  tidy : x.loose ∨ Spec.Tidy s req
  defP : x.loose ∨ 'P' ∉ s.conf.defaultUserModes

theorem Hnd.mem {cl : Nat} {req : Request} (h : Hnd x s cl req) :
    s.cl cl ∈ s.clients ∧ (s.cl cl).ref = cl := mem_of_conn h.conn

theorem Base.this_mem (h : Base s) : s.cl s.this ∈ s.clients ∧ (s.cl s.this).ref = s.this ∧
    (s.cl s.this).type = .server ∧ (s.cl s.this).conn = none ∧ (s.cl s.this).introducer = s.this := by
  obtain ⟨d, hd, h1, h2⟩ := h.cl.self
  rw [cl_of_mem' h.cl.ord hd h1]
  exact ⟨hd, h1, h2⟩

theorem Base.ne_this (h : Base s) {r : Nat} (hc : (s.cl r).conn.isSome = true) : r ≠ s.this := by
  rintro rfl
  rw [h.this_mem.2.2.2.1] at hc
  simp at hc

theorem Hnd.ne_this {cl : Nat} {req : Request} (h : Hnd x s cl req) : cl ≠ s.this :=
  h.base.ne_this h.conn

/-- This server is not behind another client. -/
theorem nextHopF_this (n : Nat) (s : Srv) (c : Client) (h : c.introducer = s.this) :
    nextHopF n s c = c := by
  cases n with
  | zero => rfl
  | succ n => simp [nextHopF, h]

theorem nextHopF_self (n : Nat) (s : Srv) (c : Client) (h : c.introducer = c.ref) :
    nextHopF n s c = c := by
  cases n with
  | zero => rfl
  | succ n => simp [nextHopF, h]

/-- A client with a connection is its own next hop. -/
theorem Base.nextHop_conn (h : Base s) {c : Client} (hc : c ∈ s.clients) (hl : c.conn.isSome = true) :
    nextHop s c = c := by
  rcases h.cl.loc c hc hl with h' | h'
  · exact nextHopF_self _ _ _ h'
  · exact nextHopF_this _ _ _ h'

/-- The client a prefix names is not this server. -/
theorem Hnd.pre_ne {cl : Nat} {req : Request} (h : Hnd x s cl req) {p : Str} {c : Client}
    (hp : req.prefix? = some p) (hs : clientSearch s p = some c) : c.ref ≠ s.this := by
  intro he
  have hm := clientSearch_mem hs
  have := h.base.this_mem
  have hc : s.cl s.this = c := cl_of_mem' h.base.cl.ord hm he
  rw [hc] at this
  have hn := h.pre p c hp hs
  rw [nextHop, nextHopF_this _ _ _ this.2.2.2.2] at hn
  exact h.ne_this (hn.symm.trans he)

theorem Steps.soft {r : Nat} {f : Client → Client} (hf : KeepsCl f)
    (hp : ∀ c, (f c).caps = c.caps ∧ (f c).user = c.user ∧ (f c).host = c.host ∧ (f c).info = c.info := by
      intro _; exact ⟨rfl, rfl, rfl, rfl⟩) :
    Steps (Okay x) s (s.updCl r f) := .one (.soft r f) ⟨hf, .inl (fun c => (hp c).1), .inl (fun c => (hp c).2)⟩ rfl

theorem Steps.softCl {r : Nat} {f : Client → Client} (hf : SoftCl x s r f) :
    Steps (Okay x) s (s.updCl r f) := .one (.soft r f) hf rfl

theorem Steps.chSoft {ch : Nat} {f : Chan → Chan} (hf : SoftCh x f) :
    Steps (Okay x) s (s.updChan ch f) := .one (.chSoft ch f) hf rfl

/-- A field kept by an update. -/
theorem cl_updCl_field {α : Type} (g : Client → α) (s : Srv) (r r' : Nat) (f : Client → Client)
    (hf : ∀ c, (f c).ref = c.ref) (hg : ∀ c, g (f c) = g c) :
    g ((s.updCl r f).cl r') = g (s.cl r') := by
  have key : (s.updCl r f).cl? r' = (s.cl? r').map (fun c => if c.ref = r then f c else c) := by
    simp only [Srv.cl?, Srv.updCl, List.find?_map]
    congr 1
    congr 1
    funext c
    simp only [Function.comp_apply]
    split <;> simp [hf]
  simp only [Srv.cl, key]
  cases h : s.cl? r' with
  | none => rfl
  | some c =>
    simp only [Option.map_some, Option.getD_some]
    split
    · exact hg c
    · rfl

/-! ## Closing connections -/

theorem Steps.connClose (hb : Base s) {i : Nat} (hm : ∀ k, s.conn? i = some k → x.mayAll k.client) (fwd : Option Str) (inf : Bool) :
    Steps (Okay x) s (connClose s i fwd inf) := by
  cases hk : s.conn? i with
  | none => exact .same (by simp [Ngircd.connClose, hk])
  | some k =>
    obtain ⟨u, h1, h2, h3, h4⟩ := connClose_steps x hb hk (hm k hk) fwd inf
    exact .tail _ (h1.mono (fun _ _ h => h.1)) h3 h4

theorem Steps.clientDestroy (hb : Base s) {c : Client} (hc : c ∈ s.clients)
    (hne : c.ref ≠ s.this) (hconn : c.conn = none) (hm : x.mayAll c.ref) (fwd : Option Str) (q : Bool) :
    Steps (Okay x) s (clientDestroy s c.ref fwd q) := by
  obtain ⟨u, h1, h2, h3, h4⟩ := clientDestroy_steps x hb hc hne hconn hm fwd q
  exact .tail _ (h1.mono (fun _ _ h => h.1)) h3 h4

/-- The connection of a client that may be removed may be closed. -/
theorem own_may (hb : Base s) {r i : Nat} (hc : (s.cl r).conn = some i) (hm : x.mayAll r) :
    ∀ k, s.conn? i = some k → x.mayAll k.client := by
  intro k hk
  obtain ⟨h1, h2, h3, _⟩ := conn?_mem hb.cl hk
  obtain ⟨h4, h5⟩ := mem_of_conn (s := s) (r := r) (by rw [hc]; rfl)
  have := hb.cl.conn_inj h1 h4 h3 hc
  rw [← h2, this, h5]; exact hm

theorem Steps.clientReject (hb : Base s) (cl : Nat) (hm : x.mayAll cl) (r : Str) (inf : Bool) :
    Steps (Okay x) s (clientReject s (s.cl cl) r inf) := by
  simp only [Ngircd.clientReject]
  split
  · exact .same rfl
  · rename_i i hc
    exact .connClose hb (own_may hb hc hm) _ _

theorem Steps.lines {g k : MaskList} (h : t.core = ({ s with glines := g, klines := k } : Srv).core)
    (hl : Okay x s (.lines g k)) : Steps (Okay x) s t := .one (.lines g k) hl h

theorem check_mem {l : MaskList} {m : ClientMasks} {e : ListElem} (h : e ∈ (listsCheckReason l m).1) : e ∈ l := by
  induction l with
  | nil => exact h
  | cons a l ih =>
    simp only [listsCheckReason] at h
    split at h
    · split at h
      · exact List.mem_cons_of_mem _ h
      · exact h
    · rcases List.mem_cons.1 h with h | h
      · rw [h]; exact List.mem_cons_self
      · exact List.mem_cons_of_mem _ (ih h)

theorem check_keeps {l : MaskList} {m : ClientMasks} {e : ListElem} (h : e ∈ l) :
    e ∈ (listsCheckReason l m).1 ∨ e.onlyonce = true := by
  induction l with
  | nil => cases h
  | cons a l ih =>
    simp only [listsCheckReason]
    split
    · split
      · rename_i ho
        rcases List.mem_cons.1 h with h | h
        · rw [h]; exact .inr ho
        · exact .inl h
      · exact .inl h
    · rcases List.mem_cons.1 h with h | h
      · rw [h]; exact .inl List.mem_cons_self
      · exact (ih h).imp_left (List.mem_cons_of_mem _)

theorem Lasting.check {l : MaskList} (h : Lasting l) (m : ClientMasks) : Lasting (listsCheckReason l m).1 :=
  fun e he => h e (check_mem he)

theorem Lasting.del {l : MaskList} (h : Lasting l) (m : Str) : Lasting (listsDel l m) := by
  induction l with
  | nil => exact h
  | cons a l ih =>
    have h' : Lasting l := fun e he => h e (List.mem_cons_of_mem _ he)
    simp only [listsDel]
    split
    · exact ih h'
    · intro e he
      rcases List.mem_cons.1 he with he | he
      · rw [he]; exact h a List.mem_cons_self
      · exact ih h' e he

theorem Lasting.expire {l : MaskList} (h : Lasting l) (now : Nat) : Lasting (listsExpire l now) := by
  induction l with
  | nil => exact h
  | cons a l ih =>
    have h' : Lasting l := fun e he => h e (List.mem_cons_of_mem _ he)
    simp only [listsExpire]
    split
    · exact ih h'
    · intro e he
      rcases List.mem_cons.1 he with he | he
      · rw [he]; exact h a List.mem_cons_self
      · exact ih h' e he

theorem Lasting.update {l : MaskList} (h : Lasting l) (m : Str) (v : Nat) (r : Option Str) :
    Lasting (listsUpdate l m v r) := by
  induction l with
  | nil => exact h
  | cons a l ih =>
    have h' : Lasting l := fun e he => h e (List.mem_cons_of_mem _ he)
    simp only [listsUpdate]
    split
    · intro e he
      rcases List.mem_cons.1 he with he | he
      · rw [he]; exact h a List.mem_cons_self
      · exact h' e he
    · intro e he
      rcases List.mem_cons.1 he with he | he
      · rw [he]; exact h a List.mem_cons_self
      · exact ih h' e he

theorem Lasting.add {l : MaskList} (h : Lasting l) (b : Bool) (m : Str) (v : Nat) (r : Option Str) :
    Lasting (listsAdd b l m v r false).1 := by
  simp only [listsAdd]
  split
  · exact h.update _ _ _
  · split
    · intro e he
      rcases List.mem_cons.1 he with he | he
      · rw [he]
      · exact h e he
    · exact h

theorem lines_base (hb : Base s) (g k : MaskList) : Base { s with glines := g, klines := k } :=
  ⟨hb.cl.of_eq rfl rfl rfl (Nat.le_refl _) rfl, hb.ch.of_eq rfl rfl (Nat.le_refl _)⟩

theorem Steps.handleServerBans (hb : Base s) (r : Nat) (hm : x.mayAll r) :
    Steps (Okay x) s (handleServerBans s r).1 := by
  generalize hr : Ngircd.handleServerBans s r = res
  simp only [Ngircd.handleServerBans] at hr
  split at hr
  · subst hr
    refine Steps.trans (.lines (g := (listsCheckReason s.glines (masksOf s (s.cl r))).1) (k := s.klines) rfl
      ⟨fun h => h.check _, fun h => h, .inr (.inr ⟨fun _ h => check_keeps h, fun _ h => .inl h⟩)⟩) ?_
    exact .clientReject (lines_base hb _ _) r hm _ _
  · split at hr
    · subst hr
      refine Steps.trans (.lines (g := (listsCheckReason s.glines (masksOf s (s.cl r))).1)
        (k := (listsCheckReason s.klines (masksOf s (s.cl r))).1) rfl
        ⟨fun h => h.check _, fun h => h.check _, .inr (.inr ⟨fun _ h => check_keeps h, fun _ h => check_keeps h⟩)⟩) ?_
      exact .clientReject (lines_base hb _ _) r hm _ _
    · subst hr
      exact .lines rfl ⟨fun h => h.check _, fun h => h.check _,
        .inr (.inr ⟨fun _ h => check_keeps h, fun _ h => check_keeps h⟩)⟩

end Ngircd
