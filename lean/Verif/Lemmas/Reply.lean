import Verif.Lemmas.Under

/-!
# Replies on the connection of the client itself
-/

set_option linter.unusedSimpArgs false

namespace Ngircd
open Spec

variable {s t u : Srv} {i cl : Nat} {l : Str} {req : Request}

/-- Only lines for connection `i` are added. -/
def Reply (i : Nat) (s t : Srv) : Prop := ∃ o, t = { s with out := o ++ s.out } ∧ ∀ m ∈ o, m.conn = i

theorem rp_refl (i : Nat) (s : Srv) : Reply i s s := ⟨[], rfl, by simp⟩

theorem Reply.trans (h : Reply i s t) (h' : Reply i t u) : Reply i s u := by
  obtain ⟨o, rfl, ho⟩ := h
  obtain ⟨o', rfl, ho'⟩ := h'
  refine ⟨o' ++ o, by simp, fun m hm => ?_⟩
  rcases List.mem_append.1 hm with h | h
  · exact ho' m h
  · exact ho m h

theorem Reply.oo (h : Reply i s t) : OnlyOutput s t := by
  obtain ⟨o, rfl, -⟩ := h; exact ⟨o, s.fault, rfl⟩

theorem Reply.core (h : Reply i s t) : t.core = s.core := h.oo.core

theorem Reply.ans (h : Reply i (s.roll r) t) : Answered i s t := by
  obtain ⟨o, rfl, ho⟩ := h; exact ⟨o, r, rfl, ho⟩

theorem Spec.Answered.unch (h : Answered i s t) : Unchanged s t := by
  obtain ⟨o, r, rfl, ho⟩ := h; exact ⟨o, s.fault, r, rfl⟩

theorem rp_writePrefix {c p : Client} {m : Msg} (hc : (nextHop s c).conn = some i) (h : Reply i s t) :
    Reply i s (writePrefix t c p m) := by
  refine h.trans ?_
  have hn : nextHop t c = nextHop s c := nextHop_core h.core c
  refine ⟨(lineTo t c p m).toList, ?_, ?_⟩
  · simp only [writePrefix, lineTo, hn, hc, Option.map_some, Option.isNone_some, Bool.or_false]
  · intro x hx
    simp only [lineTo, hn, hc, Option.map_some, Option.toList_some, List.mem_singleton] at hx
    rw [hx]

theorem rp_write {c : Client} {m : Msg} (hc : (nextHop s c).conn = some i) (h : Reply i s t) :
    Reply i s (write t c m) := rp_writePrefix hc h

theorem rp_writeErr {c : Client} {m : Msg} (hc : (nextHop s c).conn = some i) (h : Reply i s t) :
    Reply i s (writeErr t c m) := rp_writePrefix hc h

theorem rp_ite {c : Prop} [Decidable c] {a b : Srv} (ha : Reply i s a) (hb : Reply i s b) :
    Reply i s (if c then a else b) := by split <;> assumption

theorem rp_foldl {α : Type} {f : Srv → α → Srv} {l : List α}
    (hf : ∀ t a, a ∈ l → Reply i s t → Reply i s (f t a)) (h : Reply i s t) : Reply i s (l.foldl f t) := by
  induction l generalizing t with
  | nil => exact h
  | cons a l ih =>
    exact ih (fun t b hb => hf t b (List.mem_cons_of_mem _ hb)) (hf t a List.mem_cons_self h)

/-- The owner of the connection, as a target of replies. -/
theorem own_hop (hb : Base s) (hm : s.cl cl ∈ s.clients) (hc : (s.cl cl).conn = some i) :
    (nextHop s (s.cl cl)).conn = some i := by
  rw [hb.nextHop_conn hm (by rw [hc]; rfl)]; exact hc

/-- What is needed to answer a request. -/
structure Asker (s : Srv) (i cl : Nat) (req : Request) : Prop where
  base : Base s
  mem : s.cl cl ∈ s.clients
  ref : (s.cl cl).ref = cl
  conn : (s.cl cl).conn = some i
  pre : ∀ p c, req.prefix? = some p → clientSearch s p = some c → (nextHop s c).ref = cl

theorem Asker.hop (h : Asker s i cl req) : (nextHop s (s.cl cl)).conn = some i := own_hop h.base h.mem h.conn

theorem Asker.ne_this (h : Asker s i cl req) : cl ≠ s.this := h.base.ne_this (by rw [h.conn]; rfl)

theorem Spec.Received.asker (hr : Received s i l cl req) (hb : Base s) (rnd : Int) : Asker (s.roll rnd) i cl req := by
  obtain ⟨g1, g2, g3, g4⟩ := hr.owner hb
  refine ⟨Base.of_core (s := s) rfl hb, g1, g2, g3, ?_⟩
  obtain ⟨k, req0, hk, hcl, hp, hv⟩ := hr
  intro p c h1 h2
  rw [nextHop_core (s := s) (t := s.roll rnd) rfl]
  exact (validatePrefix_pass hv).2.2 p c h1 h2

/-- The client named by the prefix is reached through the connection. -/
theorem Asker.pre_hop (h : Asker s i cl req) {p : Str} {c : Client} (hp : req.prefix? = some p)
    (hc : clientSearch s p = some c) : (nextHop s c).conn = some i := by
  have h1 := h.pre p c hp hc
  have hm := clientSearch_mem hc
  have h2 := (nextHop_iff h.base h.conn hm).1 h1
  have : ∀ n, ∀ c ∈ s.clients, (nextHopF n s c).ref = cl → nextHopF n s c ∈ s.clients := by
    intro n
    induction n with
    | zero => intro c hc _; exact hc
    | succ n ih =>
      intro c hc hr
      simp only [nextHopF] at hr ⊢
      split
      · rename_i hne
        rw [if_pos hne] at hr
        cases hq : s.cl? c.introducer with
        | some q =>
          have hqm := cl?_some hq
          have hq' : s.cl c.introducer = q := by simp [Srv.cl, hq]
          rw [hq'] at hr ⊢
          exact ih q hqm.1 hr
        | none =>
          have hq' : s.cl c.introducer = noClient := by simp [Srv.cl, hq]
          rw [hq'] at hr
          have h0 : s.cl? 0 = none := by
            cases h0 : s.cl? 0 with
            | none => rfl
            | some d =>
              have := cl?_some h0
              have := h.base.cl.pos d this.1
              omega
          have hpos := h.base.cl.pos _ h.mem
          rw [h.ref] at hpos
          rcases noClient_hop n s with g | g
          · omega
          · rw [h0] at g; cases g
      · exact hc
  have hmem := this _ c hm h1
  have : s.cl cl = nextHop s c := cl_of_mem' h.base.cl.ord hmem h1
  rw [← this]; exact h.conn

theorem rp_needMoreParams (h : Asker s i cl req) : Reply i s (needMoreParams s cl req).1 :=
  rp_writeErr h.hop (rp_refl _ _)

theorem rp_opNoPrivileges (h : Asker s i cl req) : Reply i s (opNoPrivileges s cl req).1 := by
  simp only [opNoPrivileges]
  refine rp_writeErr ?_ (rp_refl _ _)
  cases hp : req.prefix? with
  | none => exact h.hop
  | some p =>
    simp only [Option.bind_some]
    cases hc : clientSearch s p with
    | none => exact h.hop
    | some c => exact h.pre_hop hp hc

theorem rp_getSender (h : Asker s i cl req) {s' : Srv} (hg : getSender s cl req = .err s') : Reply i s s' := by
  simp only [getSender] at hg
  split at hg
  · split at hg
    · injection hg with hg; rw [← hg]; exact rp_needMoreParams h
    · split at hg
      · injection hg with hg; rw [← hg]; exact rp_writeErr h.hop (rp_refl _ _)
      · cases hg
  · cases hg

/-- A dispatched command: either the handler runs, for an allowed type of client and number of
arguments, or the client is told why not. -/
theorem step_run (h : Received s i l cl req) (hb : Base s) (rnd : Int) {n : String} {cmd : Command} (hn : Is req n)
    (hf : findCommand n.toList = some cmd) (hnum : n.toList.head?.any (fun c => c.isUpper) = true := by decide) :
    (step s (.line i rnd l) = (cmd.run (s.roll rnd) cl req).1 ∧
      cmd.types.allows (s.cl cl).type = true ∧ cmd.min ≤ req.argv.length ∧
      (∀ m, cmd.max = some m → req.argv.length ≤ m)) ∨
    Answered i s (step s (.line i rnd l)) := by
  rw [step_cmd h rnd hn hf hnum]
  have ha := h.asker hb rnd
  generalize hr : runCommand (s.roll rnd) cl req cmd = r
  simp only [runCommand] at hr
  split at hr
  · right
    split at hr
    · rw [← hr]; exact (rp_writeErr ha.hop (rp_refl _ _)).ans
    · rw [← hr]; exact (rp_writeErr ha.hop (rp_refl _ _)).ans
  · rename_i h1
    split at hr
    · right
      rw [← hr]; exact (rp_needMoreParams ha).ans
    · rename_i h2
      left
      simp only [Bool.not_eq_true', Bool.not_eq_false] at h1 h2
      simp only [Command.argcOk, Request.argc, Bool.and_eq_true] at h2
      refine ⟨by rw [← hr], h1, of_decide_eq_true h2.1, ?_⟩
      intro m hm
      have := h2.2
      rw [hm] at this
      exact of_decide_eq_true this

end Ngircd
