import Verif.Lemmas.Query
import Verif.Lemmas.Destroy

/-!
# Steps that go well

`Calm s t`: from `s` to `t` no invalid access happens, and all clients are reached as before.
-/

set_option linter.unusedSimpArgs false

namespace Ngircd
open Spec

variable {s t u : Srv} {c d f p : Client} {cl : Nat} {req : Request} {m : Msg}

/-- What the way to a client depends on. -/
def Client.way (c : Client) : Nat × Option Nat × Nat := (c.ref, c.conn, c.introducer)

/-- Lines can be sent to the client. -/
def Routed (s : Srv) (c : Client) : Prop := (nextHop s c).conn.isSome = true

/-- What kind of client each one is. -/
def kinds (s : Srv) : List (Nat × CType) := s.clients.map (fun c => (c.ref, c.type))

/-- No invalid access, the same ways. -/
structure Mild (s t : Srv) : Prop where
  this : t.this = s.this
  ways : t.clients.map Client.way = s.clients.map Client.way
  ok : s.fault = false → t.fault = false

/-- No invalid access, the same ways and kinds of clients. -/
structure Calm (s t : Srv) : Prop extends Mild s t where
  kinds : kinds t = kinds s

theorem Mild.refl (s : Srv) : Mild s s := ⟨rfl, rfl, id⟩

theorem Mild.trans (h : Mild s t) (h' : Mild t u) : Mild s u :=
  ⟨h'.this.trans h.this, h'.ways.trans h.ways, fun e => h'.ok (h.ok e)⟩

theorem Calm.refl (s : Srv) : Calm s s := ⟨.refl s, rfl⟩

theorem Calm.trans (h : Calm s t) (h' : Calm t u) : Calm s u := ⟨h.toMild.trans h'.toMild, h'.kinds.trans h.kinds⟩

theorem ways_find {l l' : List Client} (h : l.map Client.way = l'.map Client.way) (r : Nat) (z : Client) :
    ((l.find? (fun c => c.ref == r)).getD z).way = ((l'.find? (fun c => c.ref == r)).getD z).way := by
  induction l generalizing l' with
  | nil =>
    cases l' with
    | nil => rfl
    | cons b l' => cases h
  | cons a l ih =>
    cases l' with
    | nil => cases h
    | cons b l' =>
      simp only [List.map_cons, List.cons.injEq] at h
      have hr : a.ref = b.ref := congrArg Prod.fst h.1
      rw [List.find?_cons, List.find?_cons, hr]
      cases b.ref == r
      · exact ih h.2
      · exact h.1

theorem Mild.clw (h : Mild s t) (r : Nat) : (t.cl r).way = (s.cl r).way := ways_find h.ways r _

theorem Mild.mem (h : Mild s t) (hc : c ∈ t.clients) : ∃ d ∈ s.clients, c.way = d.way := by
  have : c.way ∈ s.clients.map Client.way := by rw [← h.ways]; exact List.mem_map.2 ⟨c, hc, rfl⟩
  obtain ⟨d, hd, e⟩ := List.mem_map.1 this
  exact ⟨d, hd, e.symm⟩

theorem Mild.hopF (h : Mild s t) : ∀ n (c d : Client), c.way = d.way → (nextHopF n t c).way = (nextHopF n s d).way := by
  intro n
  induction n with
  | zero => intro c d e; exact e
  | succ n ih =>
    intro c d e
    have e1 : c.ref = d.ref := congrArg Prod.fst e
    have e2 : c.introducer = d.introducer := congrArg (fun x => x.2.2) e
    rw [nextHopF, nextHopF, e1, e2, h.this]
    split
    · exact ih _ _ (h.clw _)
    · exact e

theorem Mild.routed (h : Mild s t) (e : c.way = d.way) (hd : Routed s d) : Routed t c := by
  have hl : t.clients.length = s.clients.length := by
    have := congrArg List.length h.ways
    simpa using this
  have := h.hopF s.clients.length c d e
  have e2 : (nextHop t c).conn = (nextHop s d).conn := by
    rw [nextHop, nextHop, hl]
    exact congrArg (fun x => x.2.1) this
  rw [Routed, e2]
  exact hd

theorem Routed.way (hd : Routed s d) (e : c.way = d.way) : Routed s c := (Mild.refl s).routed e hd

/-- The same clients, no new fault. -/
theorem Calm.of_eq (h1 : t.this = s.this) (h2 : t.clients = s.clients) (h3 : t.fault = s.fault) : Calm s t :=
  ⟨⟨h1, by rw [h2], fun e => h3.trans e⟩, by unfold Ngircd.kinds; rw [h2]⟩

theorem Calm.emits (h : Calm s t) (l : List Sent) : Calm s (t.emits l) := ⟨⟨h.this, h.ways, h.ok⟩, h.kinds⟩
theorem Calm.emit (h : Calm s t) (i : Nat) (p : Option Str) (m : Msg) : Calm s (t.emit i p m) := ⟨⟨h.this, h.ways, h.ok⟩, h.kinds⟩

theorem Calm.writePrefix (hc : Routed s c) (h : Calm s t) : Calm s (writePrefix t c p m) := by
  refine ⟨⟨h.this, h.ways, fun e => ?_⟩, h.kinds⟩
  have hr := h.routed rfl hc
  have : (lineTo t c p m).isNone = false := by
    rw [lineTo]
    simp only [Option.isNone_map]
    rw [Routed] at hr
    cases hx : (nextHop t c).conn with
    | none => rw [hx] at hr; cases hr
    | some k => rfl
  show (t.fault || (lineTo t c p m).isNone) = false
  rw [h.ok e, this]
  rfl

theorem Calm.write (hc : Routed s c) (h : Calm s t) : Calm s (write t c m) := Calm.writePrefix hc h
theorem Calm.writeErr (hc : Routed s c) (h : Calm s t) : Calm s (writeErr t c m) := Calm.writePrefix hc h

theorem Calm.writeServersFlag (h : Calm s t) {e : Option Nat} {x : Option Char} : Calm s (writeServersFlag t e p x m) := h.emits _
theorem Calm.writeServers (h : Calm s t) {e : Option Nat} : Calm s (writeServers t e p m) := h.emits _
theorem Calm.writeChannelPrefix (h : Calm s t) {a b : Nat} {r : Bool} : Calm s (writeChannelPrefix t a b p r m) := h.emits _
theorem Calm.writeRelatedPrefix (h : Calm s t) {a : Nat} {r : Bool} : Calm s (writeRelatedPrefix t a p r m) := h.emits _
theorem Calm.sendWallops (h : Calm s t) {a : Nat} {x : Str} : Calm s (sendWallops t a p x) := h.emits _

theorem Calm.ite {q : Prop} [Decidable q] {a b : Srv} (ha : q → Calm s a) (hb : ¬ q → Calm s b) : Calm s (if q then a else b) := by
  split
  · exact ha ‹_›
  · exact hb ‹_›

theorem Calm.foldl {α : Type} {g : Srv → α → Srv} {l : List α} (hg : ∀ t a, a ∈ l → Calm s t → Calm s (g t a)) (h : Calm s t) : Calm s (l.foldl g t) := by
  induction l generalizing t with
  | nil => exact h
  | cons a l ih => exact ih (fun t b hb => hg t b (List.mem_cons_of_mem _ hb)) (hg t a (List.mem_cons_self ..) h)

/-- Peel off what only sends lines. -/
macro "calm" : tactic => `(tactic| repeat' first
  | exact Calm.refl _
  | assumption
  | apply Calm.write
  | apply Calm.writeErr
  | apply Calm.writePrefix
  | apply Calm.writeServers
  | apply Calm.writeServersFlag
  | apply Calm.writeChannelPrefix
  | apply Calm.writeRelatedPrefix
  | apply Calm.sendWallops
  | apply Calm.emit
  | apply Calm.emits
  | (apply Calm.ite <;> intros)
  | (apply Calm.foldl; intros)
  | split
  | simp only [])

/-- The situation of a client's command: lines can be sent to this client and to all others. -/
structure Ready (s : Srv) (cl : Nat) (req : Request) : Prop where
  me : Routed s (s.cl cl)
  ty : (s.cl cl).type ≠ .server
  all : ∀ c ∈ s.clients, c.ref ≠ s.this → Routed s c
  intro : ∀ c ∈ s.clients, c.introducer ≠ s.this → Routed s (s.cl c.introducer)
  self : ∀ c ∈ s.clients, s.cl c.ref = c
  here : s.cl s.this ∈ s.clients
  pre : ∀ p c, req.prefix? = some p → clientSearch s p = some c → Routed s c

section
variable (hr : Ready s cl req)
include hr

theorem Ready.sender : getSender s cl req = .ok cl := by
  unfold getSender
  rw [if_neg hr.ty]

theorem Ready.found {n : Str} (h : clientSearch s n = some c) (hne : c.ref ≠ s.this) : Routed s c := hr.all c (List.mem_of_find?_eq_some h) hne

theorem Ready.need : Calm s (needMoreParams s cl req).1 := Calm.writeErr hr.me (Calm.refl _)

theorem Ready.noPriv : Calm s (opNoPrivileges s cl req).1 := by
  unfold opNoPrivileges
  refine Calm.writeErr ?_ (Calm.refl _)
  cases hp : req.prefix? with
  | none => exact hr.me
  | some p =>
    cases hs : clientSearch s p with
    | none => simp only [Option.bind_some, hs]; exact hr.me
    | some c => simp only [Option.bind_some, hs]; exact hr.pre p c hp hs

theorem Ready.target {n : Nat} : (∃ r, getTarget s req n cl = .ok r ∧ (r ≠ s.this → Routed s (s.cl r))) ∨
    ∃ t, getTarget s req n cl = .err t ∧ Calm s t := by
  simp only [getTarget]
  split
  · have key : ∀ x, x ∈ s.clients → (if x.type = .server then x.ref else x.introducer) ≠ s.this → Routed s (s.cl (if x.type = .server then x.ref else x.introducer)) := by
      intro x hx hne
      split at hne
      · rename_i h
        rw [if_pos h, hr.self x hx]
        exact hr.all x hx hne
      · rename_i h
        rw [if_neg h]
        exact hr.intro x hx hne
    cases h1 : clientSearch s (req.arg n) with
    | some x => exact .inl ⟨_, rfl, key x (List.mem_of_find?_eq_some h1)⟩
    | none =>
      cases h2 : clientSearchServer s (req.arg n) with
      | some x =>
        refine .inl ⟨_, rfl, key x ?_⟩
        unfold clientSearchServer at h2
        split at h2
        · injection h2 with h2; rw [← h2]; exact hr.here
        · exact List.mem_of_find?_eq_some h2
      | none => exact .inr ⟨_, rfl, Calm.writeErr hr.me (Calm.refl _)⟩
  · exact .inl ⟨_, rfl, fun h => absurd rfl h⟩

theorem Ready.answer {n : Nat} {fwd : Client → Msg} {k : Nat → Srv} (hk : Calm s (k cl)) : Calm s (answerHere s cl req n fwd k).1 := by
  simp only [answerHere]
  rw [hr.sender]
  simp only
  rcases hr.target (n := n) with ⟨r, h1, h2⟩ | ⟨t, h1, h2⟩
  · rw [h1]
    simp only
    split
    · exact Calm.writePrefix (h2 ‹_›) (Calm.refl _)
    · exact hk
  · rw [h1]
    exact h2

end

end Ngircd
