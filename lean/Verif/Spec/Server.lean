import Verif.Model.State

/-!
# Vocabulary for the properties of the whole server

Small definitions independent of the model's own helper functions.
-/

namespace Ngircd.Spec

/-- Nothing has changed except that lines may have been sent (and, should a line be
addressed to a client without connection, the process failed an assertion). -/
def OnlyOutput (s t : Srv) : Prop := ∃ o f, t = { s with out := o ++ s.out, fault := f }

theorem OnlyOutput.refl (s : Srv) : OnlyOutput s s := ⟨[], s.fault, rfl⟩

theorem OnlyOutput.trans {s t u : Srv} (h : OnlyOutput s t) (h' : OnlyOutput t u) :
    OnlyOutput s u := by
  obtain ⟨o, f, rfl⟩ := h
  obtain ⟨o', f', rfl⟩ := h'
  exact ⟨o' ++ o, f', by simp⟩


/-- `c` is the `r`-th client structure of the state. -/
def IsClient (s : Srv) (r : Nat) (c : Client) : Prop := c ∈ s.clients ∧ c.ref = r

/-- Client `r` is on the channel `ch`. -/
def OnChannel (s : Srv) (ch r : Nat) : Prop := ∃ m ∈ s.cl2, m.chan = ch ∧ m.client = r

/-- Client `r` is on the channel `ch` and has the member mode `m` there. -/
def HasRank (s : Srv) (ch r : Nat) (m : Char) : Prop :=
  ∃ e ∈ s.cl2, e.chan = ch ∧ e.client = r ∧ m ∈ e.modes

/-- Client `c` depends on client `r`: it is `r`, or a server that depends on `r` introduced
it. -/
inductive Under (s : Srv) (r : Nat) : Client → Prop
  | self {c : Client} : c ∈ s.clients → c.ref = r → Under s r c
  | child {c p : Client} : c ∈ s.clients → Under s r p → p.type = .server →
      c.introducer = p.ref → c.ref ≠ p.ref → Under s r c

end Ngircd.Spec
