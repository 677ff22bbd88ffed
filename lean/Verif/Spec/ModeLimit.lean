import Verif.Model.Events

/-!
# How much a single MODE command can add to the lists of a channel
-/

namespace Ngircd.Spec

/-- The number of entries in the lists of a channel. -/
def listSize (c : Chan) : Nat := c.bans.length + c.excepts.length + c.invites.length

/-- From `s` to `t`, the lists of every channel grow by at most `n` entries altogether. -/
def Grow (n : Nat) (s t : Srv) : Prop :=
  ∃ f : Chan → Chan, t.chans = s.chans.map f ∧ ∀ c, (f c).ref = c.ref ∧ listSize (f c) ≤ listSize c + n

end Ngircd.Spec
