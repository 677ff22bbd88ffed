import Verif.Model.Events

/-!
# What a MODE command about a channel may touch
-/

namespace Ngircd.Spec

/-- The channel `d` is the channel `c` apart from modes, key, limit and lists: same name, topic and time of creation. -/
def ButModes (c d : Chan) : Prop :=
  d = { c with modes := d.modes, key := d.key, maxusers := d.maxusers, bans := d.bans, excepts := d.excepts, invites := d.invites }

/-- From `s` to `t` only the modes, the key, the limit and the lists of the channel `ch` and the
ranks of its members changed, and lines were sent; all other channels, their members, the clients
and everything else are as before. -/
structure ChannelOnly (ch : Nat) (s t : Srv) : Prop where
  rest : ∃ o f r, { t with chans := s.chans, cl2 := s.cl2 } = { s with out := o ++ s.out, fault := f, rnd := r }
  chans : ∃ f : Chan → Chan, t.chans = s.chans.map f ∧ ∀ c, (c.ref ≠ ch → f c = c) ∧ ButModes c (f c)
  members : ∃ g : Cl2Chan → Cl2Chan, t.cl2 = s.cl2.map g ∧ ∀ m, (m.chan ≠ ch → g m = m) ∧
    g m = { m with modes := (g m).modes }

end Ngircd.Spec
