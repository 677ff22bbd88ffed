import Verif.Model.Dial
import Verif.Spec.Str

/-!
# Vocabulary: the servers this server connects to by itself
-/

namespace Ngircd.Spec

/-- It is time to connect to this server: there is no connection, and none is being prepared; host
and port are known; the entry is enabled; and the last attempt, as recorded, is long enough ago. -/
def Due (e : LinkConf) (now : Int) (x : Slot) : Prop :=
  x.conn = .none ∧ x.host ≠ [] ∧ x.port ≠ 0 ∧ x.disabled = false ∧ x.lasttry + e.retry ≤ now

/-- The times do not run backwards. -/
def Forward : Int → List (Int × LinkEvent) → Prop
  | _, [] => True
  | t, (now, _) :: evs => t ≤ now ∧ Forward now evs

/-- The event does not restart the waiting time of an entry: it is neither CONNECT by name nor the
addition of a server. -/
def Waits : LinkEvent → Prop
  | .enablePassive _ => False
  | .add _ _ _ => False
  | _ => True

/-- The event does not enable an entry: it is neither a CONNECT nor the addition of a server. -/
def Stays : LinkEvent → Prop
  | .enable _ _ => False
  | .enablePassive _ => False
  | .add _ _ _ => False
  | _ => True

/-- A table as it is after the start: no connections, lookups or attempts. -/
def Fresh (t : Links) : Prop := ∀ x ∈ t.slots, x.conn = .none ∧ x.resolving = false ∧ x.connecting = false

instance (t : Links) : Decidable (Fresh t) := inferInstanceAs (Decidable (∀ x ∈ t.slots, _))

end Ngircd.Spec
