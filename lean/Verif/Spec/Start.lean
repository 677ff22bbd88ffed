import Verif.Model.Start

/-!
# Vocabulary: the privileges of a process

Written without the model of the start: only in terms of the IDs and directories of a process.
-/

namespace Ngircd.Spec
open Ngircd

/-- The process has nothing to do with the user `root`: none of its user IDs is 0, so that it cannot
become `root` again. -/
def NotRoot (p : Proc) : Prop := p.uid.real ≠ 0 ∧ p.uid.effective ≠ 0 ∧ p.uid.saved ≠ 0

/-- The process was started by `root`. -/
def StartedByRoot (p : Proc) : Prop := p.uid.real = 0 ∧ p.uid.effective = 0 ∧ p.uid.saved = 0

/-- The user of the process is `u`, for good. -/
def RunsAs (p : Proc) (u : Nat) : Prop := p.uid.real = u ∧ p.uid.effective = u ∧ p.uid.saved = u

/-- The group of the process is `g`, and no other. -/
def RunsInGroup (p : Proc) (g : Nat) : Prop :=
  p.gid.real = g ∧ p.gid.effective = g ∧ p.gid.saved = g ∧ p.groups = []

/-- The user the configuration asks for: `ServerUID`, and "nobody" when it is not set (or `root`). -/
def wantedUser (s : System) (c : StartConf) : Option Nat :=
  if c.uid = 0 then s.nobody.map (·.1) else some c.uid

/-- The group the configuration asks for: `ServerGID`, and the one of "nobody" when `ServerUID` is not set. -/
def wantedGroup (s : System) (c : StartConf) : Option Nat :=
  if c.uid = 0 then s.nobody.map (·.2) else some c.gid

/-- The working directory lies below the root directory. -/
def Inside (p : Proc) : Prop := ∃ rest, p.cwd = p.root ++ rest

/-- The IDs of `i` are among those of `j`. -/
def AmongIds (i j : Ids) : Prop :=
  (i.real = j.real ∨ i.real = j.effective ∨ i.real = j.saved) ∧
  (i.effective = j.real ∨ i.effective = j.effective ∨ i.effective = j.saved) ∧
  (i.saved = j.real ∨ i.saved = j.effective ∨ i.saved = j.saved)

instance (p : Proc) : Decidable (NotRoot p) := by unfold NotRoot; infer_instance
instance (p : Proc) : Decidable (StartedByRoot p) := by unfold StartedByRoot; infer_instance
instance (p : Proc) (u : Nat) : Decidable (RunsAs p u) := by unfold RunsAs; infer_instance
instance (p : Proc) (u : Nat) : Decidable (RunsInGroup p u) := by unfold RunsInGroup; infer_instance

end Ngircd.Spec
