import Verif.Model.Signals

/-!
# Vocabulary: signals
-/

namespace Ngircd.Spec
open Ngircd

/-- The process has dealt with all signals: none is pending, no handler runs, and the pipe is empty. -/
def Settled (x : SigState) : Prop := (∀ s, x.pending s = false) ∧ x.frames = [] ∧ x.pipe = []

/-- The process can be reached from the start of the server by some events. -/
def SigReachable (x : SigState) : Prop := ∃ cap debug es, x = (SigState.init cap debug).run es

/-- How often the configuration was read again. -/
def rehashes (x : SigState) : Nat := x.done.countP (fun d => decide (d.1 = Sig.hup))

/-- How often the state was dumped. -/
def dumps (x : SigState) : Nat := x.done.countP (fun d => decide (d.1 = Sig.usr2) && d.2)

/-- How often the signal `s` was sent. -/
def sent (s : Sig) (es : List SigEvent) : Nat := es.countP (fun e => decide (e = SigEvent.raise s))

/-- No signal is sent. -/
def NoneSent (es : List SigEvent) : Prop := ∀ s, SigEvent.raise s ∉ es

/-- Every event does something. -/
def AtWork : SigState → List SigEvent → Prop
  | _, [] => True
  | x, e :: es => x.step e ≠ x ∧ AtWork (x.step e) es

/-- The signals that end the server. -/
def Ends (s : Sig) : Prop := s = .term ∨ s = .int ∨ s = .quit

end Ngircd.Spec
