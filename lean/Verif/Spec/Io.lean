import Verif.Model.Io

/-!
# Who waits for which events, told from the history of calls

Histories have the newest entry first.
-/

namespace Ngircd.Spec

/-- The events watched for on a descriptor: those asked for when it was registered, with what was
added and without what was removed since; none after it was closed. -/
def watched : List IoStep → Nat → Option Want
  | [], _ => none
  | .did (.create fd what _ _ _) true :: h, n => if n = fd then some what else watched h n
  | .did (.add fd what _) _ :: h, n => if n = fd then (watched h n).map (fun w => ⟨w.rd || what.rd, w.wr || what.wr⟩) else watched h n
  | .did (.del fd what _) _ :: h, n => if n = fd then (watched h n).map (fun w => ⟨w.rd && !what.rd, w.wr && !what.wr⟩) else watched h n
  | .did (.close fd) _ :: h, n => if n = fd then none else watched h n
  | _ :: h, n => watched h n

/-- The callback in charge of a descriptor: the last one set, unless the descriptor has been closed
since.  `limit`: the number of descriptors that can be handled, if there is a limit.  (A registration
the kernel refuses leaves the callback behind.) -/
def owner (limit : Option Nat) : List IoStep → Nat → Option Nat
  | [], _ => none
  | .did (.create fd _ cb room _) _ :: h, n => if n = fd ∧ room = true ∧ (∀ m, limit = some m → fd < m) then some cb else owner limit h n
  | .did (.setcb fd cb) _ :: h, n => if n = fd then some cb else owner limit h n
  | .did (.close fd) _ :: h, n => if n = fd then none else owner limit h n
  | _ :: h, n => owner limit h n

/-- A call that respects the rules: only new descriptors are registered, and only registered ones
are changed; the kernel does not refuse changes. -/
def Allowed (limit : Option Nat) (h : List IoStep) : IoCall → Prop
  | .create fd _ _ _ _ => watched h fd = none
  | .add fd _ ok => (watched h fd).isSome ∧ ok = true
  | .del fd _ ok => (watched h fd).isSome ∧ ok = true
  | .setcb fd _ => (watched h fd).isSome
  | .close fd => (owner limit h fd).isSome

/-- All calls of a history respect the rules. -/
def Proper (limit : Option Nat) : List IoStep → Prop
  | [] => True
  | .did c _ :: h => Allowed limit h c ∧ Proper limit h
  | _ :: h => Proper limit h

/-- The limit of the backend: `select()` has one, `epoll` has not. -/
def limitOf (s : Io) : Option Nat := if s.epoll.isSome then none else some 1024

/-- Nothing is registered yet; `size` entries have been allocated. -/
def Fresh0 (s : Io) : Prop :=
  s.log = [] ∧ (∀ e ∈ s.events, e = ⟨none, ⟨false, false⟩⟩) ∧ s.maxfd = 0 ∧
    (∀ k, s.epoll = some k → ∀ n, k n = none) ∧ (∀ n, s.readers n = false ∧ s.writers n = false)

/-- What the kernel is asked to watch for is what the callers want, and every descriptor watched is
within the range the kernel looks at. -/
def Watches (s : Io) : Prop :=
  match s.epoll with
  | some k => ∀ n, k n = watched s.log n
  | none => ∀ n, (s.readers n = true ↔ ∃ w, watched s.log n = some w ∧ w.rd = true) ∧
      (s.writers n = true ↔ ∃ w, watched s.log n = some w ∧ w.wr = true) ∧ ((∃ w, watched s.log n = some w ∧ (w.rd = true ∨ w.wr = true)) → n ≤ s.maxfd)

/-- A round of events, from the history `h` to the history `h'`: each event reported is handled in
turn.  The callback that is in charge of the descriptor at that moment is called, with the events
reported, or after an error with those watched for; if nobody is in charge any more, the event is
dropped.  Callbacks make calls, and nothing else happens. -/
inductive Round (limit : Option Nat) : List IoStep → List IoReady → List IoStep → Prop
  | done (h) : Round limit h [] h
  | called {h rs h' l} (r : IoReady) (cb : Nat) (ho : owner limit h r.fd = some cb) (hl : ∀ x ∈ l, ∃ c b, x = IoStep.did c b)
      (hr : Round limit (l ++ .called r.fd cb (if r.err then (watched h r.fd).getD ⟨false, false⟩ else r.what) :: h) rs h') : Round limit h (r :: rs) h'
  | dropped {h rs h'} (r : IoReady) (ho : owner limit h r.fd = none) (hr : Round limit (.dropped r.fd :: h) rs h') : Round limit h (r :: rs) h'

/-- A descriptor some event is watched for on. -/
def Busy (h : List IoStep) (n : Nat) : Prop := ∃ w, watched h n = some w ∧ (w.rd = true ∨ w.wr = true)

/-- The states the module can be in, if all calls respect the rules: after its start, after a call
from the outside, and after a round of events. -/
inductive IoRun : Io → Prop
  | start {s} (h : Fresh0 s) : IoRun s
  | call {s t c} (h : IoRun s) (ha : Allowed (limitOf s) s.log c) (hc : s.call c = .ok t) : IoRun t
  | epoll {s t prog rs} (h : IoRun s) (hk : s.epoll.isSome) (hd : dispatchEpoll prog s rs = .ok t) (hp : Proper (limitOf s) t.log) : IoRun t
  | select {s t prog rt wt} (h : IoRun s) (hk : s.epoll = none) (hr : ∀ n, rt n = true → s.readers n = true) (hw : ∀ n, wt n = true → s.writers n = true)
      (hd : dispatchSelect prog s rt wt = .ok t) (hp : Proper (limitOf s) t.log) : IoRun t

end Ngircd.Spec
