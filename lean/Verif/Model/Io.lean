import Verif.Model.Array

/-!
# Model of src/ngircd/io.c: the events the server waits for

Modelled are the backends `epoll` and `select`, the two that are compiled on Linux (the second one is
used if `epoll_create()` fails).  The kernel's `epoll` set is part of the state.  `IO_WANTREAD` and
`IO_WANTWRITE` are the two fields of `Want`; `IO_ERROR` is a flag of its own.  A callback is a number;
what the callbacks do is a parameter.  `log` is a record of what has happened, for the specification:
no function looks at it.  Not modelled: kqueue, poll and /dev/poll, the log messages, `select()` and
`epoll_wait()` themselves, of which the results are parameters.
-/

namespace Ngircd

/-- A combination of `IO_WANTREAD` and `IO_WANTWRITE`, io.h:19-21. -/
structure Want where
  rd : Bool
  wr : Bool
  deriving DecidableEq, Repr

/-- No event. -/
def Want.none : Want := ⟨false, false⟩

/-- `a | b`. -/
def Want.or (a b : Want) : Want := ⟨a.rd || b.rd, a.wr || b.wr⟩

/-- `a & ~b`. -/
def Want.less (a b : Want) : Want := ⟨a.rd && !b.rd, a.wr && !b.wr⟩

/-- `a & b`, as a condition. -/
def Want.meets (a b : Want) : Bool := (a.rd && b.rd) || (a.wr && b.wr)

/-- `io_event`, io.c:34-41. -/
structure IoEvent where
  callback : Option Nat := none
  what : Want := Want.none
  deriving DecidableEq, Repr

/-- The calls of this module. -/
inductive IoCall
  /-- `room`: there is memory; `ok`: the kernel does not refuse for reasons of its own -/
  | create (fd : Nat) (what : Want) (cb : Nat) (room ok : Bool)
  | add (fd : Nat) (what : Want) (ok : Bool)
  | del (fd : Nat) (what : Want) (ok : Bool)
  | setcb (fd : Nat) (cb : Nat)
  | close (fd : Nat)
  deriving DecidableEq, Repr

/-- What is recorded: calls with their results, callbacks called, and events dropped as nobody was
there to call. -/
inductive IoStep
  | did (c : IoCall) (ret : Bool)
  | called (fd cb : Nat) (what : Want)
  | dropped (fd : Nat)
  deriving DecidableEq, Repr

/-- The variables of io.c:72-143.  `epoll`: the set of the kernel (`none`: `io_masterfd < 0`). -/
structure Io where
  events : List IoEvent := []
  epoll : Option (Nat → Option Want) := none
  readers : Nat → Bool := fun _ => false
  writers : Nat → Bool := fun _ => false
  maxfd : Nat := 0
  log : List IoStep := []

/-- Change a table in one place. -/
def setAt {α} (f : Nat → α) (n : Nat) (a : α) : Nat → α := fun m => if m = n then a else f m

/-- `FD_SETSIZE` on Linux. -/
def FD_SETSIZE : Nat := 1024

/-- `io_event_add`, io.c:754-792.  `EPOLL_CTL_MOD` needs the descriptor in the set.  A missing event
is a failed assertion. -/
def ioAdd (s : Io) (fd : Nat) (what : Want) (ok : Bool) : Res (Io × Bool) :=
  match s.events[fd]? with
  | none => .fault
  | some e =>
    if e.what.or what = e.what then .ok (s, true)
    else
      let s := { s with events := s.events.set fd { e with what := e.what.or what } }
      match s.epoll with
      | some k => if (k fd).isSome && ok then .ok ({ s with epoll := some (setAt k fd (some (e.what.or what))) }, true) else .ok (s, false)
      | none => .ok ({ s with
          maxfd := max fd s.maxfd
          readers := if what.rd then setAt s.readers fd true else s.readers
          writers := if what.wr then setAt s.writers fd true else s.writers }, true)

/-- `io_event_create` with `backend_create_ev`, io.c:698-719.  `EPOLL_CTL_ADD` needs the descriptor
not in the set. -/
def ioCreate (s : Io) (fd : Nat) (what : Want) (cb : Nat) (room ok : Bool) : Res (Io × Bool) :=
  if s.epoll.isNone && decide (fd ≥ FD_SETSIZE) then .ok (s, false)
  else if !room then .ok (s, false)
  else
    let s := { s with events := (s.events ++ List.replicate (fd + 1 - s.events.length) ({} : IoEvent)).set fd { callback := some cb } }
    match s.epoll with
    | some k =>
      if (k fd).isNone && ok then
        .ok ({ s with epoll := some (setAt k fd (some what)), events := s.events.set fd { callback := some cb, what := what } }, true)
      else .ok (s, false)
    | none =>
      (ioAdd s fd what ok).bind (fun (s, r) =>
        .ok (if r then { s with events := s.events.set fd { callback := some cb, what := what } } else s, r))

/-- `io_event_del`, io.c:854-888. -/
def ioDel (s : Io) (fd : Nat) (what : Want) (ok : Bool) : Res (Io × Bool) :=
  match s.events[fd]? with
  | none => .fault
  | some e =>
    if !e.what.meets what then .ok (s, true)
    else
      let s := { s with events := s.events.set fd { e with what := e.what.less what } }
      match s.epoll with
      | some k => if (k fd).isSome && ok then .ok ({ s with epoll := some (setAt k fd (some (e.what.less what))) }, true) else .ok (s, false)
      | none => .ok ({ s with
          readers := if what.rd then setAt s.readers fd false else s.readers
          writers := if what.wr then setAt s.writers fd false else s.writers }, true)

/-- `io_event_setcb`, io.c:686-695. -/
def ioSetcb (s : Io) (fd cb : Nat) : Res (Io × Bool) :=
  match s.events[fd]? with
  | none => .fault
  | some e => .ok ({ s with events := s.events.set fd { e with callback := some cb } }, true)

/-- The loop of `io_close_select`, io.c:426-447: the largest descriptor in use below. -/
def lowerMax (events : List IoEvent) : Nat → Res Nat
  | 0 => .ok 0
  | n + 1 =>
    match events[n]? with
    | none => .fault
    | some e => if e.callback.isSome then .ok n else lowerMax events n

/-- `io_close`, io.c:822-851, with `io_close_select`, io.c:426-447.  The descriptor itself is closed,
too. -/
def ioClose (s : Io) (fd : Nat) : Res (Io × Bool) :=
  match s.events[fd]? with
  | none => .fault
  | some _ =>
    match s.epoll with
    | some k => .ok ({ s with epoll := some (setAt k fd none), events := s.events.set fd {} }, true)
    | none =>
      (if fd = s.maxfd then lowerMax s.events s.maxfd else .ok s.maxfd).bind (fun m =>
        .ok ({ s with readers := setAt s.readers fd false, writers := setAt s.writers fd false, maxfd := m, events := s.events.set fd {} }, true))

/-- One call, io.c:677-882. -/
def Io.call (s : Io) (c : IoCall) : Res Io :=
  (match c with
    | .create fd what cb room ok => ioCreate s fd what cb room ok
    | .add fd what ok => ioAdd s fd what ok
    | .del fd what ok => ioDel s fd what ok
    | .setcb fd cb => ioSetcb s fd cb
    | .close fd => ioClose s fd).bind (fun (t, r) => .ok { t with log := .did c r :: s.log })

/-- Calls one after another. -/
def Io.calls (s : Io) : List IoCall → Res Io
  | [] => .ok s
  | c :: cs => (s.call c).bind (fun s => s.calls cs)

/-- `io_docallback`, io.c:915-927: the callback is called, and makes the calls `prog` says after what
has happened so far. -/
def docallback (prog : List IoStep → List IoCall) (s : Io) (fd : Nat) (err : Bool) (what : Want) : Res Io :=
  match s.events[fd]? with
  | none => .fault
  | some e =>
    match e.callback with
    | none => .ok { s with log := .dropped fd :: s.log }
    | some cb =>
      let s := { s with log := .called fd cb (if err then e.what else what) :: s.log }
      s.calls (prog s.log)

/-- An event reported by `epoll_wait()`. -/
structure IoReady where
  fd : Nat
  err : Bool
  what : Want
  deriving DecidableEq, Repr

/-- `io_dispatch_epoll`, io.c:473-501, with the events reported. -/
def dispatchEpoll (prog : List IoStep → List IoCall) (s : Io) : List IoReady → Res Io
  | [] => .ok s
  | r :: rs => (docallback prog s r.fd r.err r.what).bind (fun s => dispatchEpoll prog s rs)

/-- The number of bits `select()` has set for one descriptor. -/
def bitsOf (rt wt : Nat → Bool) (i : Nat) : Nat := (if rt i then 1 else 0) + (if wt i then 1 else 0)

/-- The result of `select()`: the number of bits set for the descriptors below `n`. -/
def bitsBelow (rt wt : Nat → Bool) : Nat → Nat
  | 0 => 0
  | n + 1 => bitsBelow rt wt n + bitsOf rt wt n

/-- The loop of `io_dispatch_select`, io.c:364-400.  `steps` is a bound for its length. -/
def selectLoop (prog : List IoStep → List IoCall) (rt wt : Nat → Bool) : Nat → Nat → Int → Io → Res Io
  | 0, _, _, s => .ok s
  | steps + 1, i, left, s =>
    if i > s.maxfd then .ok s
    else
      let left := left - bitsOf rt wt i
      (if rt i || wt i then docallback prog s i false ⟨rt i, wt i⟩ else .ok s).bind (fun s =>
        if left ≤ 0 then .ok s else selectLoop prog rt wt steps (i + 1) left s)

/-- `io_dispatch_select`, io.c:364-400: `rt` and `wt` are the sets `select()` returns.  (All bits are
set at or below the largest descriptor, so the loop ends there at the latest.) -/
def dispatchSelect (prog : List IoStep → List IoCall) (s : Io) (rt wt : Nat → Bool) : Res Io :=
  let ret := bitsBelow rt wt (s.maxfd + 1)
  if ret = 0 then .ok s else selectLoop prog rt wt (s.maxfd + 1) 0 ret s

end Ngircd
