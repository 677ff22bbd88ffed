import Verif.Model.Str

/-!
# Model of the signal handling: src/ngircd/sighandlers.c

The process has a signal mask, pending signals, and a stack of running signal handlers.  A handler runs
with its own signal added to the mask (`sigaction()` with an empty `sa_mask`), can be interrupted by
handlers of other signals, and on its return the mask is put back to what it was when it was entered
(POSIX).  `Signal_Handler` writes to a pipe; the main program, only when no handler runs, reads this pipe
in the callback `Signal_Callback`.  Not modelled: the fork of children, `read()` interrupted (the handlers
are installed with SA_RESTART, the pipe does not block), what a rehash does (`Model/ConfFile`,
`Model/Events`), the log messages, the service manager.
-/

namespace Ngircd

/-- The signals of `signals_catch`, sighandlers.c:45-47. -/
inductive Sig
  | int
  | quit
  | term
  | hup
  | chld
  | usr1
  | usr2
  deriving DecidableEq, Repr

/-- Where a running handler is: at its start, after the `write()`, before its return. -/
inductive HandlerAt
  | start
  | wrote
  | leave
  deriving DecidableEq, Repr

/-- A running handler, with the mask that is restored on its return. -/
structure HFrame where
  sig : Sig
  at_ : HandlerAt
  saved : Sig → Bool

/-- Where the main program is: somewhere else, in the loop of `Signal_Callback`, or in
`Signal_Handler_BH` before `Signal_Unblock`. -/
inductive MainAt
  | elsewhere
  | reading
  | handling (s : Sig)
  deriving DecidableEq, Repr

/-- The process. -/
structure SigState where
  pending : Sig → Bool
  mask : Sig → Bool
  frames : List HFrame
  /-- the content of the pipe, and how many entries it takes -/
  pipe : List Sig
  cap : Nat
  main : MainAt
  /-- `NGIRCd_SignalQuit` and `NGIRCd_Debug` -/
  quit : Bool
  debug : Bool
  /-- what `Signal_Handler_BH` was called with, newest first, and whether the debug mode was on -/
  done : List (Sig × Bool)

/-- What happens next. -/
inductive SigEvent
  /-- somebody sends a signal -/
  | raise (s : Sig)
  /-- the kernel delivers a pending signal -/
  | deliver (s : Sig)
  /-- the innermost handler goes on -/
  | handler
  /-- the main program goes on -/
  | main
  deriving DecidableEq, Repr

/-- Set one place. -/
def setSig (f : Sig → Bool) (s : Sig) (b : Bool) : Sig → Bool := fun t => if t = s then b else f t

/-- The kernel: a signal is pending (once). -/
def SigState.raise (x : SigState) (s : Sig) : SigState := { x with pending := setSig x.pending s true }

/-- The kernel delivers a signal that is pending and not blocked: its handler is entered, with the signal
itself blocked (`Signals_Init`, sighandlers.c:277-319). -/
def SigState.deliver (x : SigState) (s : Sig) : SigState :=
  if x.pending s && !x.mask s then
    { x with pending := setSig x.pending s false, frames := ⟨s, .start, x.mask⟩ :: x.frames, mask := setSig x.mask s true }
  else x

/-- `Signal_Handler` at its start, sighandlers.c:161-215: quit, toggle the debug mode, or queue the signal. -/
def SigState.handle (x : SigState) (f : HFrame) (fs : List HFrame) : SigState :=
  match f.sig with
  | .term | .int | .quit => { x with quit := true, frames := { f with at_ := .leave } :: fs }
  | .chld => { x with frames := { f with at_ := .leave } :: fs }
  | .usr1 => { x with debug := !x.debug, frames := { f with at_ := .leave } :: fs }
  | .hup | .usr2 =>
    if x.pipe.length < x.cap then
      { x with pipe := x.pipe ++ [f.sig], frames := { f with at_ := .wrote } :: fs }
    else { x with frames := { f with at_ := .leave } :: fs }

/-- The innermost handler goes on: `Signal_Handler`, sighandlers.c:161-215; `Signal_Block`,
sighandlers.c:67-80; return from the handler. -/
def SigState.handler (x : SigState) : SigState :=
  match x.frames with
  | [] => x
  | f :: fs =>
    match f.at_ with
    | .start => x.handle f fs
    | .wrote => { x with mask := setSig x.mask f.sig true, frames := { f with at_ := .leave } :: fs }
    | .leave => { x with mask := f.saved, frames := fs }

/-- The main program goes on: `Signal_Callback`, sighandlers.c:247-270, `Signal_Handler_BH`,
sighandlers.c:226-245, `Signal_Unblock`, sighandlers.c:82-96. -/
def SigState.mainStep (x : SigState) : SigState :=
  if x.frames.isEmpty then
    match x.main with
    | .elsewhere => if x.pipe.isEmpty then x else { x with main := .reading }
    | .reading =>
      match x.pipe with
      | [] => { x with main := .elsewhere }
      | s :: rest => { x with pipe := rest, main := .handling s, done := (s, x.debug) :: x.done }
    | .handling s => { x with mask := setSig x.mask s false, main := .reading }
  else x

/-- One event. -/
def SigState.step (x : SigState) : SigEvent → SigState
  | .raise s => x.raise s
  | .deliver s => x.deliver s
  | .handler => x.handler
  | .main => x.mainStep

/-- A sequence of events. -/
def SigState.run (x : SigState) (es : List SigEvent) : SigState := es.foldl SigState.step x

/-- The process after `Signals_Init`, sighandlers.c:277-319. -/
def SigState.init (cap : Nat) (debug : Bool) : SigState :=
  ⟨fun _ => false, fun _ => false, [], [], cap, .elsewhere, false, debug, []⟩

end Ngircd
