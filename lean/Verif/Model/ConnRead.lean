import Verif.Model.Array

/-!
# Model of the input side of a connection

src/ngircd/conn.c: `Read_Request` (1596-1710), `Handle_Buffer` (1723-1889) and the
scheduling of reads in `Conn_Handler` (691-764); src/ngircd/conn-func.c: `Conn_SetPenalty`.

The read buffer is represented by its content (see C34 for the byte-buffer refinement;
allocation failures, which close the connection, are covered by the `close` operation).
`Parse_Request` is an arbitrary function `H` of the requests executed before and of the
current line: it says how the handler ends and which penalties it adds.
Not modelled: ZLIB, SSL.
-/

namespace Ngircd

/-- `READBUFFER_LEN`, defines.h. -/
def READBUFFER_LEN : Nat := 2048

/-- How `Parse_Request` ends. -/
inductive Outcome
  /-- returns `true` -/
  | ok
  /-- returns `false`, the connection has been closed (the case the comment at conn.c:1852
  assumes) -/
  | closed
  /-- returns `false` although this connection is still open: handlers return the result of
  writing to *another* connection, e.g. irc.c:736-739 returns DISCONNECTED to the sender
  when writing to the target's connection failed -/
  | failedOpen
  deriving DecidableEq

/-- Reaction of the request handler to a line: how it ends, and the list of penalties
(seconds) added through `Conn_SetPenalty`. -/
structure Reaction where
  outcome : Outcome
  penalties : List Nat

/-- The parts of `CONNECTION` (conn.h) the input side uses, plus the log of executed lines. -/
structure RConn where
  isOpen : Bool := true
  rbuf : Str := []
  delaytime : Nat := 0
  /-- history: the lines handed to `Parse_Request` -/
  executed : List Str := []

/-- Static parameters: the request handler, the clients exempt from throttling, and
`Conf_MaxPenaltyTime` (`none` = -1). -/
structure REnv where
  H : List Str → Str → Reaction
  exempt : Bool
  maxPenalty : Option Nat

/-- `Conn_SetPenalty`, conn-func.c:94-120, on the `delaytime` field; `t` is `time(NULL)`. -/
def setPenalty (maxPenalty : Option Nat) (delay t seconds : Nat) : Nat :=
  let s := match maxPenalty with
    | none => seconds
    | some m => if seconds > m ∧ seconds < 10 then m else seconds
  let d := if delay < t then t else delay
  d + s

/-- Several penalties in a row. -/
def addPenalties (maxPenalty : Option Nat) (delay t : Nat) (ps : List Nat) : Nat :=
  ps.foldl (fun d s => setPenalty maxPenalty d t s) delay

/-- `Throttle_Connection`, conn.c:2481-2501. -/
def throttle (e : REnv) (c : RConn) (t : Nat) : RConn :=
  if e.exempt then c else { c with delaytime := setPenalty e.maxPenalty c.delaytime t 1 }

/-- Index of the first `x`, `strchr`. -/
def idx (s : Str) (x : Char) : Option Nat :=
  match s with
  | [] => none
  | c :: cs => if c == x then some 0 else (idx cs x).map (· + 1)

/-- Index of the first CR LF, `strstr(.., "\r\n")`. -/
def idxCrLf : Str → Option Nat
  | [] => none
  | [_] => none
  | a :: b :: cs =>
    if a == '\r' && b == '\n' then some 0 else (idxCrLf (b :: cs)).map (· + 1)

/-- The search for the end of the first request, conn.c:1779-1816: the position of the
terminator and its length.  C string functions stop at the first NUL byte. -/
def findEol (rbuf : Str) : Option (Nat × Nat) :=
  let s := rbuf.takeWhile (fun c => c != '\x00')
  let ptr := idxCrLf s
  let ptr1 := idx s '\r'
  let ptr2 := idx s '\n'
  match ptr with
  | some p =>
    match ptr1, ptr2 with
    | some a, some b =>
      let firstEol := if a < b then a else b
      if firstEol < p then some (firstEol, 1) else some (p, 2)
    | _, _ => some (p, 2)         -- unreachable: a CR LF contains both
  | none =>
    match ptr1, ptr2 with
    | some a, some b => some (if a < b then a else b, 1)
    | some a, none => some (a, 1)
    | none, some b => some (b, 1)
    | none, none => none

/-- `Conn_Close`: only the input side. -/
def RConn.close (c : RConn) : RConn := { c with isOpen := false, rbuf := [] }

/-- The command loop of `Handle_Buffer`, conn.c:1722-1889.  `starttime` is the clock at entry,
`t` the clock when penalties are added; the last component is `len_processed`, or `none`
when the function has returned early (conn.c:1764, 1834, 1852). -/
def handleLoop (e : REnv) (starttime t : Nat) : Nat → RConn → Nat → RConn × Option Nat
  | 0, c, n => (c, some n)
  | i + 1, c, n =>
    if c.delaytime > starttime then (c, none)
    else if c.rbuf = [] then (c, some n)
    else match findEol c.rbuf with
    | none => (c, some n)
    | some (p, delta) =>
      let len := p + delta
      if len > COMMAND_LEN - 1 then (c.close, none)
      else if len ≤ delta then
        handleLoop e starttime t i { c with rbuf := c.rbuf.drop len } (n + len)
      else
        let line := c.rbuf.take p
        let r := e.H c.executed line
        let c' := { c with executed := c.executed ++ [line],
                           delaytime := addPenalties e.maxPenalty c.delaytime t r.penalties }
        match r.outcome with
        | .ok => handleLoop e starttime t i { c' with rbuf := c.rbuf.drop len } (n + len)
        | .closed => (c'.close, none)
        -- the line, NUL-terminated at conn.c:1822, stays at the head of the buffer.
        -- Simplification: the further NULs Parse_Request writes inside it are not shown.
        | .failedOpen => ({ c' with rbuf := c.rbuf.set p '\x00' }, none)

/-- `Handle_Buffer`, conn.c:1722-1889 (with the throttling at its end, conn.c:1885-1886).
Called for open connections only (conn.c:691-698, 1682); `maxcmd` depends on the client
type (conn.c:1742-1759).  Result: the number of bytes processed. -/
def handleBuffer (e : REnv) (c : RConn) (maxcmd starttime t : Nat) : RConn × Nat :=
  match handleLoop e starttime t maxcmd c 0 with
  | (c', none) => (c', 0)
  | (c', some n) =>
    if n ≠ 0 ∧ c'.rbuf.length > 2 then (throttle e c' t, n) else (c', n)

/-- `Read_Request`, conn.c:1595-1710, for a `read()` returning the non-empty chunk `data`;
`bps` tells whether the bytes-per-second limit triggers (conn.c:1708-1709). -/
def readRequest (e : REnv) (c : RConn) (data : Str) (maxcmd starttime t : Nat) (bps : Bool) : RConn :=
  if c.rbuf.length ≥ READBUFFER_LEN then c.close
  else
    let r := handleBuffer e { c with rbuf := c.rbuf ++ data } maxcmd starttime t
    if r.1.isOpen && bps then throttle e r.1 t else r.1

/-- Events of the main loop concerning one connection. -/
inductive REvent
  /-- the socket is readable and delivers `data`, conn.c:717-764 -/
  | readable (data : Str) (maxcmd now t : Nat) (bps : Bool)
  /-- the periodic handling of non-empty read buffers, conn.c:691-698 -/
  | handle (maxcmd now t : Nat)
  /-- the connection gets closed for any other reason -/
  | close

/-- One event.  Data is read only when the connection has no penalty and less than
`COMMAND_LEN` bytes are buffered (conn.c:744-761). -/
def RConn.step (e : REnv) (c : RConn) (ev : REvent) : RConn :=
  if c.isOpen = false then c
  else match ev with
  | .readable data maxcmd now t bps =>
    if c.delaytime > now ∨ c.rbuf.length ≥ COMMAND_LEN then c
    else readRequest e c data maxcmd now t bps
  | .handle maxcmd now t =>
    if c.rbuf.length > 0 then (handleBuffer e c maxcmd now t).1 else c
  | .close => c.close

/-- The data actually taken from the network by an event. -/
def RConn.received (c : RConn) (ev : REvent) : Str :=
  match ev with
  | .readable data _ now _ _ =>
    if c.isOpen = false ∨ c.delaytime > now ∨ c.rbuf.length ≥ COMMAND_LEN then [] else data
  | _ => []

/-- Run events, collecting the received byte stream. -/
def RConn.run (e : REnv) (c : RConn) : List REvent → RConn × Str
  | [] => (c, [])
  | ev :: evs =>
    let r := (c.step e ev).run e evs
    (r.1, c.received ev ++ r.2)

end Ngircd
