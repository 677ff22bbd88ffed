import Verif.Model.Str

/-!
# Model of the output side of a connection

src/ngircd/conn.c: `Conn_WriteStr` (835-911), `Conn_Write` (949-1021), `Handle_Write`
(1267-1336) and the output part of `Conn_Close` (1045-1180).

Oracles: `write` gives the result of the n-th call of write(2) on this socket, `alloc` the
outcome of the n-th growth of the write buffer.  Not modelled: ZLIB, SSL, ICONV, the
statistics counters, and `vsnprintf` returning -1 (glibc before 2.1): the formatted text is
the argument of `connWriteStr`.
-/

namespace Ngircd

/-- `WRITEBUFFER_FLUSH_LEN`, `WRITEBUFFER_MAX_LEN`, `WRITEBUFFER_SLINK_LEN`, defines.h. -/
def WRITEBUFFER_FLUSH_LEN : Nat := 4096
def WRITEBUFFER_MAX_LEN : Nat := 32768
def WRITEBUFFER_SLINK_LEN : Nat := 65536

/-- `CUT_TXTSUFFIX`, defines.h. -/
def CUT_TXTSUFFIX : Str := "[CUT]".toList

/-- The buffer `Conn_WriteStr` hands to `Conn_Write`, conn.c:948-1021: `vsnprintf` with room
for `COMMAND_LEN - 2` bytes (terminator included), the cut mark written at offset
`sizeof(buffer) - strlen(CUT) - 3`, then CR LF appended with `strlcat`. -/
def formatLine (text : Str) : Str :=
  let buffer := text.take (COMMAND_LEN - 3)
  let buffer :=
    if text.length ≥ COMMAND_LEN - 2 then
      buffer.take (COMMAND_LEN - CUT_TXTSUFFIX.length - 2 - 1) ++ CUT_TXTSUFFIX
    else buffer
  strlcat COMMAND_LEN buffer "\r\n".toList

/-- Result of write(2). -/
inductive WRes
  /-- that many bytes were taken (the kernel takes at most what it was offered) -/
  | wrote (n : Nat)
  /-- EAGAIN or EINTR -/
  | again
  /-- any other error -/
  | error

/-- The environment: results of the successive write(2) calls and buffer allocations. -/
structure WEnv where
  write : Nat → WRes
  alloc : Nat → Bool

/-- The parts of `CONNECTION` the output side uses, plus history. -/
structure WConn where
  isOpen : Bool := true
  /-- client type is CLIENT_SERVER -/
  isServer : Bool := false
  wbuf : Str := []
  /-- history: bytes taken by write(2) -/
  sent : Str := []
  /-- history: messages `Conn_Write` has accepted (returned true for) -/
  accepted : List Str := []
  /-- number of write(2) calls so far -/
  calls : Nat := 0
  /-- number of allocations so far -/
  allocs : Nat := 0

/-- `writebuf_limit`, conn.c:952, 968-975. -/
def WConn.writeLimit (c : WConn) : Nat :=
  if c.isServer then WRITEBUFFER_SLINK_LEN else WRITEBUFFER_MAX_LEN

/-- `Handle_Write` as called while the connection is being closed (`CONN_ISCLOSING` set):
an error is only reported. -/
def handleWriteClosing (e : WEnv) (c : WConn) : WConn × Bool :=
  if c.isOpen = false then (c, false)
  else if c.wbuf = [] then (c, true)
  else match e.write c.calls with
    | .again => ({ c with calls := c.calls + 1 }, true)
    | .error => ({ c with calls := c.calls + 1 }, false)
    | .wrote n =>
      -- write() never returns more than it was given
      let n := min n c.wbuf.length
      ({ c with calls := c.calls + 1, sent := c.sent ++ c.wbuf.take n, wbuf := c.wbuf.drop n }, true)

/-- `Conn_Write` while the connection is being closed: the calls of `Conn_Close` at its
limits return at once because of `CONN_ISCLOSING` (conn.c:1050-1056). -/
def connWriteClosing (e : WEnv) (c : WConn) (data : Str) : WConn :=
  if c.isOpen = false then c
  else
    let limit := c.writeLimit
    let (c, ok) := if c.wbuf.length + data.length ≥ WRITEBUFFER_FLUSH_LEN then handleWriteClosing e c
      else (c, true)
    if ok = false then c
    else if c.wbuf.length + data.length ≥ limit then c
    else if e.alloc c.allocs = false then { c with allocs := c.allocs + 1 }
    else { c with allocs := c.allocs + 1, wbuf := c.wbuf ++ data, accepted := c.accepted ++ [data] }

/-- `Conn_Close`, conn.c:1034-1181, output part: the farewell messages `msgs` (empty unless
the client is to be informed), a last attempt to flush, then the socket is gone. -/
def wConnClose (e : WEnv) (c : WConn) (msgs : List Str) : WConn :=
  let c := msgs.foldl (fun c m => connWriteClosing e c (formatLine m)) c
  let c := (handleWriteClosing e c).1
  { c with isOpen := false, wbuf := [] }

/-- `Handle_Write`, conn.c:1266-1336. -/
def handleWrite (e : WEnv) (c : WConn) : WConn × Bool :=
  if c.isOpen = false then (c, false)
  else if c.wbuf = [] then (c, true)
  else match e.write c.calls with
    | .again => ({ c with calls := c.calls + 1 }, true)
    | .error => (wConnClose e { c with calls := c.calls + 1 } [], false)
    | .wrote n =>
      let n := min n c.wbuf.length
      ({ c with calls := c.calls + 1, sent := c.sent ++ c.wbuf.take n, wbuf := c.wbuf.drop n }, true)

/-- `Conn_Write`, conn.c:948-1021. -/
def connWrite (e : WEnv) (c : WConn) (data : Str) : WConn × Bool :=
  if c.isOpen = false then (c, false)
  else
    let limit := c.writeLimit
    let (c, ok) := if c.wbuf.length + data.length ≥ WRITEBUFFER_FLUSH_LEN then handleWrite e c
      else (c, true)
    if ok = false then (c, false)
    else if c.wbuf.length + data.length ≥ limit then (wConnClose e c [], false)
    else if e.alloc c.allocs = false then ({ c with allocs := c.allocs + 1 }, false)
    else ({ c with allocs := c.allocs + 1, wbuf := c.wbuf ++ data, accepted := c.accepted ++ [data] }, true)

/-- `Conn_WriteStr`, conn.c:829-913; `text` is the formatted message. -/
def connWriteStr (e : WEnv) (c : WConn) (text : Str) : WConn × Bool :=
  connWrite e c (formatLine text)

/-- What can happen to the output side. -/
inductive WEvent
  /-- the server sends a message -/
  | send (text : Str)
  /-- the socket is writable (`cb_clientserver`) -/
  | writable
  /-- the connection becomes a server link -/
  | becomeServer
  /-- the connection is closed, with farewell messages -/
  | close (msgs : List Str)

/-- One event. -/
def WConn.step (e : WEnv) (c : WConn) : WEvent → WConn
  | .send text => (connWriteStr e c text).1
  | .writable => (handleWrite e c).1
  | .becomeServer => { c with isServer := true }
  | .close msgs => if c.isOpen then wConnClose e c msgs else c

/-- A history. -/
def WConn.run (e : WEnv) (c : WConn) (evs : List WEvent) : WConn := evs.foldl (WConn.step e) c

end Ngircd
