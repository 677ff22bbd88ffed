import Verif.Model.ConnRead
import Verif.Model.ConnWrite

/-!
# Model of an established TLS connection

src/ngircd/conn-ssl.c (with OpenSSL) and the parts of src/ngircd/conn.c that serve such a connection:
`Conn_Handler`, `cb_clientserver`, `Read_Request`, `Handle_Write`, `Conn_Write`.  The TLS library is modelled as
follows: text arrives in records; a record without text stands for a part of one, or for one of the protocol
itself.  `SSL_read` gives text of one record at most and keeps what has no room.  `SSL_write` may write a part,
ask for input or output, or fail; after it has asked, it has to be called again with the same buffer, at the
same address, unless SSL_MODE_ACCEPT_MOVING_WRITE_BUFFER is set, which the code does not set.  Not modelled:
the handshake, requests for output by `SSL_read` (renegotiation), failing allocations, compression, the last
attempt to write when a connection is closed.
-/

namespace Ngircd

/-- The parts of `CONNECTION`, of the TLS library and of the kernel that are used, plus history: the text that
arrived, was handled, was accepted by `Conn_Write` and was sent. -/
structure Tls where
  isOpen : Bool
  wantRead : Bool
  wantWrite : Bool
  pollRead : Bool
  pollWrite : Bool
  rbuf : Str
  wbuf : Str
  addr : Nat
  cap : Nat
  kern : List Str
  held : Str
  blocked : Option (Nat × Str)
  arrived : Str
  handled : Str
  written : Str
  sent : Str

/-- After the handshake: watched for input, all buffers empty. -/
def Tls.init : Tls := ⟨true, false, false, true, false, [], [], 0, 0, [], [], none, [], [], [], []⟩

/-- `Conn_Close`. -/
def Tls.close (x : Tls) : Tls := { x with isOpen := false, rbuf := [], wbuf := [], pollRead := false, pollWrite := false }

/-- `SSL_read` with room for `READBUFFER_LEN` bytes: what is left in the kernel and in the library, and the
text, if there is any (otherwise SSL_ERROR_WANT_READ). -/
def sslRead : List Str → Str → List Str × Str × Option Str
  | [], [] => ([], [], none)
  | r :: rs, [] => if r = [] then sslRead rs [] else (rs, r.drop READBUFFER_LEN, some (r.take READBUFFER_LEN))
  | kern, held => (kern, held.drop READBUFFER_LEN, some (held.take READBUFFER_LEN))

/-- Results of `SSL_write`. -/
inductive SslW
  | wrote (n : Nat)
  | wantRead
  | wantWrite
  | failed

/-- `ConnSSL_Read`, conn-ssl.c:1250-1271, with SSL_ERROR_WANT_READ of `ConnSSL_HandleError`,
conn-ssl.c:803-883. -/
def tlsRead (x : Tls) : Tls × Option Str :=
  let r := sslRead x.kern x.held
  let y := { x with wantRead := false, wantWrite := false, kern := r.1, held := r.2.1 }
  match r.2.2 with
  | some d => (y, some d)
  | none => ({ y with pollWrite := false, wantRead := true }, none)

/-- `Read_Request`, conn.c:1595-1710; `k` tells how many bytes `Handle_Buffer` handles. -/
def tlsReadRequest (x : Tls) (k : Nat) : Tls :=
  if x.isOpen = false then x
  else if x.rbuf.length ≥ READBUFFER_LEN then x.close
  else
    let r := tlsRead x
    match r.2 with
    | none => r.1
    | some d => { r.1 with handled := x.handled ++ (x.rbuf ++ d).take k, rbuf := (x.rbuf ++ d).drop k }

/-- `SSL_write` has to be called again, with another buffer. -/
def badRetry (x : Tls) : Bool :=
  match x.blocked with
  | some (a, d) => a != x.addr || decide (x.wbuf.length < d.length)
  | none => false

/-- `ConnSSL_Write`, conn-ssl.c:1228-1246, and `ConnSSL_HandleError`, conn-ssl.c:803-883: what `SSL_write` does
is `w`, unless it has to be called with another buffer, which is an error ("bad write retry"). -/
def tlsWrite (x : Tls) (w : SslW) : Tls :=
  let y := { x with wantRead := false, wantWrite := false }
  if badRetry x then y.close
  else match w with
    | .failed => y.close
    | .wantRead => { y with pollWrite := false, wantRead := true, blocked := some (x.addr, x.wbuf) }
    | .wantWrite => { y with pollRead := false, wantWrite := true, blocked := some (x.addr, x.wbuf) }
    | .wrote n => { y with blocked := none, sent := x.sent ++ x.wbuf.take n, wbuf := x.wbuf.drop n }

/-- `Handle_Write`, conn.c:1266-1336. -/
def tlsHandleWrite (x : Tls) (w : SslW) : Tls :=
  if x.isOpen = false then x
  else if x.wbuf = [] then { x with pollWrite := false }
  else tlsWrite x w

/-- `Conn_Write`, conn.c:948-1021, and `array_catb`, array.c:142-179: `moved` is the address `realloc()` gives,
if it is called. -/
def tlsConnWrite (x : Tls) (data : Str) (limit : Nat) (w : SslW) (moved : Nat) : Tls :=
  if x.isOpen = false then x
  else
    let y := if x.wbuf.length + data.length ≥ WRITEBUFFER_FLUSH_LEN then tlsHandleWrite x w else x
    if y.isOpen = false then y
    else if y.wbuf.length + data.length ≥ limit then y.close
    else
      let need := y.wbuf.length + data.length + 1
      let z := if y.cap < need then { y with addr := moved, cap := need } else y
      { z with wbuf := y.wbuf ++ data, written := y.written ++ data }

/-- `cb_clientserver`, conn.c:279-302: called when the socket is ready for what it is watched for; `can` tells
whether output is possible. -/
def tlsReady (x : Tls) (can : Bool) (w : SslW) (k : Nat) : Tls :=
  if x.isOpen = false then x
  else
    let rd := x.pollRead && !x.kern.isEmpty
    let wr := x.pollWrite && can
    if rd = false ∧ wr = false then x
    else
      let y := if rd || x.wantWrite then tlsReadRequest x k else x
      if wr then tlsHandleWrite y w else y

/-- `Conn_Handler`, conn.c:666-815: `Handle_Buffer` handles `k` bytes. -/
def tlsHandle (x : Tls) (k : Nat) : Tls :=
  if x.rbuf = [] then x else { x with handled := x.handled ++ x.rbuf.take k, rbuf := x.rbuf.drop k }

/-- `Conn_Handler`, conn.c:666-815, and `SSL_WantRead`, conn.c:2650-2658: watch for output. -/
def tlsWatchOut (x : Tls) : Tls :=
  if x.wbuf = [] then x else if x.wantRead then { x with pollRead := true } else { x with pollWrite := true }

/-- `Conn_Handler`, conn.c:666-815, and `SSL_WantWrite`, conn.c:2668-2676: watch for input. -/
def tlsWatchIn (x : Tls) (penalty : Bool) : Tls :=
  if x.wantWrite then { x with pollWrite := true }
  else if penalty then { x with pollRead := false }
  else if x.rbuf.length ≥ COMMAND_LEN then { x with pollRead := false }
  else { x with pollRead := true }

/-- One turn of `Conn_Handler`, conn.c:666-815, up to `io_dispatch`; `penalty` tells whether there is a penalty
time. -/
def tlsRound (x : Tls) (penalty : Bool) (k : Nat) : Tls :=
  if x.isOpen = false then x else tlsWatchIn (tlsWatchOut (tlsHandle x k)) penalty

/-- What can happen. -/
inductive TlsEvent
  | arrive (record : Str)
  | write (data : Str) (limit : Nat) (w : SslW) (moved : Nat)
  | ready (can : Bool) (w : SslW) (k : Nat)
  | round (penalty : Bool) (k : Nat)

/-- One event. -/
def Tls.step (x : Tls) : TlsEvent → Tls
  | .arrive r => { x with kern := x.kern ++ [r], arrived := x.arrived ++ r }
  | .write data limit w moved => tlsConnWrite x data limit w moved
  | .ready can w k => tlsReady x can w k
  | .round penalty k => tlsRound x penalty k

/-- Some events. -/
def Tls.run (x : Tls) (es : List TlsEvent) : Tls := es.foldl Tls.step x

end Ngircd
