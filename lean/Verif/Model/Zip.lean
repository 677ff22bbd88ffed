import Verif.Model.ConnRead
import Verif.Model.ConnWrite

/-!
# Model of compressed server links: src/ngircd/conn-zip.c

together with the parts of src/ngircd/conn.c that use it: `Conn_Write`, `Handle_Write`, `Read_Request`,
`Handle_Buffer`, `Conn_Handler`.  zlib is a parameter: a compressor, and a decompressor that is given some
input and some room.  Not modelled: failing allocations, penalties, how requests end (all are handled), the
statistics; the last attempt to write when a connection is closed.
-/

namespace Ngircd

/-- What `inflate()` does with some input and some room: whether it returns Z_OK, its new state, how much of
the input it has used, and its output. -/
structure Inflated (I : Type) where
  ok : Bool
  st : I
  used : Nat
  out : Str

/-- zlib: the state of a compressor and of a decompressor, their initial states, `deflate()` with
Z_SYNC_FLUSH and enough room, and `inflate()`. -/
structure Zlib where
  D : Type
  I : Type
  d0 : D
  i0 : I
  deflate : D → Str → D × Str
  inflate : I → Str → Nat → Inflated I

/-! ## Output -/

/-- The parts of `CONNECTION` the output side uses, plus history: what `write()` took, and what
`Conn_Write` has accepted before and after the compression was enabled. -/
structure Tx (z : Zlib) where
  isOpen : Bool
  zip : Bool
  zwbuf : Str
  wbuf : Str
  dfl : z.D
  sent : Str
  before : List Str
  after : List Str

/-- A new connection. -/
def Tx.init (z : Zlib) : Tx z := ⟨true, false, [], [], z.d0, [], [], []⟩

/-- `Conn_Close`: the output side. -/
def Tx.close {z : Zlib} (x : Tx z) : Tx z := { x with isOpen := false, zwbuf := [], wbuf := [] }

/-- `Zip_Flush`, conn-zip.c:124-182. -/
def zipFlush {z : Zlib} (x : Tx z) : Tx z × Bool :=
  if x.zwbuf = [] then (x, true)
  else
    let r := z.deflate x.dfl x.zwbuf
    if r.2.length ≥ WRITEBUFFER_SLINK_LEN then (x.close, false)
    else ({ x with dfl := r.1, wbuf := x.wbuf ++ r.2, zwbuf := [] }, true)

/-- `Zip_Buffer`, conn-zip.c:90-114. -/
def zipBuffer {z : Zlib} (x : Tx z) (data : Str) : Tx z × Bool :=
  let r := if x.zwbuf.length + data.length ≥ WRITEBUFFER_SLINK_LEN then zipFlush x else (x, true)
  if r.2 = false then (r.1, false)
  else if r.1.zwbuf.length + data.length ≥ WRITEBUFFER_SLINK_LEN then (r.1.close, false)
  else ({ r.1 with zwbuf := r.1.zwbuf ++ data, after := r.1.after ++ [data] }, true)

/-- `Handle_Write`, conn.c:1266-1336; `w` is the result of `write()`, if it is called. -/
def zipHandleWrite {z : Zlib} (x : Tx z) (w : WRes) : Tx z × Bool :=
  if x.isOpen = false then (x, false)
  else
    let r := if x.wbuf = [] then zipFlush x else (x, true)
    if r.2 = false then (r.1, false)
    else if r.1.wbuf = [] then (r.1, true)
    else match w with
      | .again => (r.1, true)
      | .error => (r.1.close, false)
      | .wrote n => ({ r.1 with sent := r.1.sent ++ r.1.wbuf.take n, wbuf := r.1.wbuf.drop n }, true)

/-- `Conn_Write`, conn.c:948-1021; `limit` is the limit of the write buffer. -/
def zipConnWrite {z : Zlib} (x : Tx z) (data : Str) (limit : Nat) (w : WRes) : Tx z × Bool :=
  if x.isOpen = false then (x, false)
  else if x.zip then zipBuffer x data
  else
    let r := if x.wbuf.length + data.length ≥ WRITEBUFFER_FLUSH_LEN then zipHandleWrite x w else (x, true)
    if r.2 = false then (r.1, false)
    else if r.1.wbuf.length + data.length ≥ limit then (r.1.close, false)
    else ({ r.1 with wbuf := r.1.wbuf ++ data, before := r.1.before ++ [data] }, true)

/-- What can happen to the output side. -/
inductive TxEvent
  | write (data : Str) (limit : Nat) (w : WRes)
  | writable (w : WRes)
  | enable

/-- One event. -/
def Tx.step {z : Zlib} (x : Tx z) : TxEvent → Tx z
  | .write data limit w => (zipConnWrite x data limit w).1
  | .writable w => (zipHandleWrite x w).1
  | .enable => { x with zip := true }

/-- Some events. -/
def Tx.run {z : Zlib} (x : Tx z) (es : List TxEvent) : Tx z := es.foldl Tx.step x

/-! ## Input -/

/-- The parts of `CONNECTION` the input side uses, plus the log of executed lines. -/
structure Rx (z : Zlib) where
  isOpen : Bool
  zip : Bool
  rbuf : Str
  zrbuf : Str
  inf : z.I
  executed : List Str

/-- A new connection. -/
def Rx.init (z : Zlib) : Rx z := ⟨true, false, [], [], z.i0, []⟩

/-- `Conn_Close`: the input side. -/
def Rx.close {z : Zlib} (x : Rx z) : Rx z := { x with isOpen := false, rbuf := [], zrbuf := [] }

/-- `Unzip_Buffer`, conn-zip.c:193-253. -/
def unzipBuffer {z : Zlib} (x : Rx z) : Rx z × Bool :=
  if x.zrbuf = [] then (x, true)
  else
    let r := z.inflate x.inf x.zrbuf READBUFFER_LEN
    if r.ok = false then (x.close, false)
    else ({ x with inf := r.st, rbuf := x.rbuf ++ r.out, zrbuf := x.zrbuf.drop r.used }, true)

/-- What happens after a request was executed: the rest of the buffer moves to the compressed one when the
request has enabled the compression, conn.c:1851-1875. -/
def afterRequest {z : Zlib} (acts : Str → Bool) (x : Rx z) (line : Str) (len : Nat) : Rx z :=
  let rest := x.rbuf.drop len
  if x.zip = false ∧ acts line = true then
    if rest = [] then { x with rbuf := [], zip := true, executed := x.executed ++ [line] }
    else { x with rbuf := [], zrbuf := rest, zip := true, executed := x.executed ++ [line] }
  else { x with rbuf := rest, executed := x.executed ++ [line] }

/-- The loop of `Handle_Buffer`, conn.c:1722-1889; `acts` tells which request enables the compression. -/
def zipLoop {z : Zlib} (acts : Str → Bool) : Nat → Rx z → Rx z
  | 0, x => x
  | i + 1, x =>
    let r := if x.zip then unzipBuffer x else (x, true)
    if r.2 = false then r.1
    else if r.1.rbuf = [] then r.1
    else match findEol r.1.rbuf with
    | none => r.1
    | some (p, delta) =>
      if p + delta > COMMAND_LEN - 1 then r.1.close
      else if p = 0 then zipLoop acts i { r.1 with rbuf := r.1.rbuf.drop delta }
      else zipLoop acts i (afterRequest acts r.1 (r.1.rbuf.take p) (p + delta))

/-- `Read_Request`, conn.c:1595-1710. -/
def zipRead {z : Zlib} (acts : Str → Bool) (x : Rx z) (data : Str) (maxcmd : Nat) : Rx z :=
  if x.rbuf.length ≥ READBUFFER_LEN ∨ x.zrbuf.length ≥ READBUFFER_LEN then x.close
  else zipLoop acts maxcmd (if x.zip then { x with zrbuf := x.zrbuf ++ data } else { x with rbuf := x.rbuf ++ data })

/-- What can happen to the input side: `read()` gives some data, or `Conn_Handler` looks for read buffers
that are not empty; with the number of commands allowed. -/
inductive RxEvent
  | read (data : Str) (maxcmd : Nat)
  | round (maxcmd : Nat)

/-- One event; `Conn_Handler`, conn.c:666-815. -/
def Rx.step {z : Zlib} (acts : Str → Bool) (x : Rx z) : RxEvent → Rx z
  | .read data maxcmd => if x.isOpen then zipRead acts x data maxcmd else x
  | .round maxcmd => if x.isOpen ∧ x.rbuf ≠ [] then zipLoop acts maxcmd x else x

/-- Some events. -/
def Rx.run {z : Zlib} (acts : Str → Bool) (x : Rx z) (es : List RxEvent) : Rx z := es.foldl (Rx.step acts) x

end Ngircd
