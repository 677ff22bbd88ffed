import Verif.Model.ConnWrite
import Verif.Model.Array

/-!
# Model of src/ngircd/conn-encoding.c and of the code that uses it (builds with `ICONV`)

Modelled are the handles of the connections, the static buffer of the converter, the command CHARCONV,
the conversion of outgoing lines in `Conn_WriteStr` and of incoming messages in `Send_Message`.
`iconv()` is a parameter: what it does with a text, given the two encodings of its handle (shift states
are not modelled).  Whether `iconv_open()` succeeds is a parameter of each call.  A line is the text
`vsnprintf()` has made.  Not modelled: log messages, and the sockets behind the connections.
-/

namespace Ngircd

/-- What `iconv()` reports: no error, the number of bytes it has read, the bytes it has written. -/
structure IconvRes where
  ok : Bool
  used : Nat
  out : Str
  deriving DecidableEq, Repr

/-- `iconv()`: target and source encoding, and the text. -/
abbrev Iconv := Str → Str → Str → IconvRes

/-- `iconv_from` and `iconv_to` of a connection, conn.h:104-105: numbers of handles. -/
structure EncConn where
  frm : Option Nat := none
  to : Option Nat := none
  deriving DecidableEq, Repr

/-- The state: the connections, the open handles with their encodings (target, source), the number of
the next handle, and `Encoding_Buffer`, conn-encoding.c:35. -/
structure Enc where
  conns : Nat → EncConn := fun _ => {}
  handles : Nat → Option (Str × Str) := fun _ => none
  next : Nat := 0
  buf : Str := []

/-- Change a table in one place. -/
def putAt {α} (f : Nat → α) (n : Nat) (a : α) : Nat → α := fun m => if m = n then a else f m

/-- `iconv_open()`, if it succeeds. -/
def Enc.opens (s : Enc) (target source : Str) : Enc × Nat :=
  ({ s with handles := putAt s.handles s.next (some (target, source)), next := s.next + 1 }, s.next)

/-- `iconv_close()`: of a handle that is not open it is undefined. -/
def Enc.closes (s : Enc) (h : Option Nat) : Res Enc :=
  match h with
  | none => .ok s
  | some h => if (s.handles h).isSome then .ok { s with handles := putAt s.handles h none } else .fault

/-- `Conn_UnsetEncoding`, conn-encoding.c:83-97. -/
def unsetEncoding (s : Enc) (i : Nat) : Res Enc :=
  (s.closes (s.conns i).frm).bind (fun s =>
    (s.closes (s.conns i).to).bind (fun s => .ok { s with conns := putAt s.conns i {} }))

/-- The name given to `iconv_open()`, conn-encoding.c:60-61: a buffer of 25 bytes. -/
def iconvName (enc : Str) : Str := strlcpy 25 (enc ++ "//TRANSLIT".toList)

/-- `Conn_SetEncoding`, conn-encoding.c:45-76.  `ok1` and `ok2`: the handles can be opened. -/
def setEncoding (s : Enc) (i : Nat) (enc : Str) (ok1 ok2 : Bool) : Res (Enc × Bool) :=
  (unsetEncoding s i).bind (fun s =>
    if caseEq enc "UTF-8".toList then .ok (s, true)
    else if !ok1 then (unsetEncoding s i).bind (fun s => .ok (s, false))
    else
      let (s, h) := s.opens (iconvName "UTF-8".toList) (iconvName enc)
      let s := { s with conns := putAt s.conns i { s.conns i with frm := some h } }
      if !ok2 then (unsetEncoding s i).bind (fun s => .ok (s, false))
      else
        let (s, h) := s.opens (iconvName enc) (iconvName "UTF-8".toList)
        .ok ({ s with conns := putAt s.conns i { s.conns i with to := some h } }, true))

/-- `IRC_CHARCONV`, irc-encoding.c:41-58: the reply is RPL (`true`) or ERR. -/
def ircCHARCONV (s : Enc) (i : Nat) (arg : Str) (ok1 ok2 : Bool) : Res (Enc × Bool) :=
  setEncoding s i (upperStr (strlcpy 20 arg)) ok1 ok2

/-- What `Conn_Close` and `Init_Conn_Struct` do with the handles, conn.c:1036-1186, 2136-2152: they
are forgotten. -/
def closeEncoding (s : Enc) (i : Nat) : Enc := { s with conns := putAt s.conns i {} }

/-- `Convert_Message`, conn-encoding.c:110-130.  `iconv()` writes at most `COMMAND_LEN - 1` bytes;
after an error the rest of the text is copied behind them, as if there were `COMMAND_LEN` bytes left:
bytes behind the end of the buffer are a fault. -/
def convertMessage (conv : Iconv) (s : Enc) (h : Nat) (text : Str) : Res Enc :=
  match s.handles h with
  | none => .fault
  | some (target, source) =>
    let r := conv target source text
    let out := r.out.take (COMMAND_LEN - 1)
    if r.ok then .ok { s with buf := cutAt out '\x00' }
    else
      let rest := strlcpy COMMAND_LEN (text.drop r.used)
      if out.length + rest.length + 1 > COMMAND_LEN then .fault
      else .ok { s with buf := cutAt (out ++ rest) '\x00' }

/-- The text in the buffer of `Conn_WriteStr` before the conversion, conn.c:858-889. -/
def cutText (text : Str) : Str :=
  if text.length ≥ COMMAND_LEN - 2 then
    (text.take (COMMAND_LEN - 3)).take (COMMAND_LEN - CUT_TXTSUFFIX.length - 2 - 1) ++ CUT_TXTSUFFIX
  else text

/-- Where the message of a line begins, conn.c:893-895: behind the first colon that is not the first
character.  An empty line is read behind its end. -/
def splitMessage : Str → Res (Option (Str × Str))
  | [] => .fault
  | c :: cs => match strchr cs ':' with
    | none => .ok none
    | some r => .ok (some (c :: cutAt cs ':' ++ [':'], r.drop 1))

/-- The end of `Conn_WriteStr`, conn.c:829-913: CR LF is appended and as many bytes are written as
`strlcat()` returns; bytes behind the end of the buffer are a fault. -/
def finishLine (buffer : Str) : Res Str :=
  if buffer.length + 2 > COMMAND_LEN then .fault
  else .ok (strlcat COMMAND_LEN buffer "\r\n".toList ++
    List.replicate (buffer.length + 2 - (strlcat COMMAND_LEN buffer "\r\n".toList).length) '\x00')

/-- `Conn_WriteStr`, conn.c:829-913: the bytes handed to `Conn_Write`. -/
def writeEncoded (conv : Iconv) (s : Enc) (i : Nat) (text : Str) : Res (Enc × Str) :=
  (splitMessage (cutText text)).bind (fun p =>
    match p, (s.conns i).to with
    | some (head, msg), some h =>
      (convertMessage conv s h msg).bind (fun s =>
        (finishLine (head ++ strlcpy (COMMAND_LEN - head.length) s.buf)).bind (fun l => .ok (s, l)))
    | _, _ => (finishLine (cutText text)).bind (fun l => .ok (s, l)))

/-- A line for several connections: everything in front of the message, and the connections. -/
structure Batch where
  head : Str
  conns : List Nat
  deriving DecidableEq, Repr

/-- The lines of one batch, irc-write.c:209-266: the text is made once. -/
def writeBatch (conv : Iconv) (text : Str) : Enc → List Nat → Res (Enc × List (Nat × Str))
  | s, [] => .ok (s, [])
  | s, i :: is =>
    (writeEncoded conv s i text).bind (fun (s, l) =>
      (writeBatch conv text s is).bind (fun (s, ls) => .ok (s, (i, l) :: ls)))

/-- The loop over the targets in `Send_Message`, irc.c:526-777.  `message = none`: it points to the
static buffer, irc.c:570. -/
def writeBatches (conv : Iconv) (message : Option Str) : Enc → List Batch → Res (Enc × List (Nat × Str))
  | s, [] => .ok (s, [])
  | s, b :: bs =>
    (writeBatch conv (b.head ++ message.getD s.buf) s b.conns).bind (fun (s, ls) =>
      (writeBatches conv message s bs).bind (fun (s, ls') => .ok (s, ls ++ ls')))

/-- `Send_Message`, irc.c:526-777: what is done with the message of a client on connection `i`;
`batches` are the lines made of it, which the receivers determine. -/
def sendEncoded (conv : Iconv) (s : Enc) (i : Nat) (text : Str) (batches : List Batch) :
    Res (Enc × List (Nat × Str)) :=
  match (s.conns i).frm with
  | none => writeBatches conv (some text) s batches
  | some h => (convertMessage conv s h text).bind (fun s => writeBatches conv none s batches)

/-- What can happen. -/
inductive EncEvent
  | charconv (i : Nat) (arg : Str) (ok1 ok2 : Bool)
  | close (i : Nat)
  | write (i : Nat) (text : Str)
  | message (i : Nat) (text : Str) (batches : List Batch)

/-- One event, conn-encoding.c. -/
def Enc.step (conv : Iconv) (s : Enc) : EncEvent → Res Enc
  | .charconv i arg ok1 ok2 => (ircCHARCONV s i arg ok1 ok2).bind (fun r => .ok r.1)
  | .close i => .ok (closeEncoding s i)
  | .write i text => (writeEncoded conv s i text).bind (fun r => .ok r.1)
  | .message i text bs => (sendEncoded conv s i text bs).bind (fun r => .ok r.1)

/-- A history, from the start of the server. -/
def Enc.runs (conv : Iconv) : Enc → List EncEvent → Res Enc
  | s, [] => .ok s
  | s, e :: es => (s.step conv e).bind (fun s => s.runs conv es)

end Ngircd
