import Verif.Model.Encoding

/-! # Vocabulary for C94 and C95: character encodings of connections -/

namespace Ngircd.Spec

/-- A state of the server, after any history of events since its start. -/
def EncReachable (conv : Iconv) (s : Enc) : Prop := ∃ es, Enc.runs conv {} es = .ok s

/-- The encoding used inside the server, as the C library is told. -/
def UTF8 : Str := "UTF-8//TRANSLIT".toList

/-- The encoding lines for a connection are converted to; `none`: they are not converted. -/
def speaks (s : Enc) (i : Nat) : Option Str := ((s.conns i).to.bind s.handles).map Prod.fst

/-- The encoding asked for with CHARCONV: 19 bytes, in upper case, and what the C library is told. -/
def asked (arg : Str) : Str := upperStr (arg.take 19)
def askedName (arg : Str) : Str := (asked arg ++ "//TRANSLIT".toList).take 24

/-- The text after a conversion; from the first error on it is left as it is. -/
def converted (conv : Iconv) (target source text : Str) : Str :=
  let r := conv target source text
  if r.ok then r.out else r.out ++ text.drop r.used

/-- The message of a line begins behind the first colon that is not the first character. -/
def messageAt (line : Str) : Option Nat :=
  if ':' ∈ line.drop 1 then some ((line.drop 1).idxOf ':' + 2) else none

/-- The bytes a connection gets for a line: the message is converted, the rest is not.  `none`: the
line does not fit, before or after the conversion. -/
def lineFor (conv : Iconv) (enc : Option Str) (line : Str) : Option Str :=
  if line = [] ∨ line.length > 510 then none
  else match enc, messageAt line with
    | some n, some k =>
      let m := converted conv n UTF8 (line.drop k)
      if k + m.length ≤ 510 ∧ '\x00' ∉ m then some (line.take k ++ m ++ "\r\n".toList) else none
    | _, _ => some (line ++ "\r\n".toList)

/-- The message of a client as the server takes it; `none`: it does not fit. -/
def taken (conv : Iconv) (enc : Option Str) (text : Str) : Option Str :=
  match enc with
  | none => some text
  | some n =>
    let m := converted conv UTF8 n text
    if m.length ≤ 512 ∧ '\x00' ∉ m then some m else none

/-- Every handle that is open belongs to a connection. -/
def NoLeak (s : Enc) : Prop := ∀ h, (s.handles h).isSome → ∃ i, (s.conns i).frm = some h ∨ (s.conns i).to = some h

/-- A converter from and to Latin-1, for examples: bytes from 128 on take two bytes in UTF-8.  It stops
with an error when there is no room. -/
def latinOut (room : Nat) : Str → IconvRes
  | [] => ⟨true, 0, []⟩
  | c :: cs =>
    let o := if c.toNat < 128 then [c] else [Char.ofNat (192 + c.toNat / 64), Char.ofNat (128 + c.toNat % 64)]
    if o.length > room then ⟨false, 0, []⟩
    else
      let r := latinOut (room - o.length) cs
      ⟨r.ok, r.used + 1, o ++ r.out⟩

/-- The other direction: a lone byte from 128 on is an error. -/
def latinIn : Str → IconvRes
  | [] => ⟨true, 0, []⟩
  | [c] => if c.toNat < 128 then ⟨true, 1, [c]⟩ else ⟨false, 0, []⟩
  | c :: d :: cs =>
    if c.toNat < 128 then
      let r := latinIn (d :: cs)
      ⟨r.ok, r.used + 1, c :: r.out⟩
    else
      let r := latinIn cs
      ⟨r.ok, r.used + 2, Char.ofNat ((c.toNat - 192) * 64 + d.toNat % 64) :: r.out⟩

/-- The converter of the examples. -/
def latin : Iconv := fun target _ text => if target = UTF8 then latinOut 512 text else latinIn text

end Ngircd.Spec
