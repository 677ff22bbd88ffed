import Verif.Model.Snprintf

/-!
# Vocabulary: formats

The conversions of `printf` as the C standard (7.21.6.1) describes them: `%d`, `%u`, `%o`, `%x`, `%X`, `%s`,
`%c` with flags, width and precision.
-/

namespace Ngircd.Spec
open Ngircd

/-- The flags of a directive. -/
structure Flags where
  minus : Bool
  plus : Bool
  space : Bool
  zero : Bool

/-- The unsigned conversions. -/
inductive Radix
  | u | o | x | X

/-- The base. -/
def Radix.base : Radix → Nat
  | .u => 10
  | .o => 8
  | .x => 16
  | .X => 16

/-- The character in the format. -/
def Radix.letter : Radix → Char
  | .u => 'u'
  | .o => 'o'
  | .x => 'x'
  | .X => 'X'

/-- What a directive converts. -/
inductive Value
  | signed (v : Int)
  | unsigned (r : Radix) (n : Nat)
  | string (s : Str)

/-- A piece of a format: a character that stands for itself, a percent sign, a character, or a directive with
flags, width, precision, and with the length modifier `l` or not. -/
inductive Piece
  | lit (c : Char)
  | percent
  | char (c : Char)
  | conv (f : Flags) (width : Nat) (prec : Option Nat) (long : Bool) (v : Value)

/-- The flags as written. -/
def Flags.text (f : Flags) : Str :=
  (if f.minus then ['-'] else []) ++ (if f.plus then ['+'] else []) ++ (if f.space then [' '] else []) ++
    (if f.zero then ['0'] else [])

/-- The conversion character. -/
def Value.letter : Value → Char
  | .signed _ => 'd'
  | .unsigned r _ => r.letter
  | .string _ => 's'

/-- A piece as written in the format. -/
def Piece.text : Piece → Str
  | .lit c => [c]
  | .percent => ['%', '%']
  | .char _ => ['%', 'c']
  | .conv f w p l v =>
    ['%'] ++ f.text ++ (if w = 0 then [] else Nat.toDigits 10 w) ++
      (match p with | none => [] | some n => '.' :: Nat.toDigits 10 n) ++ (if l then ['l'] else []) ++ [v.letter]

/-- The argument of a piece. -/
def Piece.args : Piece → List PArg
  | .lit _ => []
  | .percent => []
  | .char c => [.chr c]
  | .conv _ _ _ _ (.signed v) => [.num v]
  | .conv _ _ _ _ (.unsigned _ n) => [.num n]
  | .conv _ _ _ _ (.string s) => [.str s]

/-- The digits of a number. -/
def Radix.digits (r : Radix) (n : Nat) : Str :=
  match r with
  | .X => (Nat.toDigits 16 n).map Char.toUpper
  | r => Nat.toDigits r.base n

/-- A number with at least as many digits as the precision says; with precision 0 the number 0 has none. -/
def withPrec (prec : Option Nat) (n : Nat) (digits : Str) : Str :=
  if prec = some 0 ∧ n = 0 then [] else List.replicate (prec.getD 1 - digits.length) '0' ++ digits

/-- The sign of a signed conversion. -/
def signOf (f : Flags) (v : Int) : Str :=
  if v < 0 then ['-'] else if f.plus then ['+'] else if f.space then [' '] else []

/-- Fill up to the width: on the right with the flag `-`; otherwise behind the sign with zeros, with the flag `0`
and without a precision; otherwise on the left. -/
def padTo (f : Flags) (width : Nat) (zeros : Bool) (sign body : Str) : Str :=
  let pad := width - (sign ++ body).length
  if f.minus then sign ++ body ++ List.replicate pad ' '
  else if zeros then sign ++ List.replicate pad '0' ++ body
  else List.replicate pad ' ' ++ sign ++ body

/-- What a piece prints. -/
def Piece.print : Piece → Str
  | .lit c => [c]
  | .percent => ['%']
  | .char c => [c]
  | .conv f w p _ (.signed v) =>
    padTo f w (f.zero && p.isNone) (signOf f v) (withPrec p v.natAbs (Nat.toDigits 10 v.natAbs))
  | .conv f w p _ (.unsigned r n) => padTo f w (f.zero && p.isNone) [] (withPrec p n (r.digits n))
  | .conv f w p _ (.string s) => padTo f w false [] (match p with | none => s | some n => s.take n)

/-- What is left out: numbers of 20 digits and more; the flag `0` with the flag `-` or with a precision; the
number 0 with precision 0; a string cut by a precision smaller than the width; wide strings. -/
def Piece.Plain : Piece → Prop
  | .lit c => c ≠ '%'
  | .percent => True
  | .char _ => True
  | .conv f _ p _ (.signed v) =>
    v.natAbs < 10 ^ 19 ∧ (f.zero = true → f.minus = false ∧ p = none) ∧ (p = some 0 → v ≠ 0)
  | .conv f _ p _ (.unsigned r n) =>
    n < r.base ^ 19 ∧ (f.zero = true → f.minus = false ∧ p = none) ∧ (p = some 0 → n ≠ 0)
  | .conv _ w p l (.string s) => l = false ∧ ∀ n, p = some n → w ≤ n ∨ s.length ≤ n

/-- A format. -/
def formatOf (ps : List Piece) : Str := (ps.map Piece.text).flatten

/-- The arguments of a format. -/
def argsOf (ps : List Piece) : List PArg := (ps.map Piece.args).flatten

/-- What a format prints. -/
def printed (ps : List Piece) : Str := (ps.map Piece.print).flatten

end Ngircd.Spec
