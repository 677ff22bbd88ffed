import Verif.Model.Str

/-!
# Model of the replacement of `snprintf()`

src/portab/vsnprintf.c, used on systems without a `snprintf()` of their own.  Simplified: `int` and `long` do not
overflow; `*` as a width or precision and the conversions of floating point numbers, `%p` and `%n` are treated
like unknown ones; what `va_arg` gives is a list of numbers, characters and strings.
-/

namespace Ngircd

/-- The output: what was stored in the buffer of `size` bytes, and `currlen`. -/
structure POut where
  size : Nat
  stored : Str
  len : Nat

/-- `dopr_outch`, vsnprintf.c:757-764. -/
def POut.putc (o : POut) (c : Char) : POut :=
  { o with stored := if o.len < o.size then o.stored ++ [c] else o.stored, len := o.len + 1 }

/-- `dopr_outch` for some characters, vsnprintf.c:757-764. -/
def POut.puts (o : POut) (s : Str) : POut := s.foldl POut.putc o

/-- The flags, vsnprintf.c:136-142. -/
structure PFlags where
  minus : Bool
  plus : Bool
  space : Bool
  zero : Bool
  up : Bool
  uns : Bool

/-- No flags. -/
def PFlags.none : PFlags := ⟨false, false, false, false, false, false⟩

/-- The text that `fmtstr` puts out, vsnprintf.c:413-448. -/
def fmtstr (s : Str) (minus : Bool) (min max : Nat) : Str :=
  let pad := min - s.length
  if minus then
    s.take max ++ List.replicate (Nat.min pad (max - (s.take max).length)) ' '
  else
    let lead := Nat.min pad max
    List.replicate lead ' ' ++ s.take (max - lead)

/-- A digit, vsnprintf.c:484-486. -/
def pDigit (up : Bool) (d : Nat) : Char :=
  (if up then "0123456789ABCDEF".toList else "0123456789abcdef".toList).getD d '0'

/-- The array `convert`, the last digit first, vsnprintf.c:482-488; `room` more digits have room. -/
def pConvert (up : Bool) (base : Nat) : Nat → Nat → Str
  | 0, _ => []
  | room + 1, u => pDigit up (u % base) :: (if u / base = 0 then [] else pConvert up base room (u / base))

/-- The digits of a number; of 20 digits the first one is dropped, vsnprintf.c:482-490 and 526-528. -/
def pDigits (up : Bool) (base u : Nat) : Str := ((pConvert up base 20 u).take 19).reverse

/-- The sign, vsnprintf.c:469-479. -/
def pSign (f : PFlags) (v : Int) : Str :=
  if f.uns then [] else if v < 0 then ['-'] else if f.plus then ['+'] else if f.space then [' '] else []

/-- The text that `fmtint` puts out, vsnprintf.c:452-535; no precision is 0. -/
def fmtint (v : Int) (base min max : Nat) (f : PFlags) : Str :=
  let sign := pSign f v
  let digits := pDigits f.up base v.natAbs
  let zpad := max - digits.length
  let spad := min - Nat.max max digits.length - sign.length
  let zpad' := if f.zero then Nat.max zpad spad else zpad
  let spad' := if f.zero then 0 else spad
  (if f.minus then [] else List.replicate spad' ' ') ++ sign ++ List.replicate zpad' '0' ++ digits ++
    (if f.minus then List.replicate spad' ' ' else [])

/-- States of `dopr`, vsnprintf.c:155-411, and three for the characters read in the states MOD and CONV: behind
`l`, behind a length, behind `w`. -/
inductive PState
  | deflt | flags | min | dot | max | mod | modL | conv | skip
  deriving DecidableEq

/-- An argument. -/
inductive PArg
  | num (v : Int)
  | chr (c : Char)
  | str (s : Str)

/-- The variables of `dopr`, vsnprintf.c:155-411; `ok` is false when an argument is missing or of another type. -/
structure Dp where
  state : PState
  flags : PFlags
  min : Nat
  max : Option Nat
  args : List PArg
  out : POut
  ok : Bool

/-- After a conversion, vsnprintf.c:391-395. -/
def Dp.reset (d : Dp) : Dp := { d with state := .deflt, flags := PFlags.none, min := 0, max := none }

/-- A conversion of a number, vsnprintf.c:272-321. -/
def Dp.num (d : Dp) (f : PFlags) (base : Nat) : Dp :=
  match d.args with
  | .num v :: as => ({ d with args := as, out := d.out.puts (fmtint v base d.min (d.max.getD 0) f) } : Dp).reset
  | _ => ({ d with ok := false } : Dp).reset

/-- A conversion of a string, vsnprintf.c:349-356. -/
def Dp.str (d : Dp) : Dp :=
  match d.args with
  | .str s :: as =>
    let max := d.max.getD s.length
    let max := if d.min > 0 ∧ d.min > max then d.min else max
    ({ d with args := as, out := d.out.puts (fmtstr s d.flags.minus d.min max) } : Dp).reset
  | _ => ({ d with ok := false } : Dp).reset

/-- A conversion of a character, vsnprintf.c:346-348. -/
def Dp.chr (d : Dp) : Dp :=
  match d.args with
  | .chr c :: as => ({ d with args := as, out := d.out.putc c } : Dp).reset
  | _ => ({ d with ok := false } : Dp).reset

/-- State CONV, vsnprintf.c:270-395. -/
def Dp.onConv (d : Dp) (c : Char) : Dp :=
  if c = 'd' ∨ c = 'i' then d.num d.flags 10
  else if c = 'o' then d.num { d.flags with uns := true } 8
  else if c = 'u' then d.num { d.flags with uns := true } 10
  else if c = 'X' then d.num { d.flags with uns := true, up := true } 16
  else if c = 'x' then d.num { d.flags with uns := true } 16
  else if c = 'c' then d.chr
  else if c = 's' then d.str
  else if c = '%' then ({ d with out := d.out.putc c } : Dp).reset
  else if c = 'w' then { d with state := .skip }
  else d.reset

/-- State MOD, vsnprintf.c:247-269. -/
def Dp.onMod (d : Dp) (c : Char) : Dp :=
  if c = 'l' then { d with state := .modL }
  else if c = 'h' ∨ c = 'L' then { d with state := .conv }
  else d.onConv c

/-- State MAX, vsnprintf.c:233-246. -/
def Dp.onMax (d : Dp) (c : Char) : Dp :=
  if c.isDigit then { d with state := .max, max := some (10 * d.max.getD 0 + (c.toNat - '0'.toNat)) } else d.onMod c

/-- State DOT, vsnprintf.c:225-232. -/
def Dp.onDot (d : Dp) (c : Char) : Dp := if c = '.' then { d with state := .max } else d.onMod c

/-- State MIN, vsnprintf.c:213-224. -/
def Dp.onMin (d : Dp) (c : Char) : Dp :=
  if c.isDigit then { d with state := .min, min := 10 * d.min + (c.toNat - '0'.toNat) } else d.onDot c

/-- State FLAGS, vsnprintf.c:186-212. -/
def Dp.onFlags (d : Dp) (c : Char) : Dp :=
  if c = '-' then { d with flags := { d.flags with minus := true } }
  else if c = '+' then { d with flags := { d.flags with plus := true } }
  else if c = ' ' then { d with flags := { d.flags with space := true } }
  else if c = '#' then d
  else if c = '0' then { d with flags := { d.flags with zero := true } }
  else d.onMin c

/-- `dopr`, vsnprintf.c:155-411: the loop, up to the place where the next character of the format is fetched. -/
def Dp.feed (d : Dp) (c : Char) : Dp :=
  match d.state with
  | .deflt => if c = '%' then { d with state := .flags } else { d with out := d.out.putc c }
  | .flags => d.onFlags c
  | .min => d.onMin c
  | .dot => d.onDot c
  | .max => d.onMax c
  | .mod => d.onMod c
  | .modL => if c = 'l' then { d with state := .conv } else d.onConv c
  | .conv => d.onConv c
  | .skip => d.reset

/-- `dopr`, vsnprintf.c:155-411: the start. -/
def Dp.init (size : Nat) (args : List PArg) : Dp := ⟨.deflt, PFlags.none, 0, none, args, ⟨size, [], 0⟩, true⟩

/-- `dopr`, vsnprintf.c:155-411, up to the end of the format. -/
def dopr (size : Nat) (format : Str) (args : List PArg) : Dp := format.foldl Dp.feed (Dp.init size args)

/-- `snprintf`, vsnprintf.c:776-794 and 765-794: the string in the buffer (nothing is stored in a buffer of size
0), and the value returned. -/
def snprintf (size : Nat) (format : Str) (args : List PArg) : Option Str × Nat :=
  let o := (dopr size format args).out
  (if size = 0 then none
   else if o.len < size - 1 then some o.stored
   else some (o.stored.take (size - 1)), o.len)

end Ngircd
