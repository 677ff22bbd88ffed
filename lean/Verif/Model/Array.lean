import Verif.Model.Str

/-!
# Model of src/ngircd/array.c

`size_t` is a 64-bit unsigned integer: a `Nat` with explicit wrap-around.  The heap
block behind `a->mem` is the list `cells` of its bytes, independent of the fields
`allocated` and `used`; every read or write outside the block, and every failing
`assert()`, is the outcome `Res.fault`.  `realloc()` is an oracle: `none` = it fails,
`some j` = it succeeds and fresh bytes contain the arbitrary value `j`.

Not modelled: aliasing of source and destination (`array_cat(a, a)`), the DEBUG_ARRAY logging.
-/

namespace Ngircd

/-- Outcome of a C function: a value, or undefined behaviour / failed assertion. -/
inductive Res (α : Type)
  | ok (a : α)
  | fault
  deriving DecidableEq, Repr

def Res.bind {α β} (x : Res α) (f : α → Res β) : Res β :=
  match x with
  | .ok a => f a
  | .fault => .fault

/-- 2^64: the modulus of `size_t`. -/
def SZ : Nat := 18446744073709551616

/-- `typedef struct { char *mem; size_t allocated; size_t used; } array`, array.h:22-26. -/
structure Arr where
  /-- the heap block; `none` = NULL -/
  cells : Option Str
  allocated : Nat
  used : Nat
  deriving DecidableEq, Repr

namespace Arr

/-- `array_init`, array.c:47-54. -/
def init : Arr := { cells := none, allocated := 0, used := 0 }

/-- `safemult_sizet`, array.c:34-44. -/
def safemult (a b : Nat) : Option Nat :=
  let tmp := (a * b) % SZ
  if b ≠ 0 ∧ tmp / b ≠ a then none else some tmp

/-- `memcpy(mem + off, src, len)` / `memset`: write `src` at `off`; outside = fault. -/
def writeAt (cells : Str) (off : Nat) (src : Str) : Res Str :=
  if off + src.length ≤ cells.length then
    .ok (cells.take off ++ src ++ cells.drop (off + src.length))
  else .fault

/-- `realloc(mem, n)` on success. -/
def realloc (cells : Option Str) (n : Nat) (junk : Char) : Str :=
  let old := cells.getD []
  old.take n ++ List.replicate (n - old.length) junk

/-- `array_alloc`, array.c:58-87: new array and the offset returned (`none` = NULL). -/
def alloc (a : Arr) (size pos : Nat) (o : Option Char) : Res (Arr × Option Nat) :=
  if size = 0 then .fault      -- assert(size > 0)
  else
    let posPlus1 := (pos + 1) % SZ
    if posPlus1 = 0 then .ok (a, none)
    else match safemult size posPlus1 with
    | none => .ok (a, none)
    | some n =>
      if a.allocated < n then
        match o with
        | none => .ok (a, none)
        | some junk =>
          let blk := realloc a.cells n junk
          -- memset(a->mem + a->used, 0, a->allocated - a->used), size_t subtraction
          (writeAt blk a.used (List.replicate ((n + SZ - a.used) % SZ) '\x00')).bind fun blk' =>
            .ok ({ cells := some blk', allocated := n, used := n }, some (pos * size % SZ))
      else if a.used ≤ a.allocated then .ok (a, some (pos * size % SZ))
      else .fault              -- assert(a->allocated >= a->used)

/-- `array_bytes`: array.h, `(array)->used`. -/
def bytes (a : Arr) : Nat := a.used

/-- `array_length`, array.c:92-102. -/
def length (a : Arr) (membersize : Nat) : Res Nat :=
  if membersize = 0 then .fault
  else if a.cells = none then .ok 0
  else if a.allocated = 0 then .fault
  else .ok (a.used / membersize)

/-- `array_trunc`, array.c:279-284. -/
def trunc (a : Arr) : Arr := { a with used := 0 }

/-- `array_catb`, array.c:142-179. -/
def catb (a : Arr) (src : Str) (o : Option Char) : Res (Arr × Bool) :=
  if src.length = 0 then .ok (a, true)
  else
    let used := a.used
    let tmp := (used + src.length) % SZ
    if tmp < used ∨ tmp < src.length then .ok (a, false)
    else (alloc a 1 tmp o).bind fun r =>
      match r.2 with
      | none => .ok (r.1, false)
      | some _ =>
        match r.1.cells with
        | none => .fault         -- assert(ptr != NULL)
        | some blk => (writeAt blk used src).bind fun blk' =>
            .ok ({ r.1 with cells := some blk', used := tmp }, true)

/-- `array_copyb`, array.c:118-129. -/
def copyb (a : Arr) (src : Str) (o : Option Char) : Res (Arr × Bool) := catb (trunc a) src o

/-- The bytes `mem[0 .. used)`; a read outside the block is a fault. -/
def readAll (a : Arr) : Res Str :=
  match a.cells with
  | none => if a.used = 0 then .ok [] else .fault
  | some blk => if a.used ≤ blk.length then .ok (blk.take a.used) else .fault

/-- `array_copy`, array.c:106-114. -/
def copy (dest src : Arr) (o : Option Char) : Res (Arr × Bool) :=
  if src.cells = none then .ok (dest, false)
  else if src.allocated = 0 then .fault
  else (readAll src).bind fun s => copyb dest s o

/-- `array_cat`, array.c:211-218. -/
def cat (dest src : Arr) (o : Option Char) : Res (Arr × Bool) :=
  if src.cells = none then .ok (dest, false)
  else (readAll src).bind fun s => catb dest s o

/-- `array_cat0`, array.c:191-195. -/
def cat0 (a : Arr) (o : Option Char) : Res (Arr × Bool) := catb a ['\x00'] o

/-- `array_cat0_temporary`, array.c:199-208. -/
def cat0Temporary (a : Arr) (o : Option Char) : Res (Arr × Bool) :=
  (alloc a 1 (bytes a) o).bind fun r =>
    match r.2 with
    | none => .ok (r.1, false)
    | some off =>
      match r.1.cells with
      | none => .fault
      | some blk => (writeAt blk off ['\x00']).bind fun blk' =>
          .ok ({ r.1 with cells := some blk' }, true)

/-- `array_get`, array.c:224-244: the offset of the element, `none` = NULL. -/
def get (a : Arr) (membersize pos : Nat) : Res (Option Nat) :=
  if membersize = 0 then .fault
  else
    let posPlus1 := (pos + 1) % SZ
    if posPlus1 = 0 ∨ a.cells = none then .ok none
    else match safemult posPlus1 membersize with
    | none => .ok none
    | some total => if a.allocated < total then .ok none else .ok (some (pos * membersize % SZ))

/-- `array_free`, array.c:247-260. -/
def free (_a : Arr) : Arr := init

/-- `array_truncate`, array.c:287-297. -/
def truncate (a : Arr) (membersize len : Nat) : Arr :=
  match safemult membersize len with
  | none => a
  | some n => if n ≤ a.allocated then { a with used := n } else a

/-- `array_moveleft`, array.c:301-329. -/
def moveleft (a : Arr) (membersize pos : Nat) : Res Arr :=
  if membersize = 0 then .fault
  else match safemult membersize pos with
  | none => .ok { a with used := 0 }
  | some b =>
    if b = 0 then .ok a
    else if a.used ≤ b then .ok { a with used := 0 }
    else
      let used' := a.used - b
      match a.cells with
      | none => .fault
      | some blk =>
        -- memmove(a->mem, a->mem + bytepos, a->used)
        if b + used' ≤ blk.length then
          (writeAt blk 0 ((blk.drop b).take used')).bind fun blk' =>
            .ok { a with cells := some blk', used := used' }
        else .fault

end Arr

/-- The operations a user of the buffer can perform (source buffers given by content). -/
inductive ArrOp
  | alloc (size pos : Nat)
  | catb (s : Str)
  | copyb (s : Str)
  | cat0
  | cat0Temporary
  | trunc
  | truncate (m n : Nat)
  | moveleft (m n : Nat)
  | free
  deriving Repr

/-- One operation with the behaviour `o` of `realloc`; the Boolean is the success flag. -/
def Arr.step (a : Arr) (op : ArrOp) (o : Option Char) : Res (Arr × Bool) :=
  match op with
  | .alloc s p => (a.alloc s p o).bind fun r => .ok (r.1, r.2.isSome)
  | .catb s => a.catb s o
  | .copyb s => a.copyb s o
  | .cat0 => a.cat0 o
  | .cat0Temporary => a.cat0Temporary o
  | .trunc => .ok (a.trunc, true)
  | .truncate m n => .ok (a.truncate m n, true)
  | .moveleft m n => (a.moveleft m n).bind fun a' => .ok (a', true)
  | .free => .ok (Arr.init, true)

/-- Run a list of operations. -/
def Arr.run (a : Arr) : List (ArrOp × Option Char) → Res Arr
  | [] => .ok a
  | (op, o) :: rest => (a.step op o).bind fun r => r.1.run rest

end Ngircd
