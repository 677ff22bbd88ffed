import Verif.Model.Str

/-! # Model of src/ngircd/hash.c -/

namespace Ngircd

/-- `rot(x,k)`, hash.c:61. -/
def rot (x : UInt32) (k : UInt32) : UInt32 := (x <<< k) ||| (x >>> (32 - k))

/-- `mix(a,b,c)`, hash.c:63-71. -/
def hmix (a b c : UInt32) : UInt32 × UInt32 × UInt32 :=
  let a := a - c; let a := a ^^^ rot c 4; let c := c + b
  let b := b - a; let b := b ^^^ rot a 6; let a := a + c
  let c := c - b; let c := c ^^^ rot b 8; let b := b + a
  let a := a - c; let a := a ^^^ rot c 16; let c := c + b
  let b := b - a; let b := b ^^^ rot a 19; let a := a + c
  let c := c - b; let c := c ^^^ rot b 4; let b := b + a
  (a, b, c)

/-- `final(a,b,c)`, hash.c:73-82; the value of `c`. -/
def hfinal (a b c : UInt32) : UInt32 :=
  let c := c ^^^ b; let c := c - rot b 14
  let a := a ^^^ c; let a := a - rot c 11
  let b := b ^^^ a; let b := b - rot a 25
  let c := c ^^^ b; let c := c - rot b 16
  let a := a ^^^ c; let a := a - rot c 4
  let b := b ^^^ a; let b := b - rot a 14
  let c := c ^^^ b; let c := c - rot b 24
  c

/-- Byte `i` of the key as UINT32, zero behind the end (the fall-through `switch` of
hash.c:106-135 adds exactly the existing bytes). -/
def kb (k : Str) (i : Nat) : UInt32 := UInt32.ofNat ((k.getD i '\x00').toNat % 256)

/-- Four key bytes, little endian. -/
def word (k : Str) (i : Nat) : UInt32 :=
  kb k i + (kb k (i + 1) <<< 8) + (kb k (i + 2) <<< 16) + (kb k (i + 3) <<< 24)

/-- The loop and the last block of `jenkins_hash`, hash.c:84-138.  The fuel is the length of
the key (the loop consumes 12 bytes per iteration). -/
def jenkinsLoop : Nat → Str → UInt32 → UInt32 → UInt32 → UInt32
  | 0, k, a, b, c =>
    if k.length = 0 then c
    else hfinal (a + word k 0) (b + word k 4) (c + word k 8)
  | fuel + 1, k, a, b, c =>
    if k.length > 12 then
      let r := hmix (a + word k 0) (b + word k 4) (c + word k 8)
      jenkinsLoop fuel (k.drop 12) r.1 r.2.1 r.2.2
    else if k.length = 0 then c
    else hfinal (a + word k 0) (b + word k 4) (c + word k 8)

/-- `jenkins_hash`, hash.c:84-138. -/
def jenkinsHash (k : Str) (initval : UInt32) : UInt32 :=
  let s := 0xdeadbeef + UInt32.ofNat k.length + initval
  jenkinsLoop k.length k s s s

/-- `Hash`, hash.c:35-43. -/
def Hash (s : Str) : UInt32 := jenkinsHash (lowerStr (strlcpy COMMAND_LEN s)) 42

end Ngircd
