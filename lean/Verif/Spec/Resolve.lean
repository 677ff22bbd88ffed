import Verif.Props.IpAddr
import Verif.Model.Resolve

/-!
# Names and addresses: what the resolver may find
-/

namespace Ngircd.Spec

/-- The bytes `m` hold the address `y`. -/
def Stores (m : IpMem) (y : Addr) : Prop := y.ok ∧ ∃ c : Beside, c.flow.length = 4 ∧ m = layout y c

/-- The family of an address, as the C library numbers it. -/
def family : Addr → Nat
  | .v4 .. => 2
  | .v6 .. => 10

/-- The text `u` of the address stored in `a`: as the C library writes it, but never with a colon
in front. -/
def TextOf (d : Dns) (a : IpMem) (u : Str) : Prop :=
  ∃ t, d.numeric a = some t ∧ u = if t.head? = some ':' then '0' :: t else t

/-- `n` is the confirmed name of the address `x` stored in `a`: the name of the address, and the
address is one of the addresses of the name.  Names of 64 bytes and more are not used. -/
def Confirmed (d : Dns) (x : Addr) (a : IpMem) (n : Str) : Prop :=
  d.reverse a = some n ∧ n.length < 64 ∧ ∃ l, d.forward n (family x) = some l ∧ ∃ m ∈ l, Stores m x

/-- What the C library is relied upon for: it can print the address, texts are texts, names contain
no newline, and there are no lookups that succeed without an address. -/
structure Library (d : Dns) (a : IpMem) : Prop where
  text : ∃ t, d.numeric a = some t ∧ t ≠ [] ∧ t.length < 45 ∧ '\n' ∉ t ∧ '\x00' ∉ t
  name : ∀ n, d.reverse a = some n → n ≠ [] ∧ '\n' ∉ n ∧ '\x00' ∉ n
  found : ∀ n f l, d.forward n f = some l → l ≠ [] ∧ ∀ m ∈ l, ∃ y, Stores m y
  user : ∀ w, d.ident = some w → '\x00' ∉ w

/-- A letter or a digit. -/
def IdentChar (c : Char) : Prop := ('0' ≤ c ∧ c ≤ '9') ∨ ('A' ≤ c ∧ c ≤ 'Z') ∨ ('a' ≤ c ∧ c ≤ 'z')

end Ngircd.Spec
