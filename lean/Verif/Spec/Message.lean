import Verif.Spec.Str

/-! # Specification: the text form of an IRC message (RFC 2812, 2.3.1) -/

namespace Ngircd.Spec

/-- A word: not empty, no white space. -/
def Word (w : Str) : Prop := w ≠ [] ∧ ∀ c ∈ w, ¬ Ws c

/-- `n + 1` spaces. -/
def spaces (n : Nat) : Str := List.replicate (n + 1) ' '

/-- An abstract message: optional prefix, command, arguments without spaces, optional last
argument which may contain anything. -/
structure Message where
  prefix? : Option Str
  command : Str
  middle : List Str
  trailing : Option Str

/-- The arguments of a message. -/
def Message.args (m : Message) : List Str := m.middle ++ m.trailing.toList

/-- A message IRC syntax can express. -/
structure Message.Valid (m : Message) : Prop where
  prefixOk : ∀ p, m.prefix? = some p → ∀ c ∈ p, ¬ Ws c
  commandOk : Word m.command ∧ (m.prefix? = none → m.command.head? ≠ some ':')
  middleOk : ∀ a ∈ m.middle, Word a ∧ a.head? ≠ some ':'
  /-- the trailing argument does not end in white space (the server strips it) -/
  trailingOk : ∀ t, m.trailing = some t → ∀ c r, t = r ++ [c] → ¬ Ws c
  count : m.args.length ≤ 15

/-- The text of the arguments from number `i` on; `sep i` + 1 is the number of spaces before
the i-th argument. -/
def argText (sep : Nat → Nat) : Nat → List Str → Option Str → Str
  | i, [], some t => spaces (sep i) ++ ':' :: t
  | _, [], none => []
  | i, a :: as, t => spaces (sep i) ++ a ++ argText sep (i + 1) as t

/-- The text of a message. -/
def Message.render (m : Message) (sep : Nat → Nat) : Str :=
  (match m.prefix? with
   | some p => ':' :: p ++ spaces (sep 0)
   | none => []) ++ (m.command ++ argText sep 1 m.middle m.trailing)

end Ngircd.Spec
