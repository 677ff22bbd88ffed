import Verif.Spec.Commands

/-!
# Histories

A run of the server together with everything that has happened so far.
-/

namespace Ngircd.Spec

/-- `History h s`: the server, started with a good configuration, has gone through the events of
`h` (latest first; each with the state it met) and is now in state `s`.  Peers have followed the
server protocol. -/
inductive History : List (Srv × Event) → Srv → Prop
  | start (conf : Conf) (host : Str) (now : Nat) : GoodConf conf → History [] (Srv.init conf host now)
  | next {h : List (Srv × Event)} {s : Srv} (e : Event) : History h s → s.fault = false →
      PoliteEvent s e → History ((s, e) :: h) (step s e)

/-- In the history `h` the client `r` has sent the command `n`. -/
def HasSent (h : List (Srv × Event)) (r : Nat) (n : String) : Prop := ∃ p ∈ h, Sends p.1 p.2 r n

/-- In the history `h` the client `r` has sent PASS with the password `w` (its first 64
characters count). -/
def SentPass (h : List (Srv × Event)) (r : Nat) (w : Str) : Prop :=
  ∃ p ∈ h, ∃ i rnd l req, p.2 = .line i rnd l ∧ Owner p.1 i r ∧
    parseRequest p.1.conf.scrubCTCP l = .request req ∧ Is req "PASS" ∧ (req.arg 0).take 64 = w

/-- In state `s` the client `r` is a registered user connected here. -/
def LocalUser (s : Srv) (r : Nat) : Prop :=
  ∃ c ∈ s.clients, c.ref = r ∧ c.conn ≠ none ∧ c.type = .user

/-- By the event `e` the client `r` becomes a registered local user. -/
def Registers (s : Srv) (e : Event) (r : Nat) : Prop :=
  ¬ LocalUser s r ∧ LocalUser (step s e) r

end Ngircd.Spec

namespace Ngircd.Spec

/-- The event is the command `n` sent by client `r`, with the first argument `a`. -/
def SendsArg (s : Srv) (e : Event) (r : Nat) (n : String) (a : Str) : Prop :=
  ∃ i rnd l req, e = .line i rnd l ∧ Owner s i r ∧ parseRequest s.conf.scrubCTCP l = .request req ∧
    Is req n ∧ req.arg 0 = a

/-- The parts of a text between the characters `d`, empty ones included. -/
def splitAt (d : Char) : Str → List Str
  | [] => [[]]
  | c :: cs =>
    if c = d then [] :: splitAt d cs
    else match splitAt d cs with
      | [] => [[c]]
      | p :: ps => (c :: p) :: ps

/-- The words of a text. -/
def words (a : Str) : List Str := (splitAt ' ' a).filter (fun p => !p.isEmpty)

example : words " a  -bc d".toList = ["a".toList, "-bc".toList, "d".toList] := by decide

/-- What a word of CAP REQ asks for: the only capability there is, or to do without it. -/
def capAsk (w : Str) : Option Bool :=
  if w = "multi-prefix".toList then some true
  else if w = "-multi-prefix".toList then some false
  else none

/-- The setting the words of a CAP REQ lead to: the last word decides.  None if there is a word
with no meaning. -/
def capWanted (ws : List Str) (now : Bool) : Option Bool :=
  if ∀ w ∈ ws, capAsk w ≠ none then some ((ws.getLast?.bind capAsk).getD now) else none

end Ngircd.Spec
