import Verif.Spec.Registry

/-!
# Vocabulary for the commands clients send
-/

namespace Ngircd.Spec

/-- Nothing has changed except that lines may have been sent (and the random generator moved
on). -/
def Unchanged (s t : Srv) : Prop :=
  ∃ o f r, t = { s with out := o ++ s.out, fault := f, rnd := r }

/-- Nothing has changed except that lines may have been sent on connection `i`: the command has
been answered, and nobody else has noticed. -/
def Answered (i : Nat) (s t : Srv) : Prop :=
  ∃ o r, t = { s with out := o ++ s.out, rnd := r } ∧ ∀ m ∈ o, m.conn = i

/-- Client `c` is reached through the connection `i`: it is connected there, or it has been
introduced by a client reached through `i`. -/
inductive Behind (s : Srv) (i : Nat) : Client → Prop
  | direct {c : Client} : c.conn = some i → Behind s i c
  | via {c p : Client} : c.conn = none → p ∈ s.clients → p.ref = c.introducer → Behind s i p →
      Behind s i c

/-- The connection `i` belongs to the client `r`. -/
def Owner (s : Srv) (i r : Nat) : Prop := ∃ k ∈ s.conns, k.idx = i ∧ k.client = r

/-- The client has completed its registration, as user, service or server link. -/
def Registered (c : Client) : Prop := c.type = .user ∨ c.type = .server ∨ c.type = .service

/-- The client a request originates from: the one named by the prefix, if the request comes over
a server link, or else the owner of the connection. -/
def Originator (s : Srv) (cl : Nat) (req : Request) (c : Client) : Prop :=
  c ∈ s.clients ∧
  (((s.cl cl).type = .server ∧ ∃ p, req.prefix? = some p ∧ SameCase c.id (nickPart p)) ∨
   (¬ ((s.cl cl).type = .server ∧ req.prefix?.isSome = true) ∧ c.ref = cl))

/-- The client may administer the server: it is an IRC operator, connected here unless the
configuration allows remote operators. -/
def MayAdminister (s : Srv) (c : Client) : Prop :=
  'o' ∈ c.modes ∧ (c.conn ≠ none ∨ s.conf.allowRemoteOper = true)

/-- The event is a line sent by client `r`. -/
def SentBy (s : Srv) (e : Event) (r : Nat) : Prop := ∃ i rnd l, e = .line i rnd l ∧ Owner s i r

/-- The event is the command `n` sent by client `r`. -/
def Sends (s : Srv) (e : Event) (r : Nat) (n : String) : Prop :=
  ∃ i rnd l req, e = .line i rnd l ∧ Owner s i r ∧ parseRequest s.conf.scrubCTCP l = .request req ∧ Is req n

/-- The client `r` has the user mode `m`. -/
def HasUMode (s : Srv) (r : Nat) (m : Char) : Prop := ∃ c ∈ s.clients, c.ref = r ∧ m ∈ c.modes

end Ngircd.Spec
