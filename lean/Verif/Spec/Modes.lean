import Verif.Spec.Messages

/-!
# User modes, and what of a user's host others get to see
-/

namespace Ngircd.Spec

/-- A local user with the modes `old` may set or clear the letter `m` of its own modes. -/
def MayUserMode (conf : Conf) (old : Str) (set : Bool) (m : Char) : Prop :=
  m ∈ "bCiIsw".toList ∨ (m = 'r' ∧ set = true) ∨ (m = 'o' ∧ set = false) ∨
  (m ∈ "cqF".toList ∧ (set = false ∨ 'o' ∈ old)) ∨ (m = 'B' ∧ 'r' ∉ old) ∨
  (m = 'x' ∧ 'r' ∉ old ∧ (set = false ∨ conf.cloakHostModeX ≠ none ∨ 'o' ∈ old))

/-- The host name of `c` others get to see: the real one or, with mode `x`, the cloaked one; if the client has none,
then the one made from the hash of the real one, if the server is configured to do so, or the name of the client's
server. -/
def publicHost (s : Srv) (c : Client) : Str :=
  if 'x' ∉ c.modes then c.host
  else match c.cloaked, s.conf.cloakHostModeX with
    | some h, _ => h
    | none, some text => (text (Hash (((c.host.take 63) ++ s.conf.cloakHostSalt).take 63))).take 63
    | none, none => (s.cl c.introducer).ID.take 63

/-- `nick!user@host`, as others get to see it. -/
def publicMask (s : Srv) (c : Client) : Str := (c.id ++ '!' :: c.user ++ '@' :: publicHost s c).take 115

/-- What the user at connection `i` and the servers get when the modes of the user have changed: `f` is the user after
the change, `ms` the letters it asked for and `ch` those that changed (with the sign `sg`). -/
structure UserModeTold (s : Srv) (i : Nat) (f : Client) (ms : Str) (sg : Char) (ch : Str) (o : List Sent) : Prop where
  /-- the user gets the change and, if it was about its host name, that as well (newest first) -/
  self : onConn o i =
    (if 'x' ∈ ms then [⟨i, some (publicMask s f), ⟨"RPL_HOSTHIDDEN_MSG", [f.ID, publicHost s f]⟩⟩] else []) ++
    [⟨i, some (publicMask s f), ⟨"MODE", [f.ID, sg :: ch]⟩⟩]
  links : ∀ j, isLink s j = true → onConn o j = [⟨j, some f.ID, ⟨"MODE", [f.ID, sg :: ch]⟩⟩]
  others : ∀ y ∈ o, y.conn = i ∨ isLink s y.conn = true

end Ngircd.Spec

namespace Ngircd.Spec

/-- The arguments of the modes of the channel: its limit and its key. -/
def modeArgs (c : Chan) : Str :=
  c.modes.flatMap (fun m => if m = 'l' then ' ' :: intStr c.maxusers else if m = 'k' then ' ' :: c.key else [])

end Ngircd.Spec

namespace Ngircd.Spec

/-- The host name kept for a client whose host name has been `old` when the name `new` has become known: if the server
cloaks all hosts, a host that is empty or an address is replaced by a name made from the hash. -/
def knownHost (conf : Conf) (old new : Str) : Str :=
  match conf.cloakHost with
  | none => new.take 63
  | some text => if old = [] ∨ '.' ∈ old ∨ ':' ∈ old then (text (Hash ((new.take 115 ++ conf.cloakHostSalt).take 115))).take 63 else new.take 63

end Ngircd.Spec
