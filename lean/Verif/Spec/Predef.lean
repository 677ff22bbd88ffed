import Verif.Model.Events

/-!
# What the pre-defined channels of the configuration change
-/

namespace Ngircd.Spec

/-- From `s` to `t` the channels `new` were created and lines may have been sent; every channel
there was, all memberships, clients, connections and everything else are as before. -/
def CreatedOnly (new : List Chan) (s t : Srv) : Prop :=
  t.chans = new ++ s.chans ∧ ∃ o f r, { t with chans := s.chans, nextRef := s.nextRef } = { s with out := o ++ s.out, fault := f, rnd := r }

/-- The state in which the configuration `conf` is in force: what cannot be changed while running
stays.  (The server's own description follows the configuration; where descriptions of clients are
hidden, it becomes the server's name.) -/
def configured (s : Srv) (conf : Conf) : Srv :=
  { s with
    conf := { conf with serverName := s.conf.serverName, maxNickLength := s.conf.maxNickLength, servers := s.conf.servers },
    clients := s.clients.map (fun c => if c.ref = s.this then { c with info := (if conf.cloakUserToNick then c.id else conf.serverInfo).take 127 } else c) }

/-- A mode string of plain letters, with or without a leading `+`. -/
def PlainModes (m : Str) : Prop :=
  ∃ ms, (m = ms ∨ m = '+' :: ms) ∧ ms ≠ [] ∧ (∀ x ∈ ms, x ∈ "RsziVMmnNQtOP".toList) ∧ ms.Nodup

/-- The block of a channel that can have modes (its name does not begin with `+`), with plain mode
letters only and not more than fit. -/
def PlainChannel (cc : ConfChannel) : Prop :=
  cc.name.head? ≠ some '+' ∧ (∀ m ∈ cc.modes, PlainModes m) ∧ (cc.modes.map List.length).sum ≤ 19

/-- The name of a channel: it begins with `#`, `&` or `+`, has less than 51 characters, and none of them is a space, a comma,
a colon or BEL. -/
def ChannelName (n : Str) : Prop :=
  (∃ t, n.head? = some t ∧ t ∈ ['#', '&', '+']) ∧ n.length < 51 ∧ ∀ x ∈ n, x ≠ ' ' ∧ x ≠ ',' ∧ x ≠ ':' ∧ x ≠ '\x07'

/-- The channel the block `cc` describes. -/
structure FromBlock (cc : ConfChannel) (d : Chan) : Prop where
  name : d.name = cc.name
  topic : d.topic = if cc.topic.length ≤ 512 then cc.topic else []
  modes : PlainChannel cc → ∀ x, x ∈ d.modes ↔ x = 'P' ∨ ∃ m ∈ cc.modes, x ∈ m ∧ x ≠ '+'

/-- The channel `&SERVER` as it is made. -/
def ServerChannel (d : Chan) : Prop := d.name = "&SERVER".toList ∧ d.modes = "mnPt".toList ∧ d.topic = "Server Messages".toList

end Ngircd.Spec
