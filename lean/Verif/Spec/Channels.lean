import Verif.Spec.Commands

/-!
# Vocabulary for channels
-/

namespace Ngircd.Spec

/-- The pieces between the commas, empty ones included. -/
def pieces : Str → List Str
  | [] => [[]]
  | c :: cs =>
    if c = ',' then [] :: pieces cs
    else match pieces cs with
      | [] => [[c]]
      | p :: ps => (c :: p) :: ps

/-- The items of a comma separated list; empty items do not count. -/
def items (a : Str) : List Str := (pieces a).filter (fun p => !p.isEmpty)

example : items "#a,,b,".toList = ["#a".toList, "b".toList] := by decide

/-- The client matches a mask on the list, with its real or with its cloaked host name. -/
def Covers (s : Srv) (l : MaskList) (c : Client) : Prop :=
  ∃ e ∈ l, matchCaseInsensitive e.mask c.mask = true ∨
    matchCaseInsensitive e.mask (maskCloaked s c) = true

/-- The number of members of a channel. -/
def members (s : Srv) (ch : Nat) : Nat := (s.cl2.filter (fun m => decide (m.chan = ch))).length

/-- The number of channels a client is on. -/
def joined (s : Srv) (r : Nat) : Nat := (s.cl2.filter (fun m => decide (m.client = r))).length

/-- The key opens the channel: it is the key set there, or the key file has an entry for it
that matches the client. -/
def KeyFits (c : Client) (ch : Chan) (key : Str) : Prop :=
  key ≠ [] ∧ (key = ch.key ∨ ∃ lines, ch.keyfile = some lines ∧ ∃ l ∈ lines, keyLineMatches l c key = true)

/-- The restrictions of the channel let the client in. -/
structure MayJoin (s : Srv) (c : Client) (ch : Chan) (key : Str) : Prop where
  /-- a banned client must be excepted or invited -/
  ban : Covers s ch.bans c → Covers s ch.excepts c ∨ Covers s ch.invites c
  /-- invite-only -/
  invite : 'i' ∈ ch.modes → Covers s ch.invites c
  key : 'k' ∈ ch.modes → KeyFits c ch key
  limit : 'l' ∈ ch.modes → members s ch.ref < ch.maxusers
  /-- encrypted connections only -/
  ssl : 'z' ∈ ch.modes → ∃ k ∈ s.conns, c.conn = some k.idx ∧ k.ssl = true
  /-- IRC operators only -/
  oper : 'O' ∈ ch.modes → 'o' ∈ c.modes
  /-- registered nicks only -/
  registered : 'R' ∈ ch.modes → 'R' ∈ c.modes

/-- The ranks a client gets on joining an existing channel: none, except that on channels with
the mode `P` the server may be configured to give IRC operators operator status. -/
def rankOnJoin (s : Srv) (c : Client) (ch : Chan) : Str :=
  if 'P' ∈ ch.modes ∧ s.conf.operChanPAutoOp = true ∧ 'o' ∈ c.modes then ['o'] else []

/-- The channel is still the same and its settings have not changed: modes, key, limit, bans and
exceptions. -/
def SameSettings (c d : Chan) : Prop :=
  d.ref = c.ref ∧ d.name = c.name ∧ d.modes = c.modes ∧ d.key = c.key ∧ d.maxusers = c.maxusers ∧
  d.bans = c.bans ∧ d.excepts = c.excepts ∧ d.keyfile = c.keyfile

/-! ## Ranks -/

/-- An IRC operator, and the configuration lets operators override channel ranks. -/
def Override (s : Srv) (r : Nat) : Prop := HasUMode s r 'o' ∧ s.conf.operCanMode = true

/-- Owner of the channel, or above. -/
def IsOwner (s : Srv) (ch r : Nat) : Prop := Override s r ∨ HasRank s ch r 'q'

/-- Admin of the channel, or above. -/
def IsAdmin (s : Srv) (ch r : Nat) : Prop := IsOwner s ch r ∨ HasRank s ch r 'a'

/-- Operator of the channel, or above. -/
def IsChop (s : Srv) (ch r : Nat) : Prop := IsAdmin s ch r ∨ HasRank s ch r 'o'

/-- Half operator of the channel, or above. -/
def IsHalf (s : Srv) (ch r : Nat) : Prop := IsChop s ch r ∨ HasRank s ch r 'h'

/-- The channel modes there are. -/
def channelModes : Str := "iklmMnNOPQRstVz".toList

/-- What is needed to set a channel mode. -/
def MaySet (s : Srv) (ch r : Nat) (m : Char) : Prop :=
  m ∈ channelModes ∧ IsHalf s ch r ∧ (m ∈ "Rsz".toList → IsChop s ch r) ∧ (m ∈ "OP".toList → Override s r)

/-- What is needed to clear a channel mode. -/
def MayUnset (s : Srv) (ch r : Nat) (m : Char) : Prop :=
  m ∈ channelModes ∧ IsHalf s ch r ∧ (m ∈ "RszOP".toList → IsChop s ch r)

/-- What is needed to give or take a member's rank: only owners deal with owners, only admins
with admins, only operators with operators and half operators, and half operators with voices. -/
def MayRank (s : Srv) (ch r : Nat) (m : Char) : Prop :=
  m ∈ "qaohv".toList ∧ IsHalf s ch r ∧ (m = 'q' → IsOwner s ch r) ∧ (m = 'a' → IsAdmin s ch r) ∧
  (m = 'o' ∨ m = 'h' → IsChop s ch r)

/-- The client `r` was entitled to change the channel from `c` to `d`. -/
structure ChannelChange (s : Srv) (r : Nat) (c d : Chan) : Prop where
  /-- only modes, key, limit and lists may change -/
  rest : d = { c with modes := d.modes, key := d.key, maxusers := d.maxusers, bans := d.bans,
                      excepts := d.excepts, invites := d.invites }
  /-- nothing at all without being half operator -/
  half : d = c ∨ IsHalf s c.ref r
  set : ∀ m ∈ d.modes, m ∈ c.modes ∨ MaySet s c.ref r m
  unset : ∀ m ∈ c.modes, m ∈ d.modes ∨ MayUnset s c.ref r m

/-- The client `r` was entitled to change the membership from `a` to `b`. -/
structure RankChange (s : Srv) (r : Nat) (a b : Cl2Chan) : Prop where
  chan : b.chan = a.chan
  client : b.client = a.client
  half : b = a ∨ IsHalf s a.chan r
  give : ∀ m ∈ b.modes, m ∈ a.modes ∨ MayRank s a.chan r m
  take : ∀ m ∈ a.modes, m ∈ b.modes ∨ MayRank s a.chan r m

/-! ## Kicks -/

/-- The rank of `r` suffices to remove the member `m`: owners remove everybody, admins everybody
but owners, operators everybody below admin, half operators everybody below operator; IRC
operators with override everybody. -/
def Outranks (s : Srv) (r : Nat) (m : Cl2Chan) : Prop :=
  Override s r ∨ HasRank s m.chan r 'q' ∨
  (HasRank s m.chan r 'a' ∧ 'q' ∉ m.modes) ∨
  (HasRank s m.chan r 'o' ∧ 'q' ∉ m.modes ∧ 'a' ∉ m.modes) ∨
  (HasRank s m.chan r 'h' ∧ 'q' ∉ m.modes ∧ 'a' ∉ m.modes ∧ 'o' ∉ m.modes)

/-- The user `r` may remove the member `m` from the channel `c`. -/
structure MayKick (s : Srv) (r : Nat) (c : Chan) (m : Cl2Chan) : Prop where
  /-- only members kick -/
  on : OnChannel s c.ref r
  /-- channels without kicks, protected users and services -/
  shielded : ('Q' ∈ c.modes ∨ HasUMode s m.client 'q' ∨ ∃ x ∈ s.clients, x.ref = m.client ∧ x.type = .service) →
    HasUMode s r 'o'
  rank : Outranks s r m

/-! ## Topics -/

/-- The user `r` may change the topic of the channel `c`. -/
structure MayTopic (s : Srv) (r : Nat) (c : Chan) : Prop where
  /-- only members, and IRC operators with override -/
  on : OnChannel s c.ref r ∨ Override s r
  /-- protected topics: half operators and above, and IRC operators -/
  power : 't' ∈ c.modes → HasUMode s r 'o' ∨ HasRank s c.ref r 'h' ∨ HasRank s c.ref r 'o' ∨
    HasRank s c.ref r 'a' ∨ HasRank s c.ref r 'q'

/-- Nothing but the topic, who set it and when differs. -/
def SameButTopic (c d : Chan) : Prop :=
  d = { c with topic := d.topic, topicTime := d.topicTime, topicWho := d.topicWho }

end Ngircd.Spec

namespace Ngircd.Spec

/-- The state in which the channel `ch` does not exist, everything else being the same. -/
def without (s : Srv) (ch : Nat) : Srv :=
  { s with chans := s.chans.filter (fun c => decide (c.ref ≠ ch)),
           cl2 := s.cl2.filter (fun m => decide (m.chan ≠ ch)) }

end Ngircd.Spec
