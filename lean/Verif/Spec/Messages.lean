import Verif.Spec.Channels

/-!
# Vocabulary for messages
-/

namespace Ngircd.Spec

/-- Nothing has changed except that the lines `o` have been sent (newest first). -/
def Emitted (s t : Srv) (o : List Sent) : Prop := ∃ r, t = { s with out := o ++ s.out, rnd := r }

/-- The lines among `o` sent on connection `j`. -/
def onConn (o : List Sent) (j : Nat) : List Sent := o.filter (fun x => x.conn == j)

/-- The connection `j` is a link to another server. -/
def isLink (s : Srv) (j : Nat) : Bool := s.clients.any (fun d => d.conn == some j && d.type == .server)

/-- How the sender `f` is shown on connection `j`: by its name on server links, by its mask (with
the cloaked host name) to clients. -/
def shownAs (s : Srv) (f : Client) (j : Nat) : Str := if isLink s j then f.ID else maskCloaked s f

/-- The client may speak on the channel. -/
structure MaySpeak (s : Srv) (f : Client) (c : Chan) : Prop where
  /-- no messages from outside -/
  outside : 'n' ∈ c.modes → OnChannel s c.ref f.ref
  /-- registered nicks only -/
  registered : 'M' ∈ c.modes → 'R' ∈ f.modes ∨ 'o' ∈ f.modes
  /-- without a rank: not on moderated channels, and not when banned without exception -/
  rank : (∃ m ∈ "vhoaq".toList, HasRank s c.ref f.ref m) ∨
    ('m' ∉ c.modes ∧ (Covers s c.bans f → Covers s c.excepts f))

/-- The target of a message is a plain name. -/
def PlainName (n : Str) : Prop := '!' ∉ n ∧ '@' ∉ n ∧ '%' ∉ n ∧ ',' ∉ n ∧ n ≠ [] ∧ n.length < CLIENT_ID_LEN

/-- No client is addressed by this name, neither by its nick nor by its user name. -/
def NobodysName (s : Srv) (n : Str) : Prop :=
  ∀ c ∈ s.clients, ¬ SameCase c.id n ∧ ((c.type = .user ∨ c.type = .service) → ¬ SameCase n c.User)

/-- The client `f` may send messages to the client `x`. -/
structure MayMessage (s : Srv) (f x : Client) : Prop where
  kind : x.type = .user ∨ x.type = .service
  /-- accepts messages of registered nicks only -/
  blocks : 'b' ∈ x.modes → 'R' ∈ f.modes ∨ 'o' ∈ f.modes ∨ f.type = .server ∨ f.type = .service
  /-- accepts messages only from clients it shares a channel with -/
  common : 'C' ∈ x.modes → 'o' ∈ f.modes ∨ f.type = .server ∨ f.type = .service ∨
    ∃ ch, OnChannel s ch x.ref ∧ OnChannel s ch f.ref

/-- The lines of a message command among `o` sent on connection `j`. -/
def messagesOn (o : List Sent) (cmd : String) (j : Nat) : List Sent :=
  o.filter (fun y => y.conn == j && y.msg.cmd == cmd)

/-- A local client, other than the client `r`, that shares a channel with it is connected at `j`. -/
def Related (s : Srv) (r j : Nat) : Prop :=
  ∃ x ∈ s.clients, x.ref ≠ r ∧ x.conn = some j ∧ x.type ≠ .server ∧ ∃ ch, OnChannel s ch r ∧ OnChannel s ch x.ref

/-- Of the lines `o`, apart from those on connection `i`, every connection of a local client sharing a channel
with `c` got exactly one, `m`; every server link got exactly one, `ml`; both show who it is about; and
there are no others. -/
structure Notified (s : Srv) (i : Nat) (c : Client) (m ml : Msg) (o : List Sent) : Prop where
  related : ∀ j, j ≠ i → Related s c.ref j → onConn o j = [⟨j, some (maskCloaked s c), m⟩]
  links : ∀ j, j ≠ i → isLink s j = true → onConn o j = [⟨j, some c.ID, ml⟩]
  others : ∀ y ∈ o, y.conn = i ∨ Related s c.ref y.conn ∨ isLink s y.conn = true

/-- A local member of the channel `ch` is connected at `j`. -/
def Listens (s : Srv) (ch j : Nat) : Prop :=
  ∃ x ∈ s.clients, x.conn = some j ∧ x.type ≠ .server ∧ OnChannel s ch x.ref

/-- Of the lines `o`, every connection of a local member of the channel `c` got exactly one, `m`, shown as coming
from `f`; so did every server link, except connection `i`, where it came from, unless `c` is a local
channel (its name starts with `&`); and there are no others. -/
structure Announced (s : Srv) (i : Nat) (c : Chan) (f : Client) (m : Msg) (o : List Sent) : Prop where
  members : ∀ j, Listens s c.ref j → onConn o j = [⟨j, some (maskCloaked s f), m⟩]
  links : c.name.head? ≠ some '&' → ∀ j, j ≠ i → isLink s j = true → onConn o j = [⟨j, some f.ID, m⟩]
  others : ∀ y ∈ o, Listens s c.ref y.conn ∨ (c.name.head? ≠ some '&' ∧ y.conn ≠ i ∧ isLink s y.conn = true)

/-- Of the lines `o`, the client `me`, at connection `i`, got exactly one, `m`, as its own, if `here`; if `news`, every
other local member of the channel `c` got exactly one, `m`, shown as coming from `f`; so did every server link, except
connection `i`, unless `c` is a local channel; and there are no others. -/
structure TopicTold (s : Srv) (i : Nat) (here : Prop) (me : Client) (c : Chan) (f : Client) (m : Msg) (news : Prop) (o : List Sent) : Prop where
  self : here → onConn o i = [⟨i, some (maskCloaked s me), m⟩]
  members : news → ∀ j, j ≠ i → Listens s c.ref j → onConn o j = [⟨j, some (maskCloaked s f), m⟩]
  links : c.name.head? ≠ some '&' → ∀ j, j ≠ i → isLink s j = true → onConn o j = [⟨j, some f.ID, m⟩]
  others : ∀ y ∈ o, (here ∧ y.conn = i) ∨ (news ∧ Listens s c.ref y.conn) ∨
    (c.name.head? ≠ some '&' ∧ y.conn ≠ i ∧ isLink s y.conn = true)

/-- The server link at connection `j` speaks the old protocol. -/
def oldStyle (s : Srv) (j : Nat) : Bool := s.conns.any (fun k => k.idx == j && k.rfc1459)

/-- What a server link is told when `f` joins channel `n` with member modes `ms`, newest line first: the modes in the
JOIN itself or, with the old protocol, in a MODE after it. -/
def joinLinkLines (s : Srv) (f : Client) (n ms : Str) (j : Nat) : List Sent :=
  if oldStyle s j then
    (if ms = [] then [] else [⟨j, some f.ID, ⟨"MODE", [n, '+' :: ms, f.ID]⟩⟩]) ++ [⟨j, some f.ID, ⟨"JOIN", [n]⟩⟩]
  else [⟨j, some f.ID, ⟨"JOIN", [if ms = [] then n else n ++ '\x07' :: ms]⟩⟩]

/-- Of the lines `o` (newest first), the first for connection `i`, if a local user is there, tells of the JOIN of `f`
to channel `c`; every other local member got exactly that line, and one with the new member's modes, if any; so did
the other server links, unless `c` is a local channel; and there are no others. `s` is the state afterwards. -/
structure JoinTold (s : Srv) (i : Nat) (here : Prop) (c : Chan) (f : Client) (n ms : Str) (o : List Sent) : Prop where
  self : here → ∃ p, onConn o i = p ++ [⟨i, some (maskCloaked s f), ⟨"JOIN", [n]⟩⟩]
  members : ∀ j, j ≠ i → Listens s c.ref j → onConn o j =
    (if ms = [] then [] else [⟨j, some (maskCloaked s f), ⟨"MODE", [n, '+' :: ms, f.ID]⟩⟩]) ++
      [⟨j, some (maskCloaked s f), ⟨"JOIN", [n]⟩⟩]
  links : c.name.head? ≠ some '&' → ∀ j, j ≠ i → isLink s j = true → onConn o j = joinLinkLines s f n ms j
  others : ∀ y ∈ o, (here ∧ y.conn = i) ∨ Listens s c.ref y.conn ∨
    (c.name.head? ≠ some '&' ∧ y.conn ≠ i ∧ isLink s y.conn = true)

/-- The name is reserved for the services of a configured peer. -/
def Reserved (s : Srv) (n : Str) : Prop := ∃ cs ∈ s.conf.servers, matchCaseInsensitiveList cs.svsMask n [','] = true

/-- The user `c` may change its nick to `n`, another name. -/
structure MayRename (s : Srv) (c : Client) (n : Str) : Prop where
  other : n ≠ c.id
  /-- it is not restricted -/
  free : 'r' ∉ c.modes
  /-- the name is valid and nobody else's -/
  name : SameCase c.id n ∨
    (ValidNick s.conf.maxNickLength n ∧ ¬ Reserved s n ∧ ∀ d ∈ s.clients, ¬ SameCase d.id n)
  /-- it is on no channel whose members keep their nicks -/
  channels : 'o' ∈ c.modes ∨ ∀ ch ∈ s.chans, 'N' ∈ ch.modes → ¬ OnChannel s ch.ref c.ref

/-- The text of a QUIT command as shown to others: in quotes, unless it starts with one. -/
def quoted (a : Str) : Str := if a.head? = some '"' then a else '"' :: (a ++ ['"'])

end Ngircd.Spec

namespace Ngircd.Spec

/-- A local user that wants to see WALLOPS is connected at `j`. -/
def WantsWallops (s : Srv) (j : Nat) : Prop := ∃ x ∈ s.clients, x.conn = some j ∧ x.type = .user ∧ 'w' ∈ x.modes

/-- Of the lines `o`, every local user with mode `w`, and every server link but the one at connection `i`, got exactly
one WALLOPS with this text, showing `f` as its sender; and there are no others. -/
structure WallopsTold (s : Srv) (i : Nat) (f : Client) (text : Str) (o : List Sent) : Prop where
  users : ∀ j, WantsWallops s j → onConn o j = [⟨j, some (maskCloaked s f), ⟨"WALLOPS", [text]⟩⟩]
  links : ∀ j, j ≠ i → isLink s j = true → onConn o j = [⟨j, some f.ID, ⟨"WALLOPS", [text]⟩⟩]
  others : ∀ y ∈ o, WantsWallops s y.conn ∨ (y.conn ≠ i ∧ isLink s y.conn = true)

/-- The state with the client `r` changed by `g`. -/
def withClient (s : Srv) (r : Nat) (g : Client → Client) : Srv :=
  { s with clients := s.clients.map (fun d => if d.ref = r then g d else d) }

/-- Of the lines `o`, the client at connection `i` got exactly one, with message `a` of this server; every server link
got exactly one, `m`, coming from `f`; and there are no others. -/
structure AnsweredAndTold (s : Srv) (i : Nat) (f : Client) (a m : Msg) (o : List Sent) : Prop where
  self : ∃ p, onConn o i = [⟨i, p, a⟩]
  links : ∀ j, isLink s j = true → onConn o j = [⟨j, some f.ID, m⟩]
  others : ∀ y ∈ o, y.conn = i ∨ isLink s y.conn = true

end Ngircd.Spec

namespace Ngircd.Spec

/-- The client `r` may invite the client `x` to the channel `c`. -/
structure MayInvite (s : Srv) (r x : Nat) (c : Chan) : Prop where
  /-- only members invite -/
  on : OnChannel s c.ref r
  /-- not on channels without invitations -/
  free : 'V' ∉ c.modes
  /-- to invite-only channels half operators and above only -/
  rank : 'i' ∈ c.modes → HasRank s c.ref r 'q' ∨ HasRank s c.ref r 'a' ∨ HasRank s c.ref r 'o' ∨ HasRank s c.ref r 'h'
  /-- not if already there -/
  out : ¬ OnChannel s c.ref x

/-- Of the lines `o` (newest first), the first is the invitation, towards the invited user `x`, showing who invites; after that
the inviting client `f`, at connection `i`, is told that a local user has been invited, and its away message, if
any; and there are no others. -/
def InviteTold (s : Srv) (i : Nat) (f x : Client) (n a : Str) (o : List Sent) : Prop :=
  ∃ k p, Behind s k x ∧ o = p ++ [⟨k, some (shownAs s f k), ⟨"INVITE", [n, a]⟩⟩] ∧ (∀ y ∈ p, y.conn = i) ∧
    p.map Sent.msg = if x.conn = none then [] else
      (if 'a' ∈ x.modes then [⟨"RPL_AWAY_MSG", [f.ID, x.ID, x.away.getD []]⟩] else []) ++ [⟨"RPL_INVITING_MSG", [f.ID, n, a]⟩]

/-- The state with the invitations of channel `ch` changed to `l`. -/
def withInvites (s : Srv) (ch : Nat) (l : MaskList) : Srv :=
  { s with chans := s.chans.map (fun d => if d.ref = ch then { d with invites := l } else d) }

end Ngircd.Spec

namespace Ngircd.Spec

/-- Of the lines `o`, the client at connection `i` got exactly one, `m`, if `here`; so did every other local member of the
channel `ch` and, if `far`, every server link except connection `i`; all show `f` as the sender, and there are no
others. -/
structure ModeTold (s : Srv) (i : Nat) (here : Prop) (ch : Nat) (f : Client) (far : Prop) (m : Msg) (o : List Sent) : Prop where
  self : here → onConn o i = [⟨i, some (maskCloaked s f), m⟩]
  members : ∀ j, j ≠ i → Listens s ch j → onConn o j = [⟨j, some (maskCloaked s f), m⟩]
  links : far → ∀ j, j ≠ i → isLink s j = true → onConn o j = [⟨j, some f.ID, m⟩]
  others : ∀ y ∈ o, (here ∧ y.conn = i) ∨ Listens s ch y.conn ∨ (far ∧ y.conn ≠ i ∧ isLink s y.conn = true)

/-- The state with the channel `ch` changed by `g`. -/
def withChannel (s : Srv) (ch : Nat) (g : Chan → Chan) : Srv :=
  { s with chans := s.chans.map (fun d => if d.ref = ch then g d else d) }

/-- The letters of `ms` that are not among the modes `old`, when setting; that are, when clearing. -/
def changed (set : Bool) (old ms : Str) : Str := ms.filter (fun m => if set then !old.contains m else old.contains m)

/-- The modes after setting or clearing the letters `ms`. -/
def modesWith (set : Bool) (old ms : Str) : Str :=
  if set then old ++ changed set old ms else old.filter (fun m => !ms.contains m)

end Ngircd.Spec

namespace Ngircd.Spec

/-- The mask a pattern stands for: missing parts are filled with `*`, a pattern without `!` and `@` is a nick. -/
def normalMask (p : Str) : Str :=
  if '@' ∉ p ∧ '!' ∉ p then p ++ "!*@*".toList
  else if '@' ∉ p then p ++ "@*".toList
  else if '!' ∈ p.takeWhile (· != '@') then p
  else p.takeWhile (· != '@') ++ "!*@".toList ++ p.drop ((p.takeWhile (· != '@')).length + 1)

/-- The state with the modes of the client `r` on channel `ch` changed by `g`. -/
def withRank (s : Srv) (ch r : Nat) (g : Str → Str) : Srv :=
  { s with cl2 := s.cl2.map (fun k => if k.chan = ch ∧ k.client = r then { k with modes := g k.modes } else k) }

end Ngircd.Spec
