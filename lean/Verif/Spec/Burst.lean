import Verif.Spec.Introduce

/-!
# Vocabulary: what a newly linked server is told
-/

namespace Ngircd.Spec

/-- A line of server `by_` for the peer at connection `i`. -/
def peerLine (i : Nat) (by_ : Client) (m : Msg) : Sent := ⟨i, some by_.ID, m⟩

/-- How the server `d` is announced. -/
def serverLine (d : Client) : Msg := ⟨"SERVER", [d.ID, intStr (d.hops + 1), intStr d.mytoken, d.info]⟩

/-- The server on whose behalf `d` is announced: this one for its own links, else the one that introduced it. -/
def sponsor (t : Srv) (d : Client) : Client :=
  if d.hops = 1 then t.cl t.this else match d.topserver with | some r => t.cl r | none => t.cl t.this

/-- The signs for the ranks of a member; only the signs for `o` and `v` unless the peer knows all (flag `X`). -/
def rankSigns (all : Bool) (ranks : Str) : Str :=
  ([('q', '~'), ('a', '&'), ('o', '@'), ('h', '%'), ('v', '+')].filter
    (fun x => decide (x.1 ∈ ranks) && (all || x.1 == 'o' || x.1 == 'v'))).map (·.2)

/-- The members of a channel. -/
def channelMembers (t : Srv) (ch : Chan) : List Cl2Chan := t.cl2.filter (fun m => decide (m.chan = ch.ref))

/-- The properties of a channel, unless there are none: modes, key and limit if set, topic. -/
def infoLines (t : Srv) (i : Nat) (ch : Chan) : List Sent :=
  if ch.modes = [] ∧ ch.topic = [] then []
  else if 'k' ∉ ch.modes ∧ 'l' ∉ ch.modes then
    [peerLine i (t.cl t.this) ⟨"CHANINFO", [ch.name, '+' :: ch.modes] ++ (if ch.topic = [] then [] else [ch.topic])⟩]
  else [peerLine i (t.cl t.this) ⟨"CHANINFO", [ch.name, '+' :: ch.modes, if 'k' ∈ ch.modes ∧ ch.key ≠ [] then ch.key else "*".toList,
    if 'l' ∈ ch.modes then intStr ch.maxusers else "0".toList, ch.topic]⟩]

/-- The members of a channel with their ranks: all in one line, or in the old protocol one JOIN per member and one MODE per rank. -/
def memberLines (t : Srv) (i : Nat) (p : Client) (ch : Chan) : List Sent :=
  if oldStyle t i then
    (channelMembers t ch).flatMap (fun m => peerLine i (t.cl m.client) ⟨"JOIN", [ch.name]⟩ ::
      m.modes.map (fun x => peerLine i (t.cl m.client) ⟨"MODE", [ch.name, ['+', x], (t.cl m.client).ID]⟩))
  else if channelMembers t ch = [] then []
  else [peerLine i (t.cl t.this) ⟨"NJOIN", ch.name :: (channelMembers t ch).map (fun m => rankSigns ('X' ∈ p.flags) m.modes ++ (t.cl m.client).ID)⟩]

/-- A list of a channel. -/
def maskLines (t : Srv) (i : Nat) (ch : Chan) (letter : Char) (l : MaskList) : List Sent :=
  l.map (fun e => peerLine i (t.cl t.this) ⟨"MODE", [ch.name, ['+', letter], e.mask]⟩)

/-- The network-wide bans with their remaining time, and the lists of all channels. -/
def listLines (t : Srv) (i : Nat) : List Sent :=
  t.glines.map (fun e => peerLine i (t.cl t.this) ⟨"GLINE", [e.mask, intStr (if (e.validUntil : Int) > t.now then (e.validUntil : Int) - t.now else 0), e.reason.getD []]⟩) ++
  t.chans.flatMap (fun c => maskLines t i c 'e' c.excepts ++ maskLines t i c 'b' c.bans ++ maskLines t i c 'I' c.invites)

/-- Everything but the servers. -/
def networkLines (t : Srv) (i : Nat) (p : Client) : List Sent :=
  (t.clients.filter (fun u => decide (u.type = .user) || decide (u.type = .service))).flatMap (introLines t i p (t.cl t.this)) ++
  (t.chans.filter (fun c => decide (c.name.head? ≠ some '&'))).flatMap (fun c => (if 'C' ∈ p.flags then infoLines t i c else []) ++ memberLines t i p c) ++
  (if 'L' ∈ p.flags then listLines t i else []) ++ [peerLine i (t.cl t.this) ⟨"PING", [(t.cl t.this).ID]⟩]

/-- Of the lines `o` (newest first), the new link `p` at connection `i` got `hello`, then the whole network: every other server exactly once, nearer
ones first, then all users, channels and bans; every other link got exactly one line about the new server; nobody else got anything. -/
structure BurstTold (t : Srv) (i : Nat) (p : Client) (hello o : List Sent) : Prop where
  peer : ∃ sv : List Client, sv.Nodup ∧ (∀ d, d ∈ sv ↔ d ∈ t.clients ∧ d.type = .server ∧ d.ref ≠ p.ref ∧ d.ref ≠ t.this) ∧
    sv.Pairwise (fun a b => a.hops ≤ b.hops) ∧
    (onConn o i).reverse = hello ++ sv.map (fun d => peerLine i (sponsor t d) (serverLine d)) ++ networkLines t i p
  links : ∀ j d, d ∈ t.clients → d.type = .server → d.conn = some j → j ≠ i → onConn o j = [peerLine j (t.cl t.this) (serverLine p)]
  others : ∀ y ∈ o, isLink t y.conn = true

end Ngircd.Spec
