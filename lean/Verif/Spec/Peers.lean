import Verif.Spec.NetInfo

/-!
# Vocabulary: what servers tell each other about clients and channels
-/

namespace Ngircd.Spec

/-- At connection `j` there is a linked server that understands the extension `x`. -/
def Speaks (s : Srv) (j : Nat) (x : Char) : Prop := ∃ d ∈ s.clients, d.type = .server ∧ d.conn = some j ∧ x ∈ d.flags

/-- What METADATA does to a client: remember that it is known to METADATA, and set the property. -/
def metaClient (conf : Conf) (key val : Str) (c : Client) : Client :=
  let c := { c with flags := if 'M' ∈ c.flags then c.flags else (c.flags ++ ['M']).take 15 }
  if SameCase key "cloakhost".toList then { c with cloaked := some (val.take 63) }
  else if SameCase key "host".toList ∧ val ≠ [] then { c with host := knownHost conf c.host val }
  else if SameCase key "info".toList then { c with info := if conf.cloakUserToNick then c.id.take 127 else val.take 127 }
  else if SameCase key "user".toList ∧ val ≠ [] then { c with user := if conf.cloakUserToNick then c.id.take 19 else val.take 19 }
  else if SameCase key "accountname".toList then { c with account := if val = [] then none else some (val.take 31) }
  else c

/-- The METADATA changes the host name the client is seen with. -/
def hostChanged (key val : Str) (c : Client) : Prop :=
  (SameCase key "cloakhost".toList ∧ 'x' ∈ c.modes) ∨ (SameCase key "host".toList ∧ val ≠ [] ∧ 'x' ∉ c.modes)

instance (key val : Str) (c : Client) : Decidable (hostChanged key val c) := by unfold hostChanged; infer_instance

/-- The METADATA line passed on. -/
def metaLine (t : Client) (key val : Str) : Msg :=
  ⟨"METADATA", t.ID :: if SameCase key "cloakhost".toList then ["cloakhost".toList, val.take 63] else [key, val]⟩

/-- Of the lines `o`, sent after METADATA for the client `t` (as it is now) came from `f` over the connection `i`: all other linked servers that understand METADATA got it, as it was; the client, if it is
connected here, got its new host name if that has changed for others; nobody else got anything. -/
structure MetaTold (s : Srv) (i : Nat) (f t : Client) (key val : Str) (o : List Sent) : Prop where
  links : ∀ j, j ≠ i → Speaks s j 'M' → onConn o j = [⟨j, some f.ID, metaLine t key val⟩]
  own : ∀ k, t.conn = some k → onConn o k = if hostChanged key val t then [⟨k, some (shownAs s f k), ⟨"RPL_HOSTHIDDEN_MSG", [t.ID, publicHost s t]⟩⟩] else []
  others : ∀ y ∈ o, t.conn = some y.conn ∨ (y.conn ≠ i ∧ Speaks s y.conn 'M')

/-- The arguments of CHANINFO: channel, modes, possibly key and limit, and the topic (empty if there is none). -/
def infoArgs : List Str → Option (Str × Str × Option (Str × Str) × Str)
  | [n, m] => some (n, m, none, [])
  | [n, m, t] => some (n, m, none, t)
  | [n, m, k, l, t] => some (n, m, some (k, l), t)
  | _ => none

/-- The modes, key and limit CHANINFO gives to a channel: to one without modes only, and key and limit are not taken over if they are not told. -/
def infoModes (m : Str) (kl : Option (Str × Str)) (c : Chan) : Chan :=
  if m.head? = some '+' ∧ c.modes = [] then
    match kl with
    | some (k, l) => { c with modes := m.tail.take 20, key := if 'k' ∈ m.tail.take 20 then k.take 64 else c.key,
                              maxusers := if 'l' ∈ m.tail.take 20 then (atoi l).toNat else c.maxusers }
    | none => { c with modes := ((m.tail.take 20).erase 'l').erase 'k' }
  else c

/-- The topic CHANINFO gives to a channel: to one without topic only. -/
def infoTopic (now : Nat) (t : Str) (c : Chan) : Chan :=
  if c.topic = [] ∧ t ≠ [] then { c with topic := t, topicTime := now, topicWho := "-Server-".toList } else c

/-- What the members of the channel are told, in this order. -/
def infoTells (n m : Str) (kl : Option (Str × Str)) (t : Str) (c : Chan) : List Msg :=
  (if m.head? = some '+' ∧ c.modes = [] then
    [⟨"MODE", n :: ('+' :: (infoModes m kl c).modes) ::
      ((if 'l' ∈ (infoModes m kl c).modes then [intStr (infoModes m kl c).maxusers] else []) ++
       if 'k' ∈ (infoModes m kl c).modes then [(infoModes m kl c).key] else [])⟩] else []) ++
  if c.topic = [] ∧ t ≠ [] then [⟨"TOPIC", [n, t]⟩] else []

/-- Of the lines `o` (newest first), every local member of the channel `ch` got exactly `ms`, shown as coming from `f`; every linked server that
understands the extension `x`, except at connection `i`, got exactly `m`, coming from `f`; and nobody else got anything. -/
structure PeerTold (s : Srv) (i : Nat) (f : Client) (ch : Nat) (ms : List Msg) (x : Char) (m : Msg) (o : List Sent) : Prop where
  members : ∀ j, Listens s ch j → (onConn o j).reverse = ms.map (fun m => ⟨j, some (maskCloaked s f), m⟩)
  links : ∀ j, j ≠ i → Speaks s j x → onConn o j = [⟨j, some f.ID, m⟩]
  others : ∀ y ∈ o, (ms ≠ [] ∧ Listens s ch y.conn) ∨ (y.conn ≠ i ∧ Speaks s y.conn x)

/-- A channel that has just been made. -/
def emptyChannel (s : Srv) (n : Str) : Chan := { ref := s.nextRef, name := n.take 50, hash := Hash (n.take 50), creationTime := s.now }

/-- The state with the new channel `c`. -/
def withNewChannel (s : Srv) (c : Chan) : Srv := { s with chans := c :: s.chans, nextRef := s.nextRef + 1 }

/-- The signs of ranks in NJOIN. -/
def rankSign (c : Char) : Bool := "~&@%+".toList.contains c

/-- The ranks of a set of signs. -/
def signRanks (w : Str) : Str := ([('~', 'q'), ('&', 'a'), ('@', 'o'), ('%', 'h'), ('+', 'v')].filter (fun x => decide (x.1 ∈ w))).map (·.2)

/-- The signs, highest rank first, each once. -/
def signText (w : Str) : Str := "~&@%+".toList.filter (fun x => decide (x ∈ w))

/-- The clients named by the list of NJOIN, with their ranks, and with signs and name as text; names nobody has are left out. -/
def njoinNamed (s : Srv) (list : Str) : List (Client × Str × Str) :=
  (items list).filterMap (fun w => (clientNamed s (w.dropWhile rankSign)).map (fun c =>
    (c, signRanks (w.takeWhile rankSign), signText (w.takeWhile rankSign) ++ w.dropWhile rankSign)))

/-- The state in which these clients have joined the channel `ch`, with these ranks. -/
def withMembers (s : Srv) (ch : Nat) (new : List (Client × Str × Str)) : Srv :=
  { s with cl2 := (new.map (fun e => (⟨e.1.ref, ch, e.2.1⟩ : Cl2Chan))).reverse ++ s.cl2 }

/-- What a local member at connection `j` is told about one of them by the server `p`. -/
def njoinTells (s : Srv) (p : Client) (n : Str) (j : Nat) (e : Client × Str × Str) : List Sent :=
  ⟨j, some (maskCloaked s e.1), ⟨"JOIN", [n]⟩⟩ ::
    if e.2.1 = [] then [] else [⟨j, some (maskCloaked s p), ⟨"MODE", [n, '+' :: e.2.1, e.1.ID]⟩⟩]

/-- Of the lines `o` (newest first), sent after the server `p` at connection `i` told that the clients `new` are on the channel `ch`: every local member has been told, all other links have
got one NJOIN with all of them, and nobody else has got anything. -/
structure NjoinTold (s : Srv) (i : Nat) (p : Client) (n : Str) (ch : Nat) (new : List (Client × Str × Str)) (o : List Sent) : Prop where
  members : ∀ j, Listens s ch j → (onConn o j).reverse = new.flatMap (njoinTells s p n j)
  links : ∀ j, j ≠ i → isLink s j = true →
    onConn o j = if new = [] then [] else [⟨j, some (s.cl s.this).ID, ⟨"NJOIN", [n, [','].intercalate (new.map (·.2.2))]⟩⟩]
  others : ∀ y ∈ o, new ≠ [] ∧ (Listens s ch y.conn ∨ (y.conn ≠ i ∧ isLink s y.conn = true))

end Ngircd.Spec
