import Verif.Spec.Modes

/-!
# Vocabulary: how users and services are introduced to the other servers
-/

namespace Ngircd.Spec

/-- The lines that introduce the user or service `u` to the server `d` linked at connection `j`, oldest first; `via` is the
server they come from. The old protocol needs two or three commands; the new one has all in one `NICK`, or
`SERVICE` if the peer knows that command, and perhaps `METADATA`. The home server of `u` is
named by the token it has been announced with. -/
def introLines (t : Srv) (j : Nat) (d via u : Client) : List Sent :=
  (if oldStyle t j then
    [⟨j, none, ⟨"NICK", [u.ID, intStr (u.hops + 1)]⟩⟩,
     ⟨j, some u.ID, ⟨"USER", [u.User, u.host, (t.cl u.introducer).ID, u.info]⟩⟩] ++
    (if u.modes = [] then [] else [⟨j, some u.ID, ⟨"MODE", [u.ID, '+' :: u.modes]⟩⟩])
  else if u.type = .service ∧ 'S' ∈ d.flags then
    [⟨j, some via.ID, ⟨"SERVICE", [u.mask, intStr (t.cl u.introducer).mytoken, ['*'], '+' :: u.modes, intStr (u.hops + 1), u.info]⟩⟩]
  else
    [⟨j, some via.ID, ⟨"NICK", [u.ID, intStr (u.hops + 1), u.User, u.host, intStr (t.cl u.introducer).mytoken, '+' :: u.modes, u.info]⟩⟩]) ++
  (if 'M' ∈ d.flags then
    (match u.cloaked with | some h => [⟨j, some via.ID, ⟨"METADATA", [u.ID, "cloakhost".toList, h]⟩⟩] | none => []) ++
    (match u.account with | some a => [⟨j, some via.ID, ⟨"METADATA", [u.ID, "accountname".toList, a]⟩⟩] | none => [])
  else [])

/-- Of the lines `o` (newest first), every server link except connection `i` got exactly the introduction of `u`, coming from
`via`, and nobody else got anything. -/
structure Introduced (t : Srv) (i : Nat) (via u : Client) (o : List Sent) : Prop where
  links : ∀ j d, d ∈ t.clients → d.type = .server → d.conn = some j → j ≠ i → (onConn o j).reverse = introLines t j d via u
  others : ∀ y ∈ o, y.conn ≠ i ∧ isLink t y.conn = true

/-- What the peer at connection `i` calls `n` is one of its services, by the configuration of the link. -/
def IsServiceOf (s : Srv) (i : Nat) (n : Str) : Prop :=
  ∃ (slot : Nat) (cs : ConfServer), s.conf.servers[slot]? = some cs ∧ (slot, i) ∈ s.srvConn ∧ (∀ k < slot, (k, i) ∉ s.srvConn) ∧
    matchCaseInsensitiveList cs.svsMask n [','] = true

/-- The client introduced with these data as a client of the server `home`, cut to the sizes kept here. -/
def newcomer (s : Srv) (ty : CType) (home : Client) (nick : Str) (hops : Int) (user host : Str) (token : Int) (modes info : Str) : Client :=
  { ref := s.nextRef, id := nick.take 63, hash := Hash (nick.take 63), type := ty, conn := none, introducer := home.ref,
    host := knownHost s.conf [] host,
    user := (if s.conf.cloakUserToNick then nick.take 63 else user).take 19,
    info := (if s.conf.cloakUserToNick then nick.take 63 else info).take 127,
    hops := hops, token := token, modes := modes.take 20,
    away := if 'a' ∈ modes.take 20 then some "Away".toList else none, starttime := s.now }

/-- The state with `u` as a new client; the highest number of users seen so far is now `n`. -/
def withNewcomer (s : Srv) (u : Client) (n : Nat) : Srv :=
  { s with clients := u :: s.clients, nextRef := s.nextRef + 1, maxUsers := n }

end Ngircd.Spec
