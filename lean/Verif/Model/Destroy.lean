import Verif.Model.Channel

/-!
# Removing clients and closing connections

Model of `Client_Destroy`, `Client_Introduce`, `Client_Announce`, `Client_Reject`,
`Client_CheckNick`, `Client_CheckID` (client.c), `Conn_Close` (conn.c),
`Class_HandleServerBans` (class.c) and `IRC_KillClient` (irc.c).
-/

namespace Ngircd

/-- `CONNECTED`/`DISCONNECTED`, the result of most handlers. -/
abbrev HRes := Srv × Bool

/-- `Destroy_UserOrService`, client.c:1541-1585; the client is already unlinked. -/
def destroyUserOrService (s : Srv) (c : Client) (fwd : Option Str) (sendQuit : Bool) : Srv :=
  let m : Msg := ⟨"QUIT", [fwd.getD []]⟩
  let s :=
    if sendQuit then
      if c.conn.isSome then writeServers s none c m
      else writeServers s (some (nextHop s c).ref) c m
    else s
  let s := channelQuit s c (fwd.getD c.id)
  registerWhowas s c

/-- The part of `Client_Destroy` for the client itself, client.c:270-316: unlink it and
tell the others. -/
def destroySelf (s : Srv) (c : Client) (fwd : Option Str) (sendQuit : Bool) : Srv :=
  let s := { s with clients := s.clients.filter (fun x => x.ref != c.ref) }
  match c.type with
  | .user => destroyUserOrService s c fwd sendQuit
  | .service => destroyUserOrService s c fwd sendQuit
  | .server =>
    if s.sigQuit then s
    else writeServers s (some (nextHop s c).ref) c ⟨"SQUIT", [c.id, fwd.getD []]⟩
  | _ => s

/-- The test of the loop of `Client_Destroy`, client.c:227-322: `c` is the client to be
removed or, if that is a server, a child of it. -/
def destroyHit (s : Srv) (r : Nat) (c : Client) : Bool :=
  (decide ((s.cl r).type = .server) && c.introducer == r && c.ref != r) || c.ref == r

/-- `Client_Destroy`, client.c:227-322: the scan of the list starts again after each child
removed.  `fuel` bounds the number of restarts and the recursion depth together; one more
than the number of clients is enough (see Lemmas/Destroy). -/
def destroyF : Nat → Srv → Nat → Option Str → Bool → Srv
  | 0, s, _, _, _ => s
  | n + 1, s, r, fwd, sendQuit =>
    match s.clients.find? (destroyHit s r) with
    | none => s
    | some c =>
      if c.ref = r then destroySelf s c fwd sendQuit
      else
        let split := (s.cl s.this).id ++ ' ' :: (s.cl r).id
        destroyF n (destroyF n s c.ref (some split) false) r fwd sendQuit

/-- `Client_Destroy`, client.c:227-322. -/
def clientDestroy (s : Srv) (r : Nat) (fwd : Option Str) (sendQuit : Bool) : Srv :=
  destroyF (s.clients.length + 1) s r fwd sendQuit

/-- `Conn_GetClient`, conn.c:2425-2434. -/
def connClient (s : Srv) (i : Nat) : Option Nat := (s.conn? i).map (fun k => k.client)

/-- The farewell of `Conn_Close`, conn.c:1034-1181. -/
def closeMsgs (s : Srv) (i : Nat) (c : Client) (fwd : Option Str) : Srv :=
  let s :=
    if c.type = .user then
      s.emit i (some (s.cl s.this).ID) ⟨"NOTICE", [c.ID, "Connection statistics".toList]⟩
    else s
  s.emit i none ⟨"ERROR", [c.ID, c.User, c.host, fwd.getD "\"\"".toList]⟩

/-- `Conn_Close`, conn.c:1034-1181.  Closing a connection that is not open fails an assertion
(conn.c:1058); the recursive case cannot arise as writes do not fail in the model. -/
def connClose (s : Srv) (i : Nat) (fwd : Option Str) (inform : Bool) : Srv :=
  match s.conn? i with
  | none => s.crash
  | some k =>
    let s := if inform then closeMsgs s i (s.cl k.client) fwd else s
    let s := { s with conns := s.conns.filter (fun x => x.idx != i) }
    let s := clientDestroy s k.client fwd true
    { s with srvConn := s.srvConn.filter (fun p => p.2 != i), numConns := s.numConns - 1 }

/-- `Client_Reject`, client.c:1286-1303. -/
def clientReject (s : Srv) (c : Client) (reason : Str) (inform : Bool) : Srv :=
  match c.conn with
  | none => s.crash
  | some i =>
    connClose s i (some (if inform then "Access denied: ".toList ++ reason
      else "Access denied: Bad password?".toList)) true

/-- `Class_HandleServerBans`, class.c:79-93 with `Class_GetMemberReason`, class.c:44-69.
Simplification: an entry without a reason text. -/
def handleServerBans (s : Srv) (r : Nat) : HRes :=
  let m := masksOf s (s.cl r)
  let g := listsCheckReason s.glines m
  let s := { s with glines := g.1 }
  match g.2 with
  | some e => (clientReject s (s.cl r) (e.reason.getD "listed".toList ++ " (G-Line)".toList) true, false)
  | none =>
    let k := listsCheckReason s.klines m
    let s := { s with klines := k.1 }
    match k.2 with
    | some e => (clientReject s (s.cl r) (e.reason.getD "listed".toList ++ " (K-Line)".toList) true, false)
    | none => (s, true)

/-- Decimal representation, `%d`. -/
def intStr (i : Int) : Str := (toString i).toList

/-- `Conn_Options(conn) & CONN_RFC1459`. -/
def isRfc1459 (s : Srv) (i : Nat) : Bool :=
  match s.conn? i with
  | some k => k.rfc1459
  | none => false

/-- The lines of `Client_Announce`, client.c:1615-1692, for the server `to`. -/
def announceMsgs (s : Srv) (to prefix_ : Client) (u : Client) : List Sent :=
  match to.conn with
  | none => []
  | some i =>
    let home := s.cl u.introducer
    let p := some (getPrefix s (nextHop s to) prefix_)
    let a : List Sent :=
      if isRfc1459 s i then
        [⟨i, none, ⟨"NICK", [u.ID, intStr (u.hops + 1)]⟩⟩,
         ⟨i, some u.ID, ⟨"USER", [u.User, u.host, home.ID, u.info]⟩⟩] ++
        (if u.modes.isEmpty then [] else [⟨i, some u.ID, ⟨"MODE", [u.ID, '+' :: u.modes]⟩⟩])
      else if u.type = .service && to.hasFlag 'S' then
        [⟨i, p, ⟨"SERVICE", [u.mask, intStr home.mytoken, "*".toList, '+' :: u.modes,
          intStr (u.hops + 1), u.info]⟩⟩]
      else
        [⟨i, p, ⟨"NICK", [u.ID, intStr (u.hops + 1), u.User, u.host, intStr home.mytoken,
          '+' :: u.modes, u.info]⟩⟩]
    let b : List Sent :=
      if to.hasFlag 'M' then
        (match u.cloaked with
         | some h => [⟨i, p, ⟨"METADATA", [u.ID, "cloakhost".toList, h]⟩⟩]
         | none => []) ++
        (match u.account with
         | some h => [⟨i, p, ⟨"METADATA", [u.ID, "accountname".toList, h]⟩⟩]
         | none => [])
      else []
    a ++ b

/-- `Conf_GetServer`, conf.c:587-598: the first entry in the configuration that uses the connection. -/
def confGetServer (s : Srv) (i : Nat) : Option Nat :=
  (List.range s.conf.servers.length).find? (fun slot => s.srvConn.contains (slot, i))

/-- `Conf_NickIsService`, conf.c:722-730. -/
def nickIsService (s : Srv) (slot : Nat) (nick : Str) : Bool :=
  match s.conf.servers[slot]? with
  | some cs => matchCaseInsensitiveList cs.svsMask nick [',']
  | none => false

/-- `Conf_NickIsBlocked`, conf.c:738-750. -/
def nickIsBlocked (s : Srv) (nick : Str) : Bool :=
  s.conf.servers.any (fun cs => matchCaseInsensitiveList cs.svsMask nick [','])

/-- Is the nick a service of the server on the connection of `from`?  Part of
`Client_Introduce`, client.c:1313-1345. -/
def introducedAsService (s : Srv) (from_ u : Client) : Bool :=
  match from_.conn with
  | none => false
  | some i =>
    match confGetServer s i with
    | none => false
    | some slot => nickIsService s slot u.ID

/-- `Client_Introduce`, client.c:1313-1345; `from_ = none` is NULL. -/
def clientIntroduce (s : Srv) (from_ : Option Nat) (r : Nat) (t : CType) : Srv :=
  let s := clientSetType s r t
  let s := match from_ with
    | some f => if introducedAsService s (s.cl f) (s.cl r) then clientSetType s r .service else s
    | none => s
  let p := match from_ with | some f => s.cl f | none => s.cl s.this
  s.emits ((peerServers s from_ none).flatMap (fun to => announceMsgs s to p (s.cl r)))

/-- `Client_CheckNick`, client.c:1021-1056. -/
def clientCheckNick (s : Srv) (client : Client) (nick : Str) : HRes :=
  if !isValidNick s.conf.maxNickLength nick then
    if nick.length ≥ s.conf.maxNickLength then
      (writeErr s client ⟨"ERR_NICKNAMETOOLONG_MSG",
        [client.ID, nick, intStr (s.conf.maxNickLength - 1)]⟩, false)
    else (writeErr s client ⟨"ERR_ERRONEUSNICKNAME_MSG", [client.ID, nick]⟩, false)
  else if client.type ≠ .server && client.type ≠ .service && nickIsBlocked s nick then
    (writeErr s client ⟨"ERR_FORBIDDENNICKNAME_MSG", [client.ID, nick]⟩, false)
  else if (clientSearch s nick).isSome then
    (writeErr s client ⟨"ERR_NICKNAMEINUSE_MSG", [client.ID, nick]⟩, false)
  else (s, true)

/-- `Client_CheckID`, client.c:1059-1092. -/
def clientCheckID (s : Srv) (client : Client) (id : Str) : HRes :=
  match client.conn with
  | none => (s.crash, false)
  | some i =>
    if id.length > CLIENT_ID_LEN then
      (writeErr s client ⟨"ERR_ERRONEUSNICKNAME_MSG", [client.ID, id]⟩, false)
    else if s.clients.any (fun c => caseEq c.id id) then
      (connClose s i (some ("ID \"".toList ++ id ++ "\" already registered".toList)) true, false)
    else (s, true)

/-- `IRC_KillClient`, irc.c:348-412.  `client`/`from_ = none` are NULL; reporting an error to a
NULL client is a NULL dereference. -/
def killClient (s : Srv) (client from_ : Option Nat) (nick reason : Str) : HRes :=
  match clientSearch s nick with
  | none => (s, true)
  | some c =>
    let badTarget := c.type ≠ .user && c.type ≠ .gotNick && c.type ≠ .service
    if badTarget && client ≠ some s.this then
      match client with
      | none => (s.crash, false)
      | some k =>
        (writeErr s (s.cl k) ⟨if c.type = .server then "ERR_CANTKILLSERVER_MSG"
          else "ERR_NOPRIVILEGES_MSG", [(s.cl k).ID]⟩, true)
    else
      let s := writeServers s (if from_.isSome then client else none)
        (match from_ with | some f => s.cl f | none => s.cl s.this) ⟨"KILL", [nick, reason]⟩
      let myConn := client.bind (fun k => (s.cl k).conn)
      let s := match c.conn with
        | some i => connClose s i (some reason) true
        | none => clientDestroy s c.ref (some reason) false
      (s, match myConn with
        | some i => (connClient s i).isSome
        | none => false)

end Ngircd
