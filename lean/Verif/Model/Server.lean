import Verif.Model.Login

/-!
# Model of src/ngircd/op.c, irc-server.c and numeric.c
-/

namespace Ngircd

/-! ## Operator checks -/

/-- `Op_Check`, op.c:66-92: the originator if it may administer this server. -/
def opCheck (s : Srv) (cl : Nat) (req : Request) : Option Client :=
  let c? := if (s.cl cl).type = .server then
      (match req.prefix? with
       | some p => clientSearch s p
       | none => some (s.cl cl))
    else some (s.cl cl)
  match c? with
  | none => none
  | some c =>
    if (s.cl cl).type = .server && c.type = .server then some c
    else if !c.hasMode 'o' then none
    else if c.conn.isNone && !s.conf.allowRemoteOper then none
    else some c

/-- `Op_NoPrivileges`, op.c:34-55. -/
def opNoPrivileges (s : Srv) (cl : Nat) (req : Request) : HRes :=
  let from_ := match req.prefix?.bind (clientSearch s) with
    | some f => f
    | none => s.cl cl
  (writeErr s from_ ⟨"ERR_NOPRIVILEGES_MSG", [from_.ID]⟩, true)

/-! ## numeric.c: the burst -/

/-- `Announce_Server`, numeric.c:119-143; `none` if the "top server" of the server announced
does not exist any more. -/
def announceServer (s : Srv) (client server : Client) : Option (List Sent) :=
  let a : List Sent :=
    if server.conn.isSome then
      (lineTo s server (s.cl s.this) ⟨"SERVER", [client.ID, intStr (client.hops + 1),
        intStr client.mytoken, client.info]⟩).toList
    else []
  let c? := if server.hops = 1 then some (s.cl s.this) else server.topserver.bind (s.cl? ·)
  c?.map (fun c => a ++ (lineTo s client c ⟨"SERVER", [server.ID, intStr (server.hops + 1),
    intStr server.mytoken, server.info]⟩).toList)

/-- The membership prefixes of `Announce_Channel`, numeric.c:39-112. -/
def njoinPrefix (xop : Bool) (modes : Str) : Str :=
  (if xop && hasChar modes 'q' then ['~'] else []) ++
  (if xop && hasChar modes 'a' then ['&'] else []) ++
  (if hasChar modes 'o' then ['@'] else []) ++
  (if xop && hasChar modes 'h' then ['%'] else []) ++
  (if hasChar modes 'v' then ['+'] else [])

/-- `Announce_Channel`, numeric.c:39-112.  Simplification: one NJOIN line, not split when it
gets too long. -/
def announceChannel (s : Srv) (client : Client) (i : Nat) (chan : Chan) : List Sent :=
  let ms := s.cl2.filter (fun m => m.chan == chan.ref)
  if isRfc1459 s i then
    ms.flatMap (fun m =>
      (lineTo s client (s.cl m.client) ⟨"JOIN", [chan.name]⟩).toList ++
      m.modes.flatMap (fun x => (lineTo s client (s.cl m.client)
        ⟨"MODE", [chan.name, ['+', x], (s.cl m.client).ID]⟩).toList))
  else if ms.isEmpty then []
  else (lineTo s client (s.cl s.this) ⟨"NJOIN", chan.name :: ms.map (fun m =>
    njoinPrefix (client.hasFlag 'X') m.modes ++ (s.cl m.client).ID)⟩).toList

/-- `Send_CHANINFO`, numeric.c:214-249. -/
def sendCHANINFO (s : Srv) (client : Client) (chan : Chan) : List Sent :=
  if chan.modes.isEmpty && chan.topic.isEmpty then []
  else
    let args := if !chan.hasMode 'k' && !chan.hasMode 'l' then
        [chan.name, '+' :: chan.modes] ++ (if chan.topic.isEmpty then [] else [chan.topic])
      else [chan.name, '+' :: chan.modes,
        if chan.hasMode 'k' && !chan.key.isEmpty then chan.key else "*".toList,
        if chan.hasMode 'l' then intStr chan.maxusers else "0".toList, chan.topic]
    (lineTo s client (s.cl s.this) ⟨"CHANINFO", args⟩).toList

/-- `Send_List`, numeric.c:150-165. -/
def sendList (s : Srv) (client : Client) (chan : Chan) (l : CList) : List Sent :=
  (chan.list l).flatMap (fun e =>
    (lineTo s client (s.cl s.this) ⟨"MODE", [chan.name, ['+', l.letter], e.mask]⟩).toList)

/-- `Synchronize_Lists`, numeric.c:173-207. -/
def synchronizeLists (s : Srv) (client : Client) : List Sent :=
  s.glines.flatMap (fun e =>
    let t : Int := (e.validUntil : Int) - s.now
    (lineTo s client (s.cl s.this) ⟨"GLINE", [e.mask, intStr (if t > 0 then t else 0),
      e.reason.getD []]⟩).toList) ++
  s.chans.flatMap (fun c => sendList s client c .excepts ++ sendList s client c .bans ++
    sendList s client c .invites)

/-- Highest hop count, numeric.c:271-278. -/
def maxHops (s : Srv) : Nat := s.clients.foldl (fun m c => max m c.hops.toNat) 0

/-- The servers `IRC_Num_ENDOFMOTD` announces, in order of their distance,
numeric.c:284-296. -/
def burstServers (s : Srv) (client : Nat) : List Client :=
  (List.range (maxHops s + 1)).flatMap (fun (i : Nat) => s.clients.filter (fun c =>
    c.type = .server && c.hops == (i : Int) && c.ref != client && c.ref != s.this))

/-- The lines of `IRC_Num_ENDOFMOTD` after the servers, numeric.c:298-341. -/
def burstRest (s : Srv) (client : Client) (i : Nat) : List Sent :=
  (s.clients.filter (fun c => c.type = .user || c.type = .service)).flatMap
    (fun u => announceMsgs s client (s.cl s.this) u) ++
  (s.chans.filter (fun c => !c.isLocal)).flatMap (fun c =>
    (if client.hasFlag 'C' then sendCHANINFO s client c else []) ++ announceChannel s client i c) ++
  (if client.hasFlag 'L' then synchronizeLists s client else []) ++
  (lineTo s client (s.cl s.this) ⟨"PING", [(s.cl s.this).ID]⟩).toList

/-- `IRC_Num_ENDOFMOTD`, numeric.c:258-344: the new server is registered and told everything. -/
def numENDOFMOTD (s : Srv) (cl : Nat) : HRes :=
  let s := clientSetType s cl .server
  let client := s.cl cl
  let ann := (burstServers s cl).map (announceServer s client)
  let s := if ann.all (fun a => a.isSome) then s else s.crash
  let s := s.emits (ann.flatMap (fun a => a.getD []))
  (s.emits (burstRest s client (client.conn.getD 0)), true)

/-- Does the peer announce another nick length, `IRC_Num_ISUPPORT`, numeric.c:349-379. -/
def badNickLen (s : Srv) (req : Request) : Bool :=
  ((req.argv.drop 1).dropLast).any (fun key =>
    cutAt key '=' == "NICKLEN".toList &&
    atoi (match strchr key '=' with | some r => r.tail | none => []) ≠ (s.conf.maxNickLength : Int) - 1)

/-- `IRC_Num_ISUPPORT`, numeric.c:349-379. -/
def numISUPPORT (s : Srv) (cl : Nat) (req : Request) : HRes :=
  if badNickLen s req then
    (match (s.cl cl).conn with
     | some i => connClose s i none false
     | none => s.crash, false)
  else (s, true)

/-! ## SERVER -/

/-- Index of the configured server with that name, irc-server.c:76-79. -/
def confFindServer (s : Srv) (name : Str) : Option Nat :=
  s.conf.servers.findIdx? (fun c => caseEq name c.name)

/-- `Conf_SetServer`, conf.c:565-582. -/
def confSetServer (s : Srv) (slot i : Nat) : HRes :=
  match s.srvConn.find? (fun p => p.1 == slot) with
  | some p =>
    if p.2 ≠ i then (connClose s i (some "Server configuration already in use".toList) true, false)
    else (s, true)
  | none => ({ s with srvConn := (slot, i) :: s.srvConn }, true)

/-- `TOKEN_OUTBOUND`, defines.h. -/
def TOKEN_OUTBOUND : Int := -2

/-- `IRC_SERVER` after the credentials have been checked, irc-server.c:123-189. -/
def serverAccept (s : Srv) (cl i : Nat) (cs : ConfServer) (req : Request) : HRes :=
  let s := clientSetID s cl (req.arg 0)
  let s := s.updCl cl (fun c => { c with hops := 1 })
  let s := clientSetInfo s cl (req.argv.getLast?.getD [])
  let s :=
    if (s.cl cl).token ≠ TOKEN_OUTBOUND then
      let s := write s (s.cl cl) ⟨"PASS", [cs.pwdOut, "0210-IRC+".toList]⟩
      let s := write s (s.cl cl) ⟨"SERVER", [s.conf.serverName, "1".toList, s.conf.serverInfo]⟩
      s.updCl cl (fun c => { c with introducer := cl, token := 1 })
    else s.updCl cl (fun c => { c with token := atoi (req.arg 1) })
  let s := if (s.cl cl).type = .gotPass then s.updConn i (fun k => { k with rfc1459 := true }) else s
  let s := clientSetType s cl .unknownServer
  if (s.cl cl).hasFlag 'H' then
    let s := sendISUPPORT s (s.cl cl)
    (write s (s.cl cl) ⟨"RPL_ENDOFMOTD_MSG", [(s.cl cl).ID]⟩, true)
  else numENDOFMOTD s cl

/-- `IRC_SERVER` for a new link, irc-server.c:64-190. -/
def serverLink (s : Srv) (cl i : Nat) (req : Request) : HRes :=
  let c := s.cl cl
  if req.argc ≠ 2 && req.argc ≠ 3 then needMoreParams s cl req
  else match confFindServer s (req.arg 0) with
    | none => closeClient s c (some "Server not configured here".toList)
    | some slot =>
      let cs := s.conf.servers.getD slot ⟨[], [], [], []⟩
      if passwordOf s c ≠ cs.pwdIn then closeClient s c (some "Bad password".toList)
      else match clientCheckID s c (req.arg 0) with
        | (s, false) => (s, false)
        | (s, true) =>
          match confSetServer s slot i with
          | (s, false) => (s, false)
          | (s, true) => serverAccept s cl i cs req

/-- `IRC_SERVER` from a server: another server is introduced, irc-server.c:191-251. -/
def serverRemote (s : Srv) (cl : Nat) (req : Request) : HRes :=
  let c := s.cl cl
  if req.argc ≠ 4 then needMoreParams s cl req
  else match clientCheckID s c (req.arg 0) with
    | (s, false) => (s, false)
    | (s, true) =>
      match req.prefix? with
      | none => closeClient s c (some "SERVER command without prefix".toList)
      | some p =>
        match clientSearch s p with
        | none => closeClient s c (some "Unknown ID in prefix of SERVER".toList)
        | some f =>
          let r := s.nextRef
          let s := clientNewRemoteServer s cl (req.arg 0) f.ref (atoi (req.arg 1))
            (atoi (req.arg 2)) (req.arg 3)
          let n := s.cl r
          (writeServers s (some cl) (s.cl f.ref) ⟨"SERVER", [n.ID, intStr (n.hops + 1),
            intStr n.mytoken, n.info]⟩, true)

/-- `IRC_SERVER`, irc-server.c:49-255. -/
def ircSERVER (s : Srv) (cl : Nat) (req : Request) : HRes :=
  let c := s.cl cl
  match c.conn with
  | none => (writeErr s c ⟨"ERR_UNKNOWNCOMMAND_MSG", [c.ID, req.command]⟩, true)
  | some i =>
    if c.type = .gotPass || c.type = .gotPass2813 then serverLink s cl i req
    else if c.type = .server then serverRemote s cl req
    else needMoreParams s cl req

/-! ## NJOIN -/

/-- Is it one of the membership prefixes `IRC_NJOIN` cuts off, irc-server.c:285-298. -/
def isNjoinPrefix (c : Char) : Bool := "~&@%+".toList.contains c

/-- The membership modes for the prefixes of a nick in NJOIN, irc-server.c:322-331. -/
def njoinModes (pfx : Str) : Str :=
  (if hasChar pfx '~' then ['q'] else []) ++ (if hasChar pfx '&' then ['a'] else []) ++
  (if hasChar pfx '@' then ['o'] else []) ++ (if hasChar pfx '%' then ['h'] else []) ++
  (if hasChar pfx '+' then ['v'] else [])

/-- The entry of the forwarded list, irc-server.c:350-363. -/
def njoinEntry (out pfx nick : Str) : Str :=
  let out := if out.isEmpty then out else strlcat COMMAND_LEN out [',']
  let add (o : Str) (c : Char) : Str := if hasChar pfx c then strlcat COMMAND_LEN o [c] else o
  strlcat COMMAND_LEN ("~&@%+".toList.foldl add out) nick

/-- One nick of `IRC_NJOIN`, irc-server.c:264-376, with the list to be forwarded. -/
def njoinOne (s : Srv) (cl : Nat) (channame : Str) (tok : Str) (out : Str) : Srv × Str :=
  let pfx := tok.takeWhile isNjoinPrefix
  let nick := tok.dropWhile isNjoinPrefix
  match clientSearch s nick with
  | none => (s, out)
  | some c =>
    match channelJoin s c channame with
    | (s, false) => ((killClient s none none nick "Internal NJOIN error!".toList).1, out)
    | (s, true) =>
      match channelSearch s channame with
      | none => (s.crash, out)
      | some chan =>
        let s := (njoinModes pfx).foldl (fun s m => (userModeAdd s chan.ref c.ref m).1) s
        let s := writeChannelPrefix s cl chan.ref c false ⟨"JOIN", [channame]⟩
        let s := if c.conn.isSome then sendChannelInfo s c (s.chan chan.ref) else s
        let modes := strlcpy 8 (userModes s chan.ref c.ref)
        let s := if modes.isEmpty then s else
          writeChannelPrefix s cl chan.ref (s.cl cl) false ⟨"MODE", [channame, '+' :: modes, c.ID]⟩
        (s, njoinEntry out pfx nick)

/-- The loop of `IRC_NJOIN`, irc-server.c:264-376. -/
def njoinLoop (cl : Nat) (channame : Str) : List Str → Srv → Str → Srv × Str
  | [], s, out => (s, out)
  | t :: ts, s, out =>
    let r := njoinOne s cl channame t out
    njoinLoop cl channame ts r.1 r.2

/-- `IRC_NJOIN`, irc-server.c:264-376. -/
def ircNJOIN (s : Srv) (cl : Nat) (req : Request) : HRes :=
  let r := njoinLoop cl (req.arg 0) (strtok (strlcpy COMMAND_LEN (req.arg 1)) [',']) s []
  (if r.2.isEmpty then r.1
   else writeServers r.1 (some cl) (r.1.cl r.1.this) ⟨"NJOIN", [req.arg 0, r.2]⟩, true)

/-! ## SQUIT -/

/-- The originator of a SQUIT, irc-server.c:400-409; outer `none`: a NULL pointer is
dereferenced, inner `none`: no privileges. -/
def squitFrom (s : Srv) (cl : Nat) (req : Request) : Option (Option Client) :=
  if (s.cl cl).type = .server then
    match req.prefix? with
    | none => some (some (s.cl cl))
    | some p =>
      match clientSearch s p with
      | none => none
      | some f => if f.type ≠ .server && (opCheck s cl req).isNone then some none else some (some f)
  else some (some (s.cl cl))

/-- The reason of a SQUIT, irc-server.c:433-441. -/
def squitMsg (s : Srv) (cl : Nat) (from_ : Client) (con : Option Nat) (txt : Str) : Str :=
  if txt.isEmpty then "Got SQUIT from ".toList ++ from_.ID
  else if (nextHop s from_).ref ≠ cl || con.isSome then
    '"' :: txt ++ "\" (SQUIT from ".toList ++ from_.ID ++ [')']
  else txt

/-- `IRC_SQUIT` with the originator known, irc-server.c:418-474.  Removing this server itself
makes all pointers to it dangling. -/
def squitDo (s : Srv) (cl : Nat) (from_ : Client) (req : Request) : HRes :=
  match clientSearch s (req.arg 0) with
  | none => (s, true)
  | some target =>
    if (s.cl cl).type ≠ .server && target.ref = s.this then opNoPrivileges s cl req
    else
      let msg := squitMsg s cl from_ target.conn (req.arg 1)
      match target.conn with
      | some con =>
        let myConn := (s.cl cl).conn
        let s := sendWallops s s.this (s.cl s.this)
          ("Received SQUIT ".toList ++ req.arg 0 ++ " from ".toList ++ from_.ID)
        let s := connClose s con (some msg) true
        (s, myConn ≠ some con)
      | none =>
        if from_.type ≠ .server then
          (writePrefix s (nextHop s target) from_ ⟨"SQUIT", [req.arg 0, req.arg 1]⟩, true)
        else if target.ref = s.this then (s.crash, true)
        else (clientDestroy s target.ref (some msg) false, true)

/-- `IRC_SQUIT`, irc-server.c:385-475. -/
def ircSQUIT (s : Srv) (cl : Nat) (req : Request) : HRes :=
  if (s.cl cl).type ≠ .server && !(s.cl cl).hasMode 'o' then opNoPrivileges s cl req
  else match squitFrom s cl req with
    | none => (s.crash, true)
    | some none => opNoPrivileges s cl req
    | some (some f) => squitDo s cl f req

end Ngircd
