import Verif.Model.Client

/-!
# Model of src/ngircd/irc-write.c

All functions only append to the log `out` of lines handed to `Conn_WriteStr`.  Penalties
set by `IRC_WriteErrClient` are not modelled here.
-/

namespace Ngircd

/-- Append lines (in the given order) to the log. -/
def Srv.emits (s : Srv) (l : List Sent) : Srv := { s with out := l.reverse ++ s.out }

/-- `Get_Prefix`, irc-write.c:559-569. -/
def getPrefix (s : Srv) (target prefix_ : Client) : Str :=
  if target.type = .server then prefix_.ID else maskCloaked s prefix_

/-- The line `IRC_WriteStrClientPrefix` writes, irc-write.c:150-151; none if the next hop
has no connection. -/
def lineTo (s : Srv) (target prefix_ : Client) (m : Msg) : Option Sent :=
  let hop := nextHop s target
  hop.conn.map (fun i => { conn := i, src := some (getPrefix s hop prefix_), msg := m })

/-- `IRC_WriteStrClientPrefix`, irc-write.c:122-152.  `Conn_WriteStr` asserts that there is a
connection (conn.c:848). -/
def writePrefix (s : Srv) (target prefix_ : Client) (m : Msg) : Srv :=
  { s with out := (lineTo s target prefix_ m).toList ++ s.out,
           fault := s.fault || (lineTo s target prefix_ m).isNone }

/-- `IRC_WriteStrClient`, irc-write.c:85-111. -/
def write (s : Srv) (target : Client) (m : Msg) : Srv := writePrefix s target (s.cl s.this) m

/-- `IRC_WriteErrClient`, irc-write.c:48-75. -/
def writeErr (s : Srv) (target : Client) (m : Msg) : Srv := writePrefix s target (s.cl s.this) m

/-- The test of one member in `IRC_WriteStrChannelPrefix` (irc-write.c:246-262) and
`IRC_WriteStrRelatedPrefix` (irc-write.c:461-474): the directly connected client to send
to, if any. -/
def hopFor (s : Srv) (client : Nat) (remote : Bool) (member : Nat) : Option Client :=
  let c := s.cl member
  if !remote && (c.conn.isNone || c.type = .server) then none
  else
    let h := nextHop s c
    if h.ref = client then none else some h

/-- The flag of a connection after all the `Conn_SetFlag` calls: the last one counts. -/
def flagOf (hops : List Client) (i : Nat) : Option CType :=
  (hops.reverse.find? (fun h => h.conn == some i)).map (fun h => h.type)

/-- `Send_Marked_Connections`, irc-write.c:583-601. -/
def sendMarked (s : Srv) (prefix_ : Client) (hops : List Client) (m : Msg) : Srv :=
  s.emits (s.conns.filterMap (fun k =>
    match flagOf hops k.idx with
    | none => none
    | some t => some { conn := k.idx,
                       src := some (if t = .server then prefix_.ID else maskCloaked s prefix_),
                       msg := m }))

/-- The members of a channel in list order, `Channel_FirstMember`/`Channel_NextMember`. -/
def membersOf (s : Srv) (chan : Nat) : List Nat :=
  (s.cl2.filter (fun m => m.chan == chan)).map (fun m => m.client)

/-- The channels of a client in list order,
`Channel_FirstChannelOf`/`Channel_NextChannelOf`. -/
def channelsOf (s : Srv) (client : Nat) : List Nat :=
  (s.cl2.filter (fun m => m.client == client)).map (fun m => m.chan)

/-- `IRC_WriteStrChannelPrefix`, irc-write.c:208-266: `client` is left out. -/
def writeChannelPrefix (s : Srv) (client : Nat) (chan : Nat) (prefix_ : Client) (remote : Bool)
    (m : Msg) : Srv :=
  sendMarked s prefix_ ((membersOf s chan).filterMap (hopFor s client remote)) m

/-- `IRC_WriteStrChannel`, irc-write.c:165-194. -/
def writeChannel (s : Srv) (client : Nat) (chan : Nat) (remote : Bool) (m : Msg) : Srv :=
  writeChannelPrefix s client chan (s.cl s.this) remote m

/-- `IRC_WriteStrRelatedPrefix`, irc-write.c:420-481. -/
def writeRelatedPrefix (s : Srv) (client : Nat) (prefix_ : Client) (remote : Bool) (m : Msg) : Srv :=
  sendMarked s prefix_
    (((channelsOf s client).flatMap (membersOf s)).filterMap (hopFor s client remote)) m

/-- The servers `IRC_WriteStrServersPrefixFlag_CB` calls back for, irc-write.c:394-403. -/
def peerServers (s : Srv) (exceptOf : Option Nat) (flag : Option Char) : List Client :=
  s.clients.filter (fun c => c.type = .server && c.conn.isSome && c.ref != s.this &&
    (some c.ref != exceptOf) && (match flag with | none => true | some f => c.hasFlag f))

/-- `IRC_WriteStrServersPrefixFlag`, irc-write.c:348-377. -/
def writeServersFlag (s : Srv) (exceptOf : Option Nat) (prefix_ : Client) (flag : Option Char)
    (m : Msg) : Srv :=
  s.emits ((peerServers s exceptOf flag).filterMap (fun c => lineTo s c prefix_ m))

/-- `IRC_WriteStrServersPrefix`, irc-write.c:309-336. -/
def writeServers (s : Srv) (exceptOf : Option Nat) (prefix_ : Client) (m : Msg) : Srv :=
  writeServersFlag s exceptOf prefix_ none m

/-- `IRC_SendWallops`, irc-write.c:491-531. -/
def sendWallops (s : Srv) (client : Nat) (from_ : Client) (text : Str) : Srv :=
  s.emits ((s.clients.filter (fun to => to.conn.isSome &&
      ((to.type = .user && to.hasMode 'w') || (to.type = .server && to.ref != client)))).filterMap
    (fun to => lineTo s to from_ ⟨"WALLOPS", [text]⟩))

end Ngircd
