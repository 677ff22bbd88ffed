import Verif.Model.Dispatch

/-!
# The server as a transition system

Start-up (`Client_Init`, `Channel_InitPredefined`), the events the main loop `Conn_Handler`
(conn.c:666-815) reacts to, and the states reachable through them.

An event carries everything the outside world decides: which connection, what was received,
the time, the random numbers.  A line is delivered as a whole; how lines are cut from the
byte stream is the subject of ConnRead.
-/

namespace Ngircd

/-- The structure of this server, `Client_Init`, client.c:71-103; `host` is what
`gethostname`/`gethostbyname` yield. -/
def thisServerC (conf : Conf) (host : Str) : Client :=
  setInfoC conf (setIdC conf
    { ref := 1, type := .server, conn := none, introducer := 1, mytoken := 1, hops := 0,
      host := host } conf.serverName) conf.serverInfo

/-- `Client_Init`, client.c:71-103. -/
def clientInit (conf : Conf) (host : Str) (now : Nat) : Srv :=
  { conf := conf, this := 1, nextRef := 2, clients := [thisServerC conf host], now := now }

/-- The legacy `Key` and `MaxUsers` settings, channel.c:165-172. -/
def predefLegacy (s : Srv) (cc : ConfChannel) (chan : Nat) (arg : Str) : Srv :=
  let s := if hasChar arg 'k' then (channelModeAdd (channelSetKey s chan cc.key) chan 'k').1 else s
  if hasChar arg 'l' then (channelModeAdd (channelSetMaxUsers s chan cc.maxusers) chan 'l').1 else s

/-- One mode string of a pre-defined channel, channel.c:148-179: a fake MODE request. -/
def predefMode (cc : ConfChannel) (chan : Nat) (s : Srv) (modes : Str) : Srv :=
  match (strtok (strlcpy COMMAND_LEN modes) [' ']).take 14 with
  | [] => s
  | a :: args =>
    let s := predefLegacy s cc chan a
    (ircMODE s s.this { prefix? := some (s.cl s.this).ID, command := "MODE".toList,
                        argv := cc.name :: a :: args }).1

/-- One pre-defined channel, channel.c:108-189.  Simplification: the key file is not read,
its content belongs to the environment. -/
def predefChannel (s : Srv) (cc : ConfChannel) : Srv :=
  if cc.name.isEmpty || !isValidChanName cc.name then s
  else match channelSearch s cc.name with
    | some _ => s
    | none =>
      let chan := s.nextRef
      let s := (channelModeAdd (channelCreate s cc.name) chan 'P').1
      let s := if cc.topic.isEmpty then s else channelSetTopic s chan none cc.topic
      cc.modes.foldl (predefMode cc chan) s

/-- The name of the server's log channel. -/
def serverChan : Str := "&SERVER".toList

/-- `Channel_InitPredefined`, channel.c:94-202. -/
def channelInitPredefined (s : Srv) : Srv :=
  let s := s.conf.channels.foldl predefChannel s
  match channelSearch s serverChan with
  | some _ => s
  | none =>
    let chan := s.nextRef
    let s := channelSetModes (channelCreate s serverChan) chan "mnPt".toList
    channelSetTopic s chan (some (s.cl s.this)) "Server Messages".toList

/-- The state when the main loop is entered, ngircd.c `main`. -/
def Srv.init (conf : Conf) (host : Str) (now : Nat) : Srv :=
  channelInitPredefined (clientInit conf host now)

/-! ## Events -/

/-- `Count_Connections`, conn.c:1343-1356. -/
def countConnections (s : Srv) (ipa : Str) : Nat :=
  (s.conns.filter (fun k => k.ipa == ipa)).length

/-- The limits checked by `New_Connection`, conn.c:1365-1491. -/
def connLimitReached (s : Srv) (ipa : Str) : Bool :=
  (decide (s.conf.maxConnections > 0) && decide ((s.numConns : Int) ≥ s.conf.maxConnections)) ||
  (decide (s.conf.maxConnectionsIP > 0) &&
    decide ((countConnections s ipa : Int) ≥ s.conf.maxConnectionsIP))

/-- `Init_Conn_Struct`, conn.c:2136-2152, with the client and the address filled in. -/
def newConn (s : Srv) (i client : Nat) (ipa : Str) (ssl : Bool) : Conn :=
  { idx := i, client := client, ipa := ipa, ssl := ssl, lastData := s.now }

/-- `New_Connection`, conn.c:1365-1491: socket `i` was accepted; `host` is the numeric
address in the form shown.  The kernel never hands out a socket still open. -/
def newConnection (s : Srv) (i : Nat) (host ipa : Str) (ssl : Bool) : Srv :=
  if (s.conn? i).isSome || connLimitReached s ipa then s
  else
    let r := s.nextRef
    let s := clientNewLocal s i none .unknown
    let s := { s with conns := newConn s i r ipa ssl :: s.conns, numConns := s.numConns + 1 }
    clientSetHostname s r host

/-- `New_Server`, conn.c:2008-2129: an outgoing connection for configuration entry `slot`
is being established on socket `i`. -/
def newServer (s : Srv) (slot i : Nat) (ipa : Str) : Srv :=
  if (s.conn? i).isSome || (s.srvConn.any (fun p => p.1 == slot)) then s
  else
    let r := s.nextRef
    let s := clientNewLocal s i (some ipa) .unknownServer
    let s := s.updCl r (fun c => { c with introducer := r, token := TOKEN_OUTBOUND })
    { s with srvConn := (slot, i) :: s.srvConn,
             conns := newConn s i r ipa false :: s.conns, numConns := s.numConns + 1 }

/-- `server_login`, conn.c:255-271: the outgoing connection is established. -/
def serverLogin (s : Srv) (i : Nat) : Srv :=
  match s.conn? i, confGetServer s i with
  | some _, some slot =>
    let pwd := match s.conf.servers[slot]? with | some cs => cs.pwdOut | none => []
    (s.emit i none ⟨"PASS", [pwd]⟩).emit i none ⟨"SERVER", [s.conf.serverName, s.conf.serverInfo]⟩
  | _, _ => s

/-- `cb_Read_Resolver_Result`, conn.c:2270-2382, without IDENT: `host` is empty if the
address has no name. -/
def resolverResult (s : Srv) (i : Nat) (host : Str) : Srv :=
  match s.conn? i with
  | none => s
  | some k =>
    if (s.cl k.client).type ≠ .unknown then s
    else
      let s := if host.isEmpty then s else clientSetHostname s k.client host
      (handleServerBans s k.client).1

/-- The end of `Read_Request`, conn.c:1595-1710: the time of the last data received. -/
def dataReceived (s : Srv) (i : Nat) : Srv :=
  match s.conn? i with
  | none => s
  | some k =>
    if isRegistered (s.cl k.client).type then
      s.updConn i (fun k => { k with lastData := s.now,
                                     lastPing := if k.lastPing > s.now then s.now else k.lastPing })
    else s

/-- What `Check_Connections` does about one connection, conn.c:1896-1950. -/
inductive PingAct
  | none | ping | close (inform : Bool)
  deriving DecidableEq

/-- The decision of `Check_Connections`, conn.c:1896-1950. -/
def pingAct (conf : Conf) (now : Nat) (registered : Bool) (k : Conn) : PingAct :=
  if registered then
    if k.lastPing > k.lastData then
      if (k.lastPing : Int) < (now : Int) - conf.pongTimeout then .close true else .none
    else if (k.lastData : Int) < (now : Int) - conf.pingTimeout then .ping
    else .none
  else if (k.lastData : Int) < (now : Int) - conf.pongTimeout then .close false
  else .none

/-- One connection in `Check_Connections`, conn.c:1896-1950. -/
def checkConnection (s : Srv) (i : Nat) : Srv :=
  match s.conn? i with
  | none => s
  | some k =>
    match pingAct s.conf s.now (isRegistered (s.cl k.client).type) k with
    | .none => s
    | .ping => (s.updConn i (fun k => { k with lastPing := s.now })).emit i none
        ⟨"PING", [(s.cl s.this).ID]⟩
    | .close inform => connClose s i (some (if inform then "Ping timeout".toList
        else "Timeout".toList)) inform

/-- `Check_Connections`, conn.c:1896-1950, and `Class_Expire`, class.c:131-136. -/
def checkConnections (s : Srv) : Srv :=
  let s := (s.conns.map (fun k => k.idx)).foldl checkConnection s
  { s with glines := listsExpire s.glines s.now, klines := listsExpire s.klines s.now }

/-- `Rehash`, sighandlers.c:101-151 and `Conf_Rehash`, conf.c:265-275.  Simplification: the
server entries are kept. -/
def rehash (s : Srv) (conf : Conf) : Srv :=
  let s := { s with conf := { conf with serverName := s.conf.serverName,
                                        maxNickLength := s.conf.maxNickLength,
                                        servers := s.conf.servers } }
  channelInitPredefined (clientSetInfo s s.this s.conf.serverInfo)

/-- What can happen to the server. -/
inductive Event
  /-- a connection request; `New_Connection` -/
  | accept (i : Nat) (host ipa : Str) (ssl : Bool)
  /-- an outgoing connection is started; `New_Server` -/
  | connect (slot i : Nat) (ipa : Str)
  /-- the outgoing connection is established; `server_login` -/
  | established (i : Nat)
  /-- the host name was looked up -/
  | resolved (i : Nat) (host : Str)
  /-- a line was received; `rnd` is what the random generator returns while it is handled -/
  | line (i : Nat) (rnd : Int) (l : Str)
  /-- data was received; the time is noted -/
  | data (i : Nat)
  /-- the connection is lost, or closed because of a limit (flood, write buffer) -/
  | lost (i : Nat) (reason : Option Str) (inform : Bool)
  /-- time passes (`d` seconds), the periodic checks run -/
  | tick (d : Nat)
  /-- the configuration is read again -/
  | rehash (conf : Conf)

/-- One round of the main loop.  Lines and losses of connections that are not open do not
happen; after a fault nothing is known. -/
def step (s : Srv) (e : Event) : Srv :=
  match e with
  | .accept i host ipa ssl => newConnection s i host ipa ssl
  | .connect slot i ipa => newServer s slot i ipa
  | .established i => serverLogin s i
  | .resolved i host => resolverResult s i host
  | .line i rnd l => if (s.conn? i).isSome then (handleLine { s with rnd := rnd } i l).1 else s
  | .data i => dataReceived s i
  | .lost i reason inform => if (s.conn? i).isSome then connClose s i reason inform else s
  | .tick d => checkConnections { s with now := s.now + d }
  | .rehash conf => rehash s conf

/-- The states the server can be in, for every configuration, start time, and history of
events, as long as nothing undefined has happened. -/
inductive Reachable : Srv → Prop
  | init (conf : Conf) (host : Str) (now : Nat) : Reachable (Srv.init conf host now)
  | step {s : Srv} (e : Event) : Reachable s → s.fault = false → Reachable (step s e)

end Ngircd
