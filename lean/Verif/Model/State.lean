import Verif.Model.Lists
import Verif.Model.Hash

/-!
# State of the server

The global variables of client.c, channel.c, conn.c, class.c and conf.c the protocol
handlers work on.  Pointers are modelled by natural numbers (`ref`): every structure
allocated gets a fresh one.

Simplifications
* log output and the notices generated from it (`&SERVER` channel, user mode `s`/`c`) are
  not modelled, they do not change the state;
* a line sent is not a byte string but a `Msg` (the format or reply macro with its
  arguments) together with the prefix shown; byte level output is modelled in ConnWrite;
* a write to a connection always succeeds from the handler's point of view; the loss of a
  connection is an event of its own;
* penalties are modelled in ConnRead, not here;
* `malloc` succeeds.
-/

namespace Ngircd

/-- `CLIENT_TYPE`, client.h:20-33. -/
inductive CType
  | unknown | gotPass | gotNick | gotUser | user | server | service | unknownServer
  | gotPass2813 | waitAuthPing | waitCapEnd
  deriving DecidableEq, Repr

/-- `CLIENT_CAP_xxx`, client-cap.h: capabilities as a set. -/
structure Caps where
  pending : Bool := false
  supported : Bool := false
  multiPrefix : Bool := false
  deriving DecidableEq

/-- `struct _CLIENT`, client.h:41-66. `conn = none` is `NONE`. -/
structure Client where
  ref : Nat
  id : Str := []
  hash : UInt32 := 0
  type : CType := .unknown
  conn : Option Nat := none
  introducer : Nat
  topserver : Option Nat := none
  host : Str := []
  cloaked : Option Str := none
  ipaText : Option Str := none
  user : Str := []
  info : Str := []
  modes : Str := []
  hops : Int := -1
  token : Int := -1
  mytoken : Int := -1
  away : Option Str := none
  flags : Str := []
  account : Option Str := none
  caps : Caps := {}
  starttime : Nat := 0
  deriving DecidableEq

/-- `struct _CHANNEL`, channel.h:26-44.  `keyfile` holds the lines of the key file
(`none`: no such file, or it cannot be read). -/
structure Chan where
  ref : Nat
  name : Str
  hash : UInt32
  modes : Str := []
  topic : Str := []
  topicTime : Nat := 0
  topicWho : Str := []
  creationTime : Nat := 0
  key : Str := []
  maxusers : Nat := 0
  bans : MaskList := []
  excepts : MaskList := []
  invites : MaskList := []
  keyfile : Option (List Str) := none
  deriving DecidableEq

/-- `struct _CLIENT2CHAN`, channel.h:46-52. -/
structure Cl2Chan where
  client : Nat
  chan : Nat
  modes : Str := []
  deriving DecidableEq

/-- `struct _Connection`, conn.h:74-107, the parts the handlers use. -/
structure Conn where
  idx : Nat
  client : Nat
  pwd : Str := []
  authPing : Int := 0
  rfc1459 : Bool := false
  ssl : Bool := false
  ipa : Str := []
  /-- `lastdata`, `lastping` -/
  lastData : Nat := 0
  lastPing : Nat := 0
  deriving DecidableEq

/-- `WHOWAS`, client.h:75-83. -/
structure Whowas where
  time : Nat := 0
  id : Str := []
  host : Str := []
  user : Str := []
  info : Str := []
  server : Str := []
  deriving DecidableEq

/-- `struct Conf_Oper`, conf.h. -/
structure ConfOper where
  name : Str
  pwd : Str
  mask : Option Str := none

/-- `CONF_SERVER`, conf.h; `nick`/`svsMask` is "ServiceMask". -/
structure ConfServer where
  name : Str
  pwdIn : Str
  pwdOut : Str
  svsMask : Str := []

/-- `struct Conf_Channel`, conf.h. -/
structure ConfChannel where
  name : Str
  autojoin : Bool := false
  modes : List Str := []
  key : Str := []
  topic : Str := []
  maxusers : Nat := 0

/-- The configuration variables of conf.h used by the modelled code.  `cloakHost` and
`cloakHostModeX` are printf formats applied to a hash; an empty string is `none`. -/
structure Conf where
  serverName : Str := "irc.example.net".toList
  serverInfo : Str := "info".toList
  maxNickLength : Nat := 10
  maxJoins : Int := 10
  serverPwd : Str := []
  authPing : Bool := false
  morePrivacy : Bool := false
  operCanMode : Bool := false
  operChanPAutoOp : Bool := true
  operServerMode : Bool := false
  allowRemoteOper : Bool := false
  allowedChannelTypes : Str := "#&+".toList
  cloakHost : Option (UInt32 → Str) := none
  cloakHostModeX : Option (UInt32 → Str) := none
  cloakHostSalt : Str := []
  cloakUserToNick : Bool := false
  defaultUserModes : Str := []
  dns : Bool := true
  webircPwd : Str := []
  maxListSize : Int := 100
  opers : List ConfOper := []
  servers : List ConfServer := []
  channels : List ConfChannel := []
  motd : List Str := []
  maxConnections : Int := 0
  maxConnectionsIP : Int := 5
  pingTimeout : Nat := 120
  pongTimeout : Nat := 20
  scrubCTCP : Bool := false

/-- A line as handed to the output functions: the reply macro of messages.h or the command
of the format string, and its arguments. -/
structure Msg where
  cmd : String
  args : List Str
  deriving DecidableEq

/-- One line queued for a connection, with the prefix shown (if any). -/
structure Sent where
  conn : Nat
  src : Option Str
  msg : Msg
  deriving DecidableEq

/-- The whole state. `clients`, `chans`, `cl2` are the linked lists `My_Clients`,
`My_Channels`, `My_Cl2Chan` in link order; `out` is the log of lines queued, newest
first; `fault` is set where the program would fail an assertion or use an invalid
pointer. -/
structure Srv where
  conf : Conf := {}
  this : Nat := 0
  nextRef : Nat := 1
  clients : List Client := []
  chans : List Chan := []
  cl2 : List Cl2Chan := []
  conns : List Conn := []
  /-- `NumConnections`, conn.c:101 -/
  numConns : Nat := 0
  /-- `Conf_Server[i].conn_id`: configured server number, connection. -/
  srvConn : List (Nat × Nat) := []
  whowas : List Whowas := List.replicate 64 {}
  lastWhowas : Int := -1
  maxUsers : Nat := 0
  myMaxUsers : Nat := 0
  glines : MaskList := []
  klines : MaskList := []
  now : Nat := 0
  /-- what `rand()`/`arc4random()` returns next; every event brings a new arbitrary value -/
  rnd : Int := 0
  /-- `NGIRCd_SignalQuit`, `NGIRCd_SignalRestart`, `NGIRCd_SignalRehash`. -/
  sigQuit : Bool := false
  sigRestart : Bool := false
  sigRehash : Bool := false
  /-- outgoing connection attempts requested (`Conf_EnableServer`, `Conf_AddServer`,
  `Conf_DisableServer`), newest first -/
  linkReq : List Str := []
  out : List Sent := []
  fault : Bool := false

/-- What a dangling pointer reads as. -/
def noClient : Client := { ref := 0, introducer := 0 }

/-- Look a client structure up by pointer. -/
def Srv.cl? (s : Srv) (r : Nat) : Option Client := s.clients.find? (fun c => c.ref == r)

/-- Dereference a client pointer. -/
def Srv.cl (s : Srv) (r : Nat) : Client := (s.cl? r).getD noClient

/-- Assign to fields of a client structure. -/
def Srv.updCl (s : Srv) (r : Nat) (f : Client → Client) : Srv :=
  { s with clients := s.clients.map (fun c => if c.ref = r then f c else c) }

/-- Look a channel structure up by pointer. -/
def Srv.chan? (s : Srv) (r : Nat) : Option Chan := s.chans.find? (fun c => c.ref == r)

/-- What a dangling channel pointer reads as. -/
def noChan : Chan := { ref := 0, name := [], hash := 0 }

/-- Dereference a channel pointer. -/
def Srv.chan (s : Srv) (r : Nat) : Chan := (s.chan? r).getD noChan

/-- Assign to fields of a channel structure. -/
def Srv.updChan (s : Srv) (r : Nat) (f : Chan → Chan) : Srv :=
  { s with chans := s.chans.map (fun c => if c.ref = r then f c else c) }

/-- `Conn` structure of a connection. -/
def Srv.conn? (s : Srv) (i : Nat) : Option Conn := s.conns.find? (fun c => c.idx == i)

/-- Assign to fields of a connection. -/
def Srv.updConn (s : Srv) (i : Nat) (f : Conn → Conn) : Srv :=
  { s with conns := s.conns.map (fun c => if c.idx = i then f c else c) }

/-- Queue a line for a connection. -/
def Srv.emit (s : Srv) (conn : Nat) (src : Option Str) (m : Msg) : Srv :=
  { s with out := { conn := conn, src := src, msg := m } :: s.out }

/-- The process aborts or behaves undefined here. -/
def Srv.crash (s : Srv) : Srv := { s with fault := true }

/-- `strchr(str, c) != NULL` for `c ≠ 0`. -/
def hasChar (str : Str) (c : Char) : Bool := str.contains c

end Ngircd
