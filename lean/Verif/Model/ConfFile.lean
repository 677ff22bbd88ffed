import Verif.Model.Channel
import Verif.Model.Mode
import Verif.Model.Dial

/-!
# Reading the configuration: conf.c

The file is a list of characters; the result are the configuration variables.  Messages about the
file (`Config_Error`) are not modelled.  Modelled is a build with SSL support and without STRICT_RFC,
SYSLOG; the variables `ServerUID`, `ServerGID` and `Bind`, which need the user database and the
address parser of the system, are read but have no effect here.
-/

namespace Ngircd

/-- `LINE_LEN`, defines.h:39. -/
def LINE_LEN : Nat := 1024
/-- `FNAME_LEN`, defines.h:45. -/
def FNAME_LEN : Nat := 256
/-- `HOST_LEN`, defines.h:48. -/
def HOST_LEN : Nat := 256
/-- `CLIENT_PASS_LEN`, defines.h:110. -/
def CLIENT_PASS_LEN : Nat := 65
/-- `MAX_PAM_SERVICE_NAME_LEN`, defines.h:65. -/
def MAX_PAM_SERVICE_NAME_LEN : Nat := 64

/-- Variables of section "Global", conf.c:1354-1484. -/
inductive GlobalVar
  | name | adminInfo1 | adminInfo2 | adminEMail | info | helpFile | listen | motdFile | motdPhrase
  | network | password | pidFile | ports | serverGID | serverUID
  deriving DecidableEq

/-- Variables of section "Limits", conf.c:1504-1573. -/
inductive LimitVar
  | connectRetry | idleTimeout | maxConnections | maxConnectionsIP | maxJoins | maxNickLength
  | maxListSize | maxPenaltyTime | pingTimeout | pongTimeout
  deriving DecidableEq

/-- Variables of section "Options", conf.c:1596-1763. -/
inductive OptionVar
  | allowedChannelTypes | allowRemoteOper | chrootDir | cloakHost | cloakHostModeX | cloakHostSalt
  | cloakUserToNick | connectIPv6 | connectIPv4 | defaultUserModes | dns | ident | includeDir
  | morePrivacy | noticeBeforeRegistration | operCanUseMode | operChanPAutoOp | operServerMode
  | pam | pamIsOptional | pamServiceName | requireAuthPing | scrubCTCP | webircPassword
  deriving DecidableEq

/-- Variables of section "SSL", conf.c:1785-1826. -/
inductive SslVar
  | certFile | dhFile | keyFile | keyFilePassword | ports | cipherList | caFile | crlFile
  deriving DecidableEq

/-- Variables of section "Operator", conf.c:1856-1875. -/
inductive OperVar
  | name | password | mask
  deriving DecidableEq

/-- Variables of section "Server", conf.c:1901-1981. -/
inductive ServerVar
  | host | name | bind | myPassword | peerPassword | port | sslConnect | sslVerify | group | passive
  | serviceMask
  deriving DecidableEq

/-- Variables of section "Channel", conf.c:2037-2091. -/
inductive ChannelVar
  | name | modes | topic | autojoin | key | maxUsers | keyFile
  deriving DecidableEq

/-- The chain of `strcasecmp(Var, "...") == 0` of the handler functions. -/
def varOf {β : Type} (tab : List (String × β)) (var : Str) : Option β :=
  (tab.find? (fun e => caseEq var e.1.toList)).map Prod.snd

/-- The names in `Handle_GLOBAL`, conf.c:1341-1487. -/
def globalVars : List (String × GlobalVar) :=
  [("Name", .name), ("AdminInfo1", .adminInfo1), ("AdminInfo2", .adminInfo2),
   ("AdminEMail", .adminEMail), ("Info", .info), ("HelpFile", .helpFile), ("Listen", .listen),
   ("MotdFile", .motdFile), ("MotdPhrase", .motdPhrase), ("Network", .network),
   ("Password", .password), ("PidFile", .pidFile), ("Ports", .ports), ("ServerGID", .serverGID),
   ("ServerUID", .serverUID)]

/-- The names in `Handle_LIMITS`, conf.c:1496-1576. -/
def limitVars : List (String × LimitVar) :=
  [("ConnectRetry", .connectRetry), ("IdleTimeout", .idleTimeout),
   ("MaxConnections", .maxConnections), ("MaxConnectionsIP", .maxConnectionsIP),
   ("MaxJoins", .maxJoins), ("MaxNickLength", .maxNickLength), ("MaxListSize", .maxListSize),
   ("MaxPenaltyTime", .maxPenaltyTime), ("PingTimeout", .pingTimeout),
   ("PongTimeout", .pongTimeout)]

/-- The names in `Handle_OPTIONS`, conf.c:1585-1766. -/
def optionVars : List (String × OptionVar) :=
  [("AllowedChannelTypes", .allowedChannelTypes), ("AllowRemoteOper", .allowRemoteOper),
   ("ChrootDir", .chrootDir), ("CloakHost", .cloakHost), ("CloakHostModeX", .cloakHostModeX),
   ("CloakHostSalt", .cloakHostSalt), ("CloakUserToNick", .cloakUserToNick),
   ("ConnectIPv6", .connectIPv6), ("ConnectIPv4", .connectIPv4),
   ("DefaultUserModes", .defaultUserModes), ("DNS", .dns), ("Ident", .ident),
   ("IncludeDir", .includeDir), ("MorePrivacy", .morePrivacy),
   ("NoticeBeforeRegistration", .noticeBeforeRegistration), ("OperCanUseMode", .operCanUseMode),
   ("OperChanPAutoOp", .operChanPAutoOp), ("OperServerMode", .operServerMode), ("PAM", .pam),
   ("PAMIsOptional", .pamIsOptional), ("PAMServiceName", .pamServiceName),
   ("RequireAuthPing", .requireAuthPing), ("ScrubCTCP", .scrubCTCP),
   ("WebircPassword", .webircPassword)]

/-- The names in `Handle_SSL`, conf.c:1777-1829. -/
def sslVars : List (String × SslVar) :=
  [("CertFile", .certFile), ("DHFile", .dhFile), ("KeyFile", .keyFile),
   ("KeyFilePassword", .keyFilePassword), ("Ports", .ports), ("CipherList", .cipherList),
   ("CAFile", .caFile), ("CRLFile", .crlFile)]

/-- The names in `Handle_OPERATOR`, conf.c:1840-1878. -/
def operVars : List (String × OperVar) :=
  [("Name", .name), ("Password", .password), ("Mask", .mask)]

/-- The names in `Handle_SERVER`, conf.c:1887-1984. -/
def serverVars : List (String × ServerVar) :=
  [("Host", .host), ("Name", .name), ("Bind", .bind), ("MyPassword", .myPassword),
   ("PeerPassword", .peerPassword), ("Port", .port), ("SSLConnect", .sslConnect),
   ("SSLVerify", .sslVerify), ("Group", .group), ("Passive", .passive),
   ("ServiceMask", .serviceMask)]

/-- The names in `Handle_CHANNEL`, conf.c:2021-2094. -/
def channelVars : List (String × ChannelVar) :=
  [("Name", .name), ("Modes", .modes), ("Topic", .topic), ("Autojoin", .autojoin), ("Key", .key),
   ("MaxUsers", .maxUsers), ("KeyFile", .keyFile)]

/-- The variables set by section "Global", conf.h:104-140.  `motd` is the text of
`MotdPhrase`; the defaults are those of `Set_Defaults`, conf.c:755-847, where the texts depending
on the build are left out. -/
structure GlobalCfg where
  name : Str := []
  admin1 : Str := []
  admin2 : Str := []
  adminMail : Str := []
  info : Str := "ngIRCd".toList
  helpFile : Str := []
  listen : Option Str := none
  motdFile : Str := []
  motd : Str := []
  network : Str := []
  pwd : Str := []
  pidFile : Str := []
  ports : List Nat := []
  deriving DecidableEq

/-- The variables set by section "Limits", defaults of `Set_Defaults`, conf.c:755-847. -/
structure LimitCfg where
  connectRetry : Int := 60
  idleTimeout : Int := 0
  maxConnections : Int := 0
  maxConnectionsIP : Int := 5
  maxJoins : Int := 10
  maxNickLength : Nat := 10
  maxListSize : Int := 100
  maxPenaltyTime : Int := -1
  pingTimeout : Int := 120
  pongTimeout : Int := 20
  deriving DecidableEq

/-- The variables set by section "Options", defaults of `Set_Defaults`, conf.c:755-847.  The random
default of the salt is left out. -/
structure OptionCfg where
  allowedChannelTypes : Str := "#&+".toList
  allowRemoteOper : Bool := false
  chroot : Str := []
  cloakHost : Str := []
  cloakHostModeX : Str := []
  cloakHostSalt : Str := []
  cloakUserToNick : Bool := false
  connectIPv6 : Bool := true
  connectIPv4 : Bool := true
  defaultUserModes : Str := []
  dns : Bool := true
  ident : Bool := true
  includeDir : Str := []
  morePrivacy : Bool := false
  noticeBeforeRegistration : Bool := false
  operCanMode : Bool := false
  operChanPAutoOp : Bool := true
  operServerMode : Bool := false
  pam : Bool := true
  pamIsOptional : Bool := false
  pamServiceName : Str := "ngircd".toList
  authPing : Bool := false
  scrubCTCP : Bool := false
  webircPwd : Str := []
  deriving DecidableEq

/-- `struct SSLOptions`, conf.h:73-82; `bad` tells that an assertion failed. -/
structure SslCfg where
  certFile : Option Str := none
  dhFile : Option Str := none
  keyFile : Option Str := none
  keyFilePassword : Option Str := none
  ports : List Nat := []
  cipherList : Option Str := none
  caFile : Option Str := none
  crlFile : Option Str := none
  bad : Bool := false
  deriving DecidableEq

/-- `struct Conf_Oper`, conf.h:36-40. -/
structure OperCfg where
  name : Str := []
  pwd : Str := []
  mask : Option Str := none
  deriving DecidableEq

/-- `CONF_SERVER`, conf.h:47-68, without the state of the resolver and the time of the last try (see
Model/Dial). -/
structure ServerCfg where
  host : Str := []
  name : Str := []
  pwdIn : Str := []
  pwdOut : Str := []
  port : Nat := 0
  group : Int := -1
  disabled : Bool := false
  once : Bool := false
  conn : SlotConn := .none
  sslConnect : Bool := false
  sslVerify : Bool := true
  svsMask : Str := []
  deriving DecidableEq

/-- `struct Conf_Channel`, conf.h:87-96; `bad` tells that memory behind the array `modes` has been
written. -/
structure ChannelCfg where
  name : Str := []
  modes : List Str := []
  key : Str := []
  topic : Str := []
  keyFile : Str := []
  autojoin : Bool := false
  maxusers : Nat := 0
  bad : Bool := false
  deriving DecidableEq

/-- Everything the reader changes.  `table` is `Conf_Server`, `newServer` and `newIdx` are
`New_Server` and `New_Server_Idx` (`none` for `NONE`), `passive` is `NGIRCd_Passive`; `bad` tells that
an assertion failed. -/
structure Cfg where
  glob : GlobalCfg := {}
  lim : LimitCfg := {}
  opt : OptionCfg := {}
  ssl : SslCfg := {}
  opers : List OperCfg := []
  chans : List ChannelCfg := []
  table : List ServerCfg := []
  newServer : ServerCfg := {}
  newIdx : Option Nat := none
  passive : Bool := false
  bad : Bool := false
  deriving DecidableEq

/-! ## Values -/

/-- `Check_ArgIsTrue`, conf.c:1245-1256. -/
def argIsTrue (arg : Str) : Bool :=
  if caseEq arg "yes".toList then true
  else if caseEq arg "true".toList then true
  else atoi arg != 0

/-- `Handle_MaxNickLength`, conf.c:1265-1284.  The sum `new` is unsigned: negative sums are larger
than `CLIENT_NICK_LEN`. -/
def handleMaxNickLength (arg : Str) : Nat :=
  let new := atoi arg + 1
  if new < 0 ∨ new > CLIENT_NICK_LEN then CLIENT_NICK_LEN
  else if new < 2 then 2
  else new.toNat

/-- `ports_parse`, conf.c:223-248. -/
def portsParse (arg : Str) : List Nat :=
  (strtok arg [',']).filterMap (fun p =>
    let port := atoi (trimStr p)
    if port > 0 ∧ port < 0xFFFF then some port.toNat else none)

/-- The loops over the characters of "AllowedChannelTypes" and "DefaultUserModes",
conf.c:1596-1619 and 1661-1684: `all` are the known characters, `size` the size of the variable; the
flag tells whether the assertion failed. -/
def pickChars (all : Str) (size : Nat) : Str → Str × Bool → Str × Bool
  | [], acc => acc
  | p :: ps, acc =>
    if acc.1.contains p then pickChars all size ps acc
    else if all.contains p then
      pickChars all size ps (acc.1 ++ [p], acc.2 || decide (size ≤ acc.1.length + 1))
    else pickChars all size ps acc

/-- `CHANTYPES`, defines.h:192. -/
def CHANTYPES : Str := "#&+".toList
/-- `USERMODES`, defines.h:186. -/
def USERMODES : Str := "abBcCFiIoqrRswx".toList

/-! ## The sections -/

/-- `Handle_GLOBAL`, conf.c:1341-1487. -/
def setGlobal (v : GlobalVar) (arg : Str) (g : GlobalCfg) : GlobalCfg :=
  match v with
  | .name => { g with name := strlcpy CLIENT_ID_LEN arg }
  | .adminInfo1 => { g with admin1 := strlcpy CLIENT_INFO_LEN arg }
  | .adminInfo2 => { g with admin2 := strlcpy CLIENT_INFO_LEN arg }
  | .adminEMail => { g with adminMail := strlcpy CLIENT_INFO_LEN arg }
  | .info => { g with info := strlcpy CLIENT_INFO_LEN arg }
  | .helpFile => { g with helpFile := strlcpy FNAME_LEN arg }
  | .listen => if g.listen.isSome then g else { g with listen := some arg }
  | .motdFile => { g with motdFile := strlcpy FNAME_LEN arg }
  | .motdPhrase =>
    if arg.length = 0 then g else if arg.length ≥ 127 then g else { g with motd := arg }
  | .network => { g with network := cutAt (strlcpy CLIENT_INFO_LEN arg) ' ' }
  | .password => { g with pwd := strlcpy CLIENT_PASS_LEN arg }
  | .pidFile => { g with pidFile := strlcpy FNAME_LEN arg }
  | .ports => { g with ports := portsParse arg }
  | .serverGID => g
  | .serverUID => g

/-- `Handle_LIMITS`, conf.c:1496-1576. -/
def setLimit (v : LimitVar) (arg : Str) (l : LimitCfg) : LimitCfg :=
  match v with
  | .connectRetry => { l with connectRetry := if atoi arg < 5 then 5 else atoi arg }
  | .idleTimeout => { l with idleTimeout := atoi arg }
  | .maxConnections => { l with maxConnections := atoi arg }
  | .maxConnectionsIP => { l with maxConnectionsIP := atoi arg }
  | .maxJoins => { l with maxJoins := atoi arg }
  | .maxNickLength => { l with maxNickLength := handleMaxNickLength arg }
  | .maxListSize => { l with maxListSize := atoi arg }
  | .maxPenaltyTime => { l with maxPenaltyTime := if atoi arg < -1 then -1 else atoi arg }
  | .pingTimeout => { l with pingTimeout := if atoi arg < 5 then 5 else atoi arg }
  | .pongTimeout => { l with pongTimeout := if atoi arg < 5 then 5 else atoi arg }

/-- `Handle_OPTIONS`, conf.c:1585-1766.  The assertions of `pickChars` are in `optionBad`. -/
def setOption (v : OptionVar) (arg : Str) (o : OptionCfg) : OptionCfg :=
  match v with
  | .allowedChannelTypes => { o with allowedChannelTypes := (pickChars CHANTYPES 8 arg ([], false)).1 }
  | .allowRemoteOper => { o with allowRemoteOper := argIsTrue arg }
  | .chrootDir => { o with chroot := strlcpy FNAME_LEN arg }
  | .cloakHost => { o with cloakHost := strlcpy CLIENT_ID_LEN arg }
  | .cloakHostModeX => { o with cloakHostModeX := strlcpy CLIENT_ID_LEN arg }
  | .cloakHostSalt => { o with cloakHostSalt := strlcpy CLIENT_ID_LEN arg }
  | .cloakUserToNick => { o with cloakUserToNick := argIsTrue arg }
  | .connectIPv6 => { o with connectIPv6 := argIsTrue arg }
  | .connectIPv4 => { o with connectIPv4 := argIsTrue arg }
  | .defaultUserModes =>
    { o with defaultUserModes := (pickChars USERMODES CLIENT_MODE_LEN arg ([], false)).1 }
  | .dns => { o with dns := argIsTrue arg }
  | .ident => { o with ident := argIsTrue arg }
  | .includeDir =>
    if o.includeDir.isEmpty then { o with includeDir := strlcpy FNAME_LEN arg } else o
  | .morePrivacy => { o with morePrivacy := argIsTrue arg }
  | .noticeBeforeRegistration => { o with noticeBeforeRegistration := argIsTrue arg }
  | .operCanUseMode => { o with operCanMode := argIsTrue arg }
  | .operChanPAutoOp => { o with operChanPAutoOp := argIsTrue arg }
  | .operServerMode => { o with operServerMode := argIsTrue arg }
  | .pam => { o with pam := argIsTrue arg }
  | .pamIsOptional => { o with pamIsOptional := argIsTrue arg }
  | .pamServiceName => { o with pamServiceName := strlcpy MAX_PAM_SERVICE_NAME_LEN arg }
  | .requireAuthPing => { o with authPing := argIsTrue arg }
  | .scrubCTCP => { o with scrubCTCP := argIsTrue arg }
  | .webircPassword => { o with webircPwd := strlcpy CLIENT_PASS_LEN arg }

/-- Whether an assertion of `Handle_OPTIONS` fails, conf.c:1608 and 1673. -/
def optionBad (v : OptionVar) (arg : Str) : Bool :=
  match v with
  | .allowedChannelTypes => (pickChars CHANTYPES 8 arg ([], false)).2
  | .defaultUserModes => (pickChars USERMODES CLIENT_MODE_LEN arg ([], false)).2
  | _ => false

/-- `Handle_SSL`, conf.c:1777-1829. -/
def setSsl (v : SslVar) (arg : Str) (x : SslCfg) : SslCfg :=
  match v with
  | .certFile => { x with certFile := some arg, bad := x.bad || x.certFile.isSome }
  | .dhFile => { x with dhFile := some arg, bad := x.bad || x.dhFile.isSome }
  | .keyFile => { x with keyFile := some arg, bad := x.bad || x.keyFile.isSome }
  | .keyFilePassword =>
    { x with keyFilePassword := some arg, bad := x.bad || x.keyFilePassword.any (fun p => !p.isEmpty) }
  | .ports => { x with ports := portsParse arg }
  | .cipherList => { x with cipherList := some arg, bad := x.bad || x.cipherList.isSome }
  | .caFile => { x with caFile := some arg, bad := x.bad || x.caFile.isSome }
  | .crlFile => { x with crlFile := some arg, bad := x.bad || x.crlFile.isSome }

/-- `Handle_OPERATOR`, conf.c:1840-1878. -/
def setOper (v : OperVar) (arg : Str) (o : OperCfg) : OperCfg :=
  match v with
  | .name => { o with name := strlcpy CLIENT_PASS_LEN arg }
  | .password => { o with pwd := strlcpy CLIENT_PASS_LEN arg }
  | .mask => if o.mask.isSome then o else { o with mask := some arg }

/-- `Handle_SERVER`, conf.c:1887-1984. -/
def setPeer (v : ServerVar) (arg : Str) (x : ServerCfg) : ServerCfg :=
  match v with
  | .host => { x with host := strlcpy HOST_LEN arg }
  | .name => { x with name := strlcpy CLIENT_ID_LEN arg }
  | .bind => x
  | .myPassword => { x with pwdIn := strlcpy CLIENT_PASS_LEN arg }
  | .peerPassword => { x with pwdOut := strlcpy CLIENT_PASS_LEN arg }
  | .port => if 0 ≤ atoi arg ∧ atoi arg < 0xFFFF then { x with port := (atoi arg).toNat } else x
  | .sslConnect => { x with sslConnect := argIsTrue arg }
  | .sslVerify => { x with sslVerify := argIsTrue arg }
  | .group => { x with group := atoi arg }
  | .passive => if argIsTrue arg then { x with disabled := true } else x
  | .serviceMask => { x with svsMask := strlcpy CLIENT_ID_LEN (lowerStr arg) }

/-- `Handle_Channelname`, conf.c:1996-2012. -/
def channelName (name : Str) : Str :=
  if isValidChanName name then strlcpy CHANNEL_NAME_LEN name
  else '#' :: strlcpy (CHANNEL_NAME_LEN - 1) name

/-- `Handle_CHANNEL`, conf.c:2021-2094.  `modes` has 512 elements of 8 bytes, and the number of modes
is compared with the number of bytes. -/
def setChannel (v : ChannelVar) (arg : Str) (x : ChannelCfg) : ChannelCfg :=
  match v with
  | .name => { x with name := channelName arg }
  | .modes =>
    if x.modes.length ≥ 512 * 8 then x
    else { x with modes := x.modes ++ [arg.take COMMAND_LEN], bad := x.bad || decide (512 ≤ x.modes.length) }
  | .topic => { x with topic := strlcpy COMMAND_LEN arg }
  | .autojoin => { x with autojoin := argIsTrue arg }
  | .key => { x with key := strlcpy CLIENT_PASS_LEN arg }
  | .maxUsers => { x with maxusers := (atoi arg % 18446744073709551616).toNat }
  | .keyFile => { x with keyFile := strlcpy 512 arg }

/-! ## The file -/

/-- The section names of `Read_Config_File`, conf.c:1102-1236. -/
inductive Section
  | global | limits | options | ssl | server | channel | operator
  deriving DecidableEq

/-- The section names of `Read_Config_File`, conf.c:1102-1236. -/
def sections : List (String × Section) :=
  [("[GLOBAL]", .global), ("[LIMITS]", .limits), ("[OPTIONS]", .options), ("[SSL]", .ssl),
   ("[SERVER]", .server), ("[CHANNEL]", .channel), ("[OPERATOR]", .operator)]

/-- The variable `section` of `Read_Config_File`: empty, a known section, or `0x1`. -/
inductive Place
  | outside
  | unknown
  | inside (k : Section)
  deriving DecidableEq

/-- Copy the collected server to its place in the table, conf.c:1140-1146 and 1045-1050. -/
def Cfg.flush (c : Cfg) : Cfg :=
  if c.newServer.name.isEmpty then c
  else match c.newIdx with
    | none => { c with bad := true }
    | some i => { c with table := c.table.set i c.newServer }

/-- `Init_Server_Struct`, conf.c:2376-2396. -/
def Cfg.noServer (c : Cfg) : ServerCfg := { disabled := c.passive }

/-- The beginning of a section, conf.c:1127-1198. -/
def openSection (k : Section) (c : Cfg) : Cfg :=
  match k with
  | .server =>
    { c.flush with newServer := c.noServer, newIdx := c.flush.table.findIdx? (fun x => x.name.isEmpty) }
  | .channel => { c with chans := c.chans ++ [{}] }
  | .operator => { c with opers := c.opers ++ [{}] }
  | _ => c

/-- Change the last element of an array, conf.c:1851-1854 and 2032-2035. -/
def updLast {α : Type} (f : α → α) (l : List α) : List α :=
  match l.getLast? with
  | none => l
  | some x => l.dropLast ++ [f x]

/-- The dispatch to the handler of the section, conf.c:1213-1234. -/
def handleVar (k : Section) (var arg : Str) (c : Cfg) : Cfg :=
  match k with
  | .global => match varOf globalVars var with
    | none => c
    | some v => { c with glob := setGlobal v arg c.glob }
  | .limits => match varOf limitVars var with
    | none => c
    | some v => { c with lim := setLimit v arg c.lim }
  | .options => match varOf optionVars var with
    | none => c
    | some v => { c with opt := setOption v arg c.opt, bad := c.bad || optionBad v arg }
  | .ssl => match varOf sslVars var with
    | none => c
    | some v => { c with ssl := setSsl v arg c.ssl }
  | .operator => match varOf operVars var with
    | none => c
    | some v => { c with opers := updLast (setOper v arg) c.opers }
  | .server =>
    if c.newIdx.isNone then c
    else match varOf serverVars var with
      | none => c
      | some v => { c with newServer := setPeer v arg c.newServer }
  | .channel => match varOf channelVars var with
    | none => c
    | some v => { c with chans := updLast (setChannel v arg) c.chans }

/-- One line in the loop of `Read_Config_File`, conf.c:1102-1236. -/
def confLine (st : Place × Cfg) (line : Str) : Place × Cfg :=
  let str := trimStr line
  if str.head? = some ';' ∨ str.head? = some '#' ∨ str = [] then st
  else if str.length ≥ LINE_LEN - 1 then st
  else if str.head? = some '[' ∧ str.getLast? = some ']' then
    match varOf sections str with
    | some k => (.inside k, openSection k st.2)
    | none => (.unknown, st.2)
  else if st.1 = .unknown then st
  else match strchr str '=' with
    | none => st
    | some ptr =>
      match st.1 with
      | .inside k => (st.1, handleVar k (trimStr (cutAt str '=')) (trimStr (ptr.drop 1)) st.2)
      | _ => st

/-- What `fgets` takes from the file for a buffer of `n + 1` bytes: at most `n` bytes, up to and with
the next newline. -/
def takeLine : Nat → Str → Str
  | 0, _ => []
  | _, [] => []
  | n + 1, c :: cs => if c = '\n' then [c] else c :: takeLine n cs

/-- The strings `fgets(str, sizeof(str), fd)` returns one after the other, conf.c:1112; a string ends
at a NUL byte.  At most `fuel` many. -/
def fileLines : Nat → Str → List Str
  | 0, _ => []
  | fuel + 1, file =>
    if file.isEmpty then []
    else cutAt (takeLine (LINE_LEN - 1) file) '\x00' ::
      fileLines fuel (file.drop (takeLine (LINE_LEN - 1) file).length)

/-- `Read_Config_File`, conf.c:1102-1236. -/
def readFile (c : Cfg) (file : Str) : Cfg :=
  ((fileLines file.length file).foldl confLine (.outside, c)).2

/-- The clean up of the server table, conf.c:964-990, for one entry `i`. -/
def cleanSlot (none : ServerCfg) (t : List ServerCfg) (i : Nat) : List ServerCfg :=
  match t[i]? with
  | .none => t
  | some x =>
    if x.conn = .none then t.set i none
    else if x.once then
      t.mapIdx (fun n y => if n ≠ i ∧ y.conn = x.conn then none else y)
    else t.set i { x with once := true }

/-- `Read_Config`, conf.c:915-1094: `starting` is `IsStarting`, the table of an existing configuration
is kept when the server is running; `files` are the contents of the configuration file and of the
files in the include directory, in the order they are read.  The default port is added in
`Cfg.ports`.  Reading the files named in `MotdFile` and `HelpFile` is not modelled. -/
def readConfig (starting : Bool) (old : Cfg) (files : List Str) : Cfg :=
  let t0 := if starting then List.replicate 64 old.noServer else old.table
  let t := (List.range t0.length).foldl (cleanSlot old.noServer) t0
  (files.foldl readFile { chans := old.chans, table := t, newServer := old.noServer, passive := old.passive }).flush

/-- The ports to listen on without SSL, conf.c:1052-1060. -/
def Cfg.listenPorts (c : Cfg) : List Nat :=
  if c.glob.ports.isEmpty && c.ssl.ports.isEmpty then [6667] else c.glob.ports

/-- The loop of `Validate_Config` checking the name of the server, conf.c:2149-2161; `first` tells
whether `ptr` is at the first character. -/
def validName : Bool → Str → Bool
  | _, [] => true
  | first, c :: cs =>
    if ('a' ≤ c ∧ c ≤ 'z') ∨ ('A' ≤ c ∧ c ≤ 'Z') ∨ ('0' ≤ c ∧ c ≤ '9') ∨ (first = false ∧ (c = '.' ∨ c = '-'))
    then validName false cs
    else false

/-- The name of the server in `Validate_Config`, conf.c:2106-2264.  `host` is the name of the host as
`gethostname` or `gethostbyname` gives it.  `none` means that the configuration is not valid. -/
def serverNameOf (host : Str) (c : Cfg) : Option Str :=
  let n := if c.glob.name.isEmpty then
      (let h := strlcpy CLIENT_ID_LEN host
       if (strchr h '.').isNone then strlcat CLIENT_ID_LEN h ".host".toList else h)
    else c.glob.name
  if n.isEmpty || !validName true n || (strchr n '.').isNone then none else some n

/-- The part of the configuration the rest of the model uses, after `Validate_Config` accepted the
name `name`.  `fmt` gives the meaning of the formats of the cloaked host names, `motd` is the message
of the day. -/
def Cfg.conf (fmt : Str → Option (UInt32 → Str)) (motd : List Str) (name : Str) (c : Cfg) : Conf where
  serverName := name
  serverInfo := c.glob.info
  maxNickLength := c.lim.maxNickLength
  maxJoins := c.lim.maxJoins
  serverPwd := c.glob.pwd
  authPing := c.opt.authPing
  morePrivacy := c.opt.morePrivacy
  operCanMode := c.opt.operCanMode
  operChanPAutoOp := c.opt.operChanPAutoOp
  operServerMode := c.opt.operServerMode
  allowRemoteOper := c.opt.allowRemoteOper
  allowedChannelTypes := c.opt.allowedChannelTypes
  cloakHost := fmt c.opt.cloakHost
  cloakHostModeX := fmt c.opt.cloakHostModeX
  cloakHostSalt := c.opt.cloakHostSalt
  cloakUserToNick := c.opt.cloakUserToNick
  defaultUserModes := c.opt.defaultUserModes
  dns := c.opt.dns
  webircPwd := c.opt.webircPwd
  maxListSize := c.lim.maxListSize
  opers := c.opers.map (fun o => { name := o.name, pwd := o.pwd, mask := o.mask })
  servers := (c.table.filter (fun x => !x.name.isEmpty)).map (fun x =>
    { name := x.name, pwdIn := x.pwdIn, pwdOut := x.pwdOut, svsMask := x.svsMask })
  channels := c.chans.map (fun x =>
    { name := x.name, autojoin := x.autojoin, modes := x.modes, key := x.key, topic := x.topic,
      maxusers := x.maxusers })
  motd := motd
  maxConnections := c.lim.maxConnections
  maxConnectionsIP := c.lim.maxConnectionsIP
  pingTimeout := c.lim.pingTimeout.toNat
  pongTimeout := c.lim.pongTimeout.toNat
  scrubCTCP := c.opt.scrubCTCP

end Ngircd
