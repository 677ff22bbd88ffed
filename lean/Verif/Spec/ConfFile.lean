import Verif.Model.ConfFile
import Verif.Props.Lists

/-!
# The meaning of a configuration file, line by line

A file is a sequence of lines.  Empty lines and lines beginning with `;` or `#` mean nothing; `[NAME]`
begins a block; `NAME = VALUE` sets a variable in the current block.  White space around lines, names
and values means nothing, and neither does the case of the letters in names.
-/

namespace Ngircd
namespace Spec

/-- The lines of a text, without the newlines. -/
def textLines : Str → List Str
  | [] => [[]]
  | c :: cs =>
    if c = '\n' then [] :: textLines cs
    else match textLines cs with
      | [] => [[c]]
      | l :: ls => (c :: l) :: ls

/-- White space. -/
def blank (c : Char) : Bool := c = ' ' || c = '\t' || c = '\n' || c = '\r'

/-- A text without the white space at both ends. -/
def trim (l : Str) : Str := ((l.dropWhile blank).reverse.dropWhile blank).reverse

/-- What a line says. -/
inductive Item
  | header (name : Str)
  | assign (name value : Str)
  deriving DecidableEq

/-- What a line without white space around it says. -/
def meaning (l : Str) : Option Item :=
  if l = [] ∨ l.head? = some ';' ∨ l.head? = some '#' then none
  else if l.head? = some '[' ∧ l.getLast? = some ']' then some (.header l)
  else if '=' ∈ l then
    some (.assign (trim (l.takeWhile (fun c => c ≠ '='))) (trim ((l.dropWhile (fun c => c ≠ '=')).drop 1)))
  else none

/-- What the lines say. -/
def fileItems (ls : List Str) : List Item := ls.filterMap (fun l => meaning (trim l))

/-- An assignment in a block. -/
abbrev Assign := Str × Str

/-- The assignments before the first header. -/
def leading : List Item → List Assign
  | .assign n v :: r => (n, v) :: leading r
  | _ => []

/-- The blocks: a header and the assignments up to the next header. -/
def blocks : List Item → List (Str × List Assign)
  | [] => []
  | .header h :: r => (h, leading r) :: blocks r
  | .assign _ _ :: r => blocks r

/-- The blocks of a number of files; an assignment before the first header of its file is in no
block. -/
def fileBlocks (files : List Str) : List (Str × List Assign) :=
  files.flatMap (fun f => blocks (fileItems (textLines f)))

/-- The assignments of each block with this header. -/
def blocksNamed (bs : List (Str × List Assign)) (h : String) : List (List Assign) :=
  (bs.filter (fun b => SameCase b.1 h.toList)).map Prod.snd

/-- All assignments in blocks with this header. -/
def allIn (bs : List (Str × List Assign)) (h : String) : List Assign := (blocksNamed bs h).flatten

/-- The values given to a variable, in the order of the file. -/
def values (as : List Assign) (n : String) : List Str :=
  (as.filter (fun a => SameCase a.1 n.toList)).map Prod.snd

/-- The value of a variable: what the last assignment says, and `d` when there is none. -/
def setting {α : Type} (as : List Assign) (n : String) (d : α) (f : Str → α) : α :=
  match (values as n).getLast? with
  | some v => f v
  | none => d

/-- A text in a variable with place for `n` characters. -/
def text (n : Nat) (v : Str) : Str := v.take n

/-- "yes", "true" or a number other than zero. -/
def yes (v : Str) : Bool := decide (SameCase v "yes".toList ∨ SameCase v "true".toList ∨ atoi v ≠ 0)

/-- A number, and at least `n`. -/
def atLeast (n : Int) (v : Str) : Int := max n (atoi v)

/-- The members of a list of ports which are port numbers. -/
def portList (v : Str) : List Nat :=
  ((strtok v [',']).filter (fun p => 0 < atoi (trim p) ∧ atoi (trim p) < 65535)).map
    (fun p => (atoi (trim p)).toNat)

/-- The known characters of a text, each of them once, in the order of the text. -/
def distinct (known : Str) (v : Str) : Str :=
  v.foldl (fun acc c => if c ∈ known ∧ c ∉ acc then acc ++ [c] else acc) []

/-- The stored length of nick names, with the terminating NUL: from 2 to 32.  Values below -1 count
as large numbers. -/
def nickLength (v : Str) : Nat :=
  if atoi v < -1 then 32 else if atoi v < 1 then 2 else if atoi v > 31 then 32 else (atoi v).toNat + 1

/-- The variables of the section "Global". -/
structure GlobalIs (as : List Assign) (g : GlobalCfg) : Prop where
  name : g.name = setting as "Name" [] (text 63)
  admin1 : g.admin1 = setting as "AdminInfo1" [] (text 127)
  admin2 : g.admin2 = setting as "AdminInfo2" [] (text 127)
  adminMail : g.adminMail = setting as "AdminEMail" [] (text 127)
  info : g.info = setting as "Info" "ngIRCd".toList (text 127)
  helpFile : g.helpFile = setting as "HelpFile" [] (text 255)
  listen : g.listen = (values as "Listen").head?
  motdFile : g.motdFile = setting as "MotdFile" [] (text 255)
  motd : g.motd = (((values as "MotdPhrase").filter (fun v => v ≠ [] ∧ v.length < 127)).getLast?).getD []
  network : g.network = setting as "Network" [] (fun v => (text 127 v).takeWhile (fun c => c ≠ ' '))
  pwd : g.pwd = setting as "Password" [] (text 64)
  pidFile : g.pidFile = setting as "PidFile" [] (text 255)
  ports : g.ports = setting as "Ports" [] portList

/-- The variables of the section "Limits". -/
structure LimitIs (as : List Assign) (l : LimitCfg) : Prop where
  connectRetry : l.connectRetry = setting as "ConnectRetry" 60 (atLeast 5)
  idleTimeout : l.idleTimeout = setting as "IdleTimeout" 0 atoi
  maxConnections : l.maxConnections = setting as "MaxConnections" 0 atoi
  maxConnectionsIP : l.maxConnectionsIP = setting as "MaxConnectionsIP" 5 atoi
  maxJoins : l.maxJoins = setting as "MaxJoins" 10 atoi
  maxNickLength : l.maxNickLength = setting as "MaxNickLength" 10 nickLength
  maxListSize : l.maxListSize = setting as "MaxListSize" 100 atoi
  maxPenaltyTime : l.maxPenaltyTime = setting as "MaxPenaltyTime" (-1) (atLeast (-1))
  pingTimeout : l.pingTimeout = setting as "PingTimeout" 120 (atLeast 5)
  pongTimeout : l.pongTimeout = setting as "PongTimeout" 20 (atLeast 5)

/-- The variables of the section "Options". -/
structure OptionIs (as : List Assign) (o : OptionCfg) : Prop where
  allowedChannelTypes : o.allowedChannelTypes =
    setting as "AllowedChannelTypes" "#&+".toList (distinct "#&+".toList)
  allowRemoteOper : o.allowRemoteOper = setting as "AllowRemoteOper" false yes
  chroot : o.chroot = setting as "ChrootDir" [] (text 255)
  cloakHost : o.cloakHost = setting as "CloakHost" [] (text 63)
  cloakHostModeX : o.cloakHostModeX = setting as "CloakHostModeX" [] (text 63)
  cloakHostSalt : o.cloakHostSalt = setting as "CloakHostSalt" [] (text 63)
  cloakUserToNick : o.cloakUserToNick = setting as "CloakUserToNick" false yes
  connectIPv6 : o.connectIPv6 = setting as "ConnectIPv6" true yes
  connectIPv4 : o.connectIPv4 = setting as "ConnectIPv4" true yes
  defaultUserModes : o.defaultUserModes =
    setting as "DefaultUserModes" [] (distinct "abBcCFiIoqrRswx".toList)
  dns : o.dns = setting as "DNS" true yes
  ident : o.ident = setting as "Ident" true yes
  includeDir : o.includeDir =
    ((((values as "IncludeDir").map (text 255)).filter (fun v => v ≠ [])).head?).getD []
  morePrivacy : o.morePrivacy = setting as "MorePrivacy" false yes
  noticeBeforeRegistration : o.noticeBeforeRegistration = setting as "NoticeBeforeRegistration" false yes
  operCanMode : o.operCanMode = setting as "OperCanUseMode" false yes
  operChanPAutoOp : o.operChanPAutoOp = setting as "OperChanPAutoOp" true yes
  operServerMode : o.operServerMode = setting as "OperServerMode" false yes
  pam : o.pam = setting as "PAM" true yes
  pamIsOptional : o.pamIsOptional = setting as "PAMIsOptional" false yes
  pamServiceName : o.pamServiceName = setting as "PAMServiceName" "ngircd".toList (text 63)
  authPing : o.authPing = setting as "RequireAuthPing" false yes
  scrubCTCP : o.scrubCTCP = setting as "ScrubCTCP" false yes
  webircPwd : o.webircPwd = setting as "WebircPassword" [] (text 64)

/-- The variables of the section "SSL". -/
structure SslIs (as : List Assign) (x : SslCfg) : Prop where
  certFile : x.certFile = setting as "CertFile" none some
  dhFile : x.dhFile = setting as "DHFile" none some
  keyFile : x.keyFile = setting as "KeyFile" none some
  keyFilePassword : x.keyFilePassword = setting as "KeyFilePassword" none some
  ports : x.ports = setting as "Ports" [] portList
  cipherList : x.cipherList = setting as "CipherList" none some
  caFile : x.caFile = setting as "CAFile" none some
  crlFile : x.crlFile = setting as "CRLFile" none some

/-- An operator block. -/
structure OperIs (as : List Assign) (o : OperCfg) : Prop where
  name : o.name = setting as "Name" [] (text 64)
  pwd : o.pwd = setting as "Password" [] (text 64)
  mask : o.mask = (values as "Mask").head?

/-- A server block; `passive` tells whether the daemon has been started with "--passive". -/
structure ServerIs (passive : Bool) (as : List Assign) (x : ServerCfg) : Prop where
  host : x.host = setting as "Host" [] (text 255)
  name : x.name = setting as "Name" [] (text 63)
  pwdIn : x.pwdIn = setting as "MyPassword" [] (text 64)
  pwdOut : x.pwdOut = setting as "PeerPassword" [] (text 64)
  port : x.port = ((((values as "Port").map atoi).filter (fun p => 0 ≤ p ∧ p < 65535)).getLast?.getD 0).toNat
  group : x.group = setting as "Group" (-1) atoi
  disabled : x.disabled = (passive || (values as "Passive").any yes)
  sslConnect : x.sslConnect = setting as "SSLConnect" false yes
  sslVerify : x.sslVerify = setting as "SSLVerify" true yes
  svsMask : x.svsMask = setting as "ServiceMask" [] (fun v => text 63 (lowerStr v))
  fresh : x.conn = .none ∧ x.once = false

/-- A channel block. -/
structure ChannelIs (as : List Assign) (x : ChannelCfg) : Prop where
  name : x.name = setting as "Name" [] (fun v => if isValidChanName v then v else '#' :: text 49 v)
  modes : x.modes = ((values as "Modes").map (text 513)).take 4096
  key : x.key = setting as "Key" [] (text 64)
  topic : x.topic = setting as "Topic" [] (text 512)
  keyFile : x.keyFile = setting as "KeyFile" [] (text 511)
  autojoin : x.autojoin = setting as "Autojoin" false yes
  maxusers : x.maxusers = setting as "MaxUsers" 0 (fun v => (atoi v % 2 ^ 64).toNat)

/-- Two lists agree element by element. -/
inductive Each {α β : Type} (R : α → β → Prop) : List α → List β → Prop
  | nil : Each R [] []
  | cons {a : α} {b : β} {as : List α} {bs : List β} : R a b → Each R as bs → Each R (a :: as) (b :: bs)

/-- New servers are put into the free places of a table, in order; when there is no free place, they
are ignored. -/
def fill : List ServerCfg → List ServerCfg → List ServerCfg
  | [], _ => []
  | x :: t, [] => x :: t
  | x :: t, b :: bs => if x.name = [] then b :: fill t bs else x :: fill t (b :: bs)

/-- No line is too long for the reader, and there are no NUL bytes. -/
def Readable (file : Str) : Prop := '\x00' ∉ file ∧ ∀ l ∈ textLines file, l.length < 1023

/-- The configuration the blocks `bs` describe, `t` being the table of servers beforehand and `chans`
the channels. -/
structure ConfiguredBy (bs : List (Str × List Assign)) (passive : Bool) (t : List ServerCfg)
    (chans : List ChannelCfg) (c : Cfg) : Prop where
  glob : GlobalIs (allIn bs "[GLOBAL]") c.glob
  lim : LimitIs (allIn bs "[LIMITS]") c.lim
  opt : OptionIs (allIn bs "[OPTIONS]") c.opt
  ssl : SslIs (allIn bs "[SSL]") c.ssl
  opers : Each OperIs (blocksNamed bs "[OPERATOR]") c.opers
  chans : ∃ new, c.chans = chans ++ new ∧ Each ChannelIs (blocksNamed bs "[CHANNEL]") new
  servers : ∃ new, c.table = fill t (new.filter (fun x => x.name ≠ [])) ∧
    Each (ServerIs passive) (blocksNamed bs "[SERVER]") new

end Spec
end Ngircd
