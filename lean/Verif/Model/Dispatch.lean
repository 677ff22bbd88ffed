import Verif.Model.Info
import Verif.Model.Oper
import Verif.Model.Server
import Verif.Model.Login
import Verif.Model.Message
import Verif.Model.Cap

/-!
# Model of the command dispatcher

src/ngircd/parse.c: the command table, `Validate_Prefix`, `Handle_Numeric`,
`Handle_Request` and the rest of `Parse_Request`.  `Validate_Command` and `Validate_Args`
always succeed in the default build.  Penalties and the usage counters of the table are not
modelled here.
-/

namespace Ngircd

/-- The type masks of the command table, client.h:20-33 and parse.c:56-132. -/
inductive CmdTypes
  | any | unknown | user | server | userServer
  deriving DecidableEq

/-- `client_type & cmd->type`, parse.c:521. -/
def CmdTypes.allows : CmdTypes → CType → Bool
  | .any, _ => true
  | .unknown, t => t = .unknown
  | .user, t => t = .user
  | .server, t => t = .server
  | .userServer, t => t = .user || t = .server

/-- `COMMAND`, parse.h. -/
structure Command where
  name : String
  types : CmdTypes
  min : Nat
  max : Option Nat
  run : Srv → Nat → Request → HRes

/-- `My_Commands`, parse.c:56-132 (default build: no STRICT_RFC, with IRCPLUS, no ICONV). -/
def myCommands : List Command :=
  [
   ⟨"ADMIN", .userServer, 0, some 1, ircADMIN⟩,
   ⟨"AWAY", .user, 0, some 1, ircAWAY⟩,
   ⟨"CAP", .any, 1, some 2, ircCAP⟩,
   ⟨"CONNECT", .userServer, 0, none, ircCONNECT⟩,
   ⟨"DIE", .user, 0, some 1, ircDIE⟩,
   ⟨"DISCONNECT", .user, 1, some 1, ircDISCONNECT⟩,
   ⟨"ERROR", .any, 0, none, ircERROR⟩,
   ⟨"GLINE", .userServer, 0, none, ircXLINE .gline⟩,
   ⟨"HELP", .user, 0, some 1, ircHELP⟩,
   ⟨"INFO", .userServer, 0, some 1, ircINFO⟩,
   ⟨"INVITE", .userServer, 2, some 2, ircINVITE⟩,
   ⟨"ISON", .user, 1, none, ircISON⟩,
   ⟨"JOIN", .userServer, 1, some 2, ircJOIN⟩,
   ⟨"KICK", .userServer, 2, some 3, ircKICK⟩,
   ⟨"KILL", .userServer, 2, some 2, ircKILL⟩,
   ⟨"KLINE", .userServer, 0, none, ircXLINE .kline⟩,
   ⟨"LINKS", .userServer, 0, some 2, ircLINKS⟩,
   ⟨"LIST", .userServer, 0, some 2, ircLIST⟩,
   ⟨"LUSERS", .userServer, 0, some 2, ircLUSERS⟩,
   ⟨"METADATA", .server, 3, some 3, ircMETADATA⟩,
   ⟨"MODE", .userServer, 1, none, ircMODE⟩,
   ⟨"MOTD", .userServer, 0, some 1, ircMOTD⟩,
   ⟨"NAMES", .userServer, 0, some 2, ircNAMES⟩,
   ⟨"NICK", .any, 0, none, ircNICK⟩,
   ⟨"NJOIN", .server, 2, some 2, ircNJOIN⟩,
   ⟨"NOTICE", .any, 0, none, ircNOTICE⟩,
   ⟨"OPER", .user, 2, some 2, ircOPER⟩,
   ⟨"PART", .userServer, 1, some 2, ircPART⟩,
   ⟨"PASS", .any, 0, none, ircPASS⟩,
   ⟨"PING", .userServer, 0, none, ircPING⟩,
   ⟨"PONG", .any, 0, none, ircPONG⟩,
   ⟨"PRIVMSG", .userServer, 0, some 2, ircPRIVMSG⟩,
   ⟨"QUIT", .any, 0, some 1, ircQUIT⟩,
   ⟨"REHASH", .user, 0, some 0, ircREHASH⟩,
   ⟨"RESTART", .user, 0, some 0, ircRESTART⟩,
   ⟨"SERVER", .any, 0, none, ircSERVER⟩,
   ⟨"SERVICE", .any, 6, some 6, ircSERVICE⟩,
   ⟨"SERVLIST", .user, 0, some 2, ircSERVLIST⟩,
   ⟨"SQUERY", .userServer, 0, some 2, ircSQUERY⟩,
   ⟨"SQUIT", .userServer, 2, some 2, ircSQUIT⟩,
   ⟨"STATS", .userServer, 0, some 2, ircSTATS⟩,
   ⟨"SVSNICK", .server, 2, some 2, ircSVSNICK⟩,
   ⟨"SUMMON", .userServer, 0, none, ircSUMMON⟩,
   ⟨"TIME", .userServer, 0, some 1, ircTIME⟩,
   ⟨"TOPIC", .userServer, 1, some 2, ircTOPIC⟩,
   ⟨"TRACE", .userServer, 0, some 1, ircTRACE⟩,
   ⟨"USER", .any, 0, none, ircUSER⟩,
   ⟨"USERHOST", .user, 1, none, ircUSERHOST⟩,
   ⟨"USERS", .userServer, 0, none, ircUSERS⟩,
   ⟨"VERSION", .userServer, 0, some 1, ircVERSION⟩,
   ⟨"WALLOPS", .userServer, 1, some 1, ircWALLOPS⟩,
   ⟨"WEBIRC", .unknown, 4, some 5, ircWEBIRC⟩,
   ⟨"WHO", .user, 0, some 2, ircWHO⟩,
   ⟨"WHOIS", .userServer, 0, none, ircWHOIS⟩,
   ⟨"WHOWAS", .userServer, 0, none, ircWHOWAS⟩,
   ⟨"CHANINFO", .server, 0, none, ircCHANINFO⟩,
   ⟨"GET", .unknown, 0, none, ircQUIT_HTTP⟩,
   ⟨"POST", .unknown, 0, none, ircQUIT_HTTP⟩  ]

/-- The loop of `Handle_Request` over the command table, parse.c:515-519. -/
def findCommand (name : Str) : Option Command :=
  myCommands.find? (fun c => caseEq name c.name.toList)

/-- The clients `Validate_Prefix` calls registered, parse.c:319-321. -/
def isRegistered (t : CType) : Bool := t = .user || t = .server || t = .service

/-- Outcome of `Validate_Prefix`. -/
inductive PrefixRes
  /-- the request goes on, with the prefix possibly removed -/
  | pass (req : Request)
  /-- dropped; `closed` tells whether the connection is gone -/
  | drop (s : Srv) (closed : Bool)

/-- `Validate_Prefix`, parse.c:289-363. -/
def validatePrefix (s : Srv) (i cl : Nat) (req : Request) : PrefixRes :=
  let c := s.cl cl
  match req.prefix? with
  | none =>
    if c.type = .server && !isRfc1459 s i && !caseEq req.command "ERROR".toList &&
        !caseEq req.command "PING".toList then
      .drop (s.emit i none ⟨"ERROR", ["Prefix missing".toList]⟩) false
    else .pass req
  | some p =>
    if !isRegistered c.type then .pass { req with prefix? := none }
    else match clientSearch s p with
      | none =>
        if c.type ≠ .server then
          .drop (s.emit i none ⟨"ERROR", ["Invalid prefix".toList, p]⟩) false
        else .drop s false
      | some x =>
        if (nextHop s x).ref ≠ cl then
          if c.type ≠ .server then
            .drop (connClose s i (some "Spoofed prefix".toList) true) true
          else .drop s false
        else .pass req

/-- The target of a status code, parse.c:431-436. -/
def numericTarget (s : Srv) (req : Request) : Option Client :=
  if req.argc > 0 then
    if req.arg 0 ≠ "*".toList then clientSearch s (req.arg 0) else some (s.cl s.this)
  else none

/-- `Handle_Numeric`, parse.c:417-490. -/
def handleNumeric (s : Srv) (cl : Nat) (req : Request) : HRes :=
  match numericTarget s req with
  | none => (s, true)
  | some target =>
    if target.ref = s.this then
      let num := atoi req.command
      if num = 5 then numISUPPORT s cl req
      else if num = 20 then (s, true)
      else if num = 376 then numENDOFMOTD s cl
      else (s, true)
    else match req.prefix? with
      | none => (s, true)
      | some p =>
        match clientSearch s p with
        | none => (s, true)
        | some x => (writePrefix s target x ⟨"numeric", req.command :: req.argv⟩, true)

/-- The argument count test of `Handle_Request`, parse.c:492-573. -/
def Command.argcOk (cmd : Command) (req : Request) : Bool :=
  decide (cmd.min ≤ req.argc) && (match cmd.max with | none => true | some m => decide (req.argc ≤ m))

/-- `Handle_Request` for a command of the table, parse.c:521-555. -/
def runCommand (s : Srv) (cl : Nat) (req : Request) (cmd : Command) : HRes :=
  let c := s.cl cl
  if !cmd.types.allows c.type then
    if c.type = .user && cmd.types.allows .server then
      (writeErr s c ⟨"ERR_NOTREGISTEREDSERVER_MSG", [c.ID]⟩, true)
    else (writeErr s c ⟨"ERR_NOTREGISTERED_MSG", [c.ID]⟩, true)
  else if !cmd.argcOk req then needMoreParams s cl req
  else cmd.run s cl req

/-- `Handle_Request`, parse.c:492-573. -/
def handleRequest (s : Srv) (cl : Nat) (req : Request) : HRes :=
  let c := s.cl cl
  if (c.type = .server || c.type = .unknownServer) && req.command.length = 3 &&
      decide (atoi req.command > 1) then
    handleNumeric s cl req
  else match findCommand req.command with
    | some cmd => runCommand s cl req cmd
    | none =>
      if !isRegistered c.type then (s, true)
      else if c.type ≠ .server then
        (writeErr s c ⟨"ERR_UNKNOWNCOMMAND_MSG", [c.ID, req.command]⟩, true)
      else (s, true)

/-- `Parse_Request`, parse.c:175-268: one line received on connection `i`.  A line for a
connection without client fails an assertion (parse.c:300). -/
def handleLine (s : Srv) (i : Nat) (line : Str) : HRes :=
  match s.conn? i with
  | none => (s.crash, false)
  | some k =>
    match parseRequest s.conf.scrubCTCP line with
    | .scrubbed => (s, true)
    | .prefixError => (s.emit i none ⟨"ERROR", ["Prefix without command".toList]⟩, true)
    | .request req =>
      match validatePrefix s i k.client req with
      | .drop s closed => (s, !closed)
      | .pass req => handleRequest s k.client req

end Ngircd
