import Verif.Props.Dispatch
import Verif.Spec.Answers

/-!
# The commands and their arguments
-/

namespace Ngircd.Spec

/-- All commands with the least and the largest number of arguments (`none`: no limit). -/
def commands : List (String × Nat × Option Nat) :=
  [("ADMIN", 0, some 1), ("AWAY", 0, some 1), ("CAP", 1, some 2), ("CHANINFO", 0, none), ("CONNECT", 0, none),
   ("DIE", 0, some 1), ("DISCONNECT", 1, some 1), ("ERROR", 0, none), ("GET", 0, none), ("GLINE", 0, none),
   ("HELP", 0, some 1), ("INFO", 0, some 1), ("INVITE", 2, some 2), ("ISON", 1, none), ("JOIN", 1, some 2),
   ("KICK", 2, some 3), ("KILL", 2, some 2), ("KLINE", 0, none), ("LINKS", 0, some 2), ("LIST", 0, some 2),
   ("LUSERS", 0, some 2), ("METADATA", 3, some 3), ("MODE", 1, none), ("MOTD", 0, some 1), ("NAMES", 0, some 2),
   ("NICK", 0, none), ("NJOIN", 2, some 2), ("NOTICE", 0, none), ("OPER", 2, some 2), ("PART", 1, some 2),
   ("PASS", 0, none), ("PING", 0, none), ("PONG", 0, none), ("POST", 0, none), ("PRIVMSG", 0, some 2),
   ("QUIT", 0, some 1), ("REHASH", 0, some 0), ("RESTART", 0, some 0), ("SERVER", 0, none), ("SERVICE", 6, some 6),
   ("SERVLIST", 0, some 2), ("SQUERY", 0, some 2), ("SQUIT", 2, some 2), ("STATS", 0, some 2), ("SUMMON", 0, none),
   ("SVSNICK", 2, some 2), ("TIME", 0, some 1), ("TOPIC", 1, some 2), ("TRACE", 0, some 1), ("USER", 0, none),
   ("USERHOST", 1, none), ("USERS", 0, none), ("VERSION", 0, some 1), ("WALLOPS", 1, some 1), ("WEBIRC", 4, some 5),
   ("WHO", 0, some 2), ("WHOIS", 0, none), ("WHOWAS", 0, none)]

/-- The commands for connections that are not registered only. -/
def openingCommands : List String := ["WEBIRC", "GET", "POST"]

/-- Which clients may use a command. -/
def MayUse (n : String) (t : CType) : Prop :=
  if n ∈ openingCommands then t = .unknown
  else if n ∈ serverCommands then t = .server
  else if n ∈ userCommands ∨ n = "SERVLIST" then t = .user
  else if n ∈ unregisteredCommands then True
  else t = .user ∨ t = .server

/-- The number of arguments is outside the bounds. -/
def WrongCount (req : Request) (least : Nat) (most : Option Nat) : Prop :=
  req.argv.length < least ∨ ∃ m, most = some m ∧ m < req.argv.length

/-- The command is a status code: three digits, at least 002. -/
def IsStatus (req : Request) : Prop := req.command.length = 3 ∧ 1 < atoi req.command

end Ngircd.Spec
