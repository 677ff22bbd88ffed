import Verif.Model.Oper

/-!
# Model of the message commands of src/ngircd/irc.c

Idle times are not modelled; penalties are in ConnRead.
-/

namespace Ngircd

/-- `MAX_HNDL_TARGETS`, defines.h:216. -/
def MAX_HNDL_TARGETS : Nat := 25

/-- The part of a string after the first `c`, if there is one. -/
def afterChar (a : Str) (c : Char) : Option Str := (strchr a c).map List.tail

/-- A target that is not a nick name, irc.c:608-640. -/
structure MsgTo where
  nick : Option Str
  user : Str
  host : Option Str
  server : Option Str
  deriving DecidableEq

/-- Parsing of `user ["%" host] "@" servername`, `user "%" host` and
`nickname "!" user "@" host`, irc.c:608-640. -/
def parseMsgTo (t : Str) : MsgTo :=
  let target := strlcpy COMMAND_LEN t
  let server := afterChar target '@'
  let t1 := cutAt target '@'
  let host := afterChar t1 '%'
  let t2 := cutAt t1 '%'
  match afterChar t2 '!' with
  | some u => { nick := some (cutAt t2 '!'), user := u, host := server, server := server }
  | none => { nick := none, user := t2, host := host, server := server }

/-- Equality of an optional part of the target: a missing part always agrees. -/
def partEq (p : Option Str) (v : Str) : Bool :=
  match p with
  | some a => caseEq a v
  | none => true

/-- Does the client agree with the target, irc.c:642-663. -/
def msgToHit (s : Srv) (m : MsgTo) (c : Client) : Bool :=
  (c.type = .user || c.type = .service) &&
  (match m.nick, m.host with
   | some n, some h => caseEq n c.ID && caseEq m.user c.User && caseEq h (displayedHost s c)
   | _, _ => caseEq m.user c.User && partEq m.host (displayedHost s c) &&
       partEq m.server (s.cl c.introducer).ID)

/-- The client a message target names, irc.c:601-663. -/
def msgClient (s : Srv) (t : Str) : Option Client :=
  match (if hasChar t '!' then none else clientSearch s t) with
  | some c => some c
  | none => s.clients.find? (msgToHit s (parseMsgTo t))

/-- Is `from` on a channel of `c`, irc.c:708-714. -/
def shareChannel (s : Srv) (c from_ : Nat) : Bool :=
  (channelsOf s c).any (fun ch => isMemberOf s ch from_)

/-- Why a message to the client `c` is refused, irc.c:666-723; `svc` is
`ForceType == CLIENT_SERVICE`. -/
def msgRefusal (s : Srv) (from_ c : Client) (svc : Bool) : Option String :=
  if !(c.type = .service || (!svc && c.type = .user)) then some "ERR_NOSUCHNICK_MSG"
  else if c.hasMode 'b' && !from_.hasMode 'R' && !from_.hasMode 'o' && from_.type ≠ .server &&
      from_.type ≠ .service then some "ERR_NONONREG_MSG"
  else if c.hasMode 'C' && !from_.hasMode 'o' && from_.type ≠ .server && from_.type ≠ .service &&
      !shareChannel s c.ref from_.ref then some "ERR_NOTONSAMECHANNEL_MSG"
  else none

/-- The connection leading to `c` is an RFC 1459 link. -/
def hopRfc1459 (s : Srv) (c : Client) : Bool :=
  match (nextHop s c).conn with
  | some i => isRfc1459 s i
  | none => false

/-- `strrchr(t, '.')` followed by a wildcard, irc.c:813-814. -/
def wildTopLevel (t : Str) : Bool :=
  ((t.reverse.takeWhile (· ≠ '.')).any (fun c => c == '*' || c == '?'))

/-- The users a mask names, `Send_Message_Mask`, irc.c:791-847: `#` a host mask, `$` a
server mask. -/
def maskTargets (s : Srv) (t : Str) : List Client :=
  s.clients.filter (fun c => c.type = .user &&
    (if t.head? = some '#' then matchCaseInsensitive t.tail c.host
     else matchCaseInsensitive t.tail (s.cl c.introducer).ID))

/-- `Send_Message_Mask`, irc.c:791-847. -/
def sendMessageMask (s : Srv) (from_ : Client) (command : String) (t text : Str)
    (sendErrors : Bool) : Srv :=
  if !from_.hasMode 'o' then
    if sendErrors then writeErr s from_ ⟨"ERR_NOPRIVILEGES_MSG", [from_.ID]⟩ else s
  else if wildTopLevel t then
    if sendErrors then writeErr s from_ ⟨"ERR_WILDTOPLEVEL_MSG", [t]⟩ else s
  else (maskTargets s t).foldl (fun s c => writePrefix s c from_ ⟨command, [c.ID, text]⟩) s

/-- A message to one client, irc.c:666-739. Returns the state and the command to use for the
following targets. -/
def msgToClient (s : Srv) (cl : Nat) (from_ c : Client) (t : Str) (command : String) (text : Str)
    (svc sendErrors : Bool) : Srv × String :=
  let tooEarly := !(c.type = .service || (!svc && c.type = .user))
  let command := if !tooEarly && svc && hopRfc1459 s c then "PRIVMSG" else command
  match msgRefusal s from_ c svc with
  | some e =>
    (if sendErrors then writeErr s from_ ⟨e, [from_.ID, if tooEarly then t else c.ID]⟩ else s, command)
  | none =>
    let s := if sendErrors && (s.cl cl).type ≠ .server && c.hasMode 'a' then
        write s from_ ⟨"RPL_AWAY_MSG", [from_.ID, c.ID, c.away.getD []]⟩ else s
    (writePrefix s c from_ ⟨command, [c.ID, text]⟩, command)

/-- One target of `Send_Message`, irc.c:526-777.  The last component is false if the function
returns (NOTICE to an unknown target). -/
def msgOne (s : Srv) (cl : Nat) (from_ : Client) (t : Str) (command : String) (text : Str)
    (svc sendErrors : Bool) : Srv × String × Bool :=
  match msgClient s t with
  | some c =>
    let r := msgToClient s cl from_ c t command text svc sendErrors
    (r.1, r.2, true)
  | none =>
    match (if svc then none else channelSearch s t) with
    | some ch => (channelWrite s ch from_ (s.cl cl) command sendErrors text, command, true)
    | none =>
      if !svc && (t.head? = some '$' || t.head? = some '#') && hasChar t '.' then
        (sendMessageMask s from_ command t text sendErrors, command, true)
      else if !sendErrors then (s, command, false)
      else (writeErr s from_ ⟨"ERR_NOSUCHNICK_MSG", [from_.ID, t]⟩, command, true)

/-- The loop of `Send_Message`, irc.c:526-777: `seen` are the targets handled before. -/
def msgLoop (cl : Nat) (from_ : Nat) (text : Str) (svc sendErrors : Bool) :
    List Str → List Str → String → Srv → Srv
  | [], _, _, s => s
  | t :: ts, seen, command, s =>
    if seen.length ≥ MAX_HNDL_TARGETS then
      writeErr s (s.cl cl) ⟨"ERR_TOOMANYTARGETS_MSG", [t]⟩
    else if seen.any (fun x => caseEq t x) then
      msgLoop cl from_ text svc sendErrors ts (t :: seen) command s
    else
      match msgOne s cl (s.cl from_) t command text svc sendErrors with
      | (s, _, false) => s
      | (s, command, true) => msgLoop cl from_ text svc sendErrors ts (t :: seen) command s

/-- The sender of a message, irc.c:560-566. -/
def msgFrom (s : Srv) (cl : Nat) (req : Request) : Option Nat :=
  if (s.cl cl).type = .server then
    match req.prefix? with
    | some p => (clientSearch s p).map (fun c => c.ref)
    | none => some cl
  else some cl

/-- `Send_Message`, irc.c:526-777. -/
def sendMessage (command : String) (svc sendErrors : Bool) (s : Srv) (cl : Nat) (req : Request) :
    HRes :=
  let c := s.cl cl
  let err (e : String) (a : List Str) : HRes :=
    (if sendErrors then writeErr s c ⟨e, c.ID :: a⟩ else s, true)
  if req.argc = 0 then err "ERR_NORECIPIENT_MSG" [req.command]
  else if req.argc = 1 then err "ERR_NOTEXTTOSEND_MSG" []
  else if req.argc > 2 then err "ERR_NEEDMOREPARAMS_MSG" [req.command]
  else match msgFrom s cl req with
    | none => (writeErr s c ⟨"ERR_NOSUCHNICK_MSG", [c.ID, req.prefix?.getD []]⟩, true)
    | some f =>
      if (req.arg 1).isEmpty then err "ERR_NOTEXTTOSEND_MSG" []
      else (msgLoop cl f (req.arg 1) svc sendErrors (strtok (req.arg 0) [',']) [] command s, true)

/-- `IRC_NOTICE`, irc.c:188-192. -/
def ircNOTICE : Srv → Nat → Request → HRes := sendMessage "NOTICE" false false

/-- `IRC_PRIVMSG`, irc.c:201-205. -/
def ircPRIVMSG : Srv → Nat → Request → HRes := sendMessage "PRIVMSG" false true

/-- `IRC_SQUERY`, irc.c:214-218. -/
def ircSQUERY : Srv → Nat → Request → HRes := sendMessage "SQUERY" true true

end Ngircd
