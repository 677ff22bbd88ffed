import Verif.Model.ChanCmd

/-!
# Model of src/ngircd/login.c and irc-login.c

Built without PAM and IDENT; the "original user name" kept for PAM is not modelled.
-/

namespace Ngircd

/-- `IRC_Send_LUSERS`, irc-info.c:1381-1445, without the connection counters. -/
def sendLUSERS (s : Srv) (c : Client) : Srv :=
  let n (k : Nat) : Str := intStr k
  let s := write s c ⟨"RPL_LUSERCLIENT_MSG",
    [c.ID, n (countType s .user), n (countType s .service), n (countType s .server)]⟩
  let s := if operCount s > 0 then write s c ⟨"RPL_LUSEROP_MSG", [c.ID, n (operCount s)]⟩ else s
  let s := if unknownCount s > 0 then
      write s c ⟨"RPL_LUSERUNKNOWN_MSG", [c.ID, n (unknownCount s)]⟩ else s
  let s := write s c ⟨"RPL_LUSERCHANNELS_MSG", [c.ID, n (countVisible s (some c.ref))]⟩
  let s := write s c ⟨"RPL_LUSERME_MSG",
    [c.ID, n (myCountType s .user), n (myCountType s .service), n (myServerCount s)]⟩
  let s := write s c ⟨"RPL_LOCALUSERS_MSG", [c.ID, n (myCountType s .user), n s.myMaxUsers]⟩
  write s c ⟨"RPL_NETUSERS_MSG", [c.ID, n (countType s .user), n s.maxUsers]⟩

/-- `IRC_Show_MOTD`, irc-info.c:1447-1487. -/
def showMOTD (s : Srv) (c : Client) : Srv :=
  if s.conf.motd.isEmpty && !usesSSL s c then writeErr s c ⟨"ERR_NOMOTD_MSG", [c.ID]⟩
  else
    let s := write s c ⟨"RPL_MOTDSTART_MSG", [c.ID, (s.cl s.this).ID]⟩
    let s := s.conf.motd.foldl (fun s l => write s c ⟨"RPL_MOTD_MSG", [c.ID, l]⟩) s
    let s := write s c ⟨"RPL_ENDOFMOTD_MSG", [c.ID]⟩
    if s.conf.cloakHost.isSome then write s c ⟨"RPL_HOSTHIDDEN_MSG", [c.ID, c.host]⟩ else s

/-- `IRC_Send_ISUPPORT`, irc-info.c:1568-1583. -/
def sendISUPPORT (s : Srv) (c : Client) : Srv :=
  let s := write s c ⟨"RPL_ISUPPORT1_MSG", [c.ID, intStr s.conf.maxJoins]⟩
  write s c ⟨"RPL_ISUPPORT2_MSG", [c.ID, intStr (CHANNEL_NAME_LEN - 1),
    intStr (s.conf.maxNickLength - 1)]⟩

/-- The welcome lines of `Login_User_PostAuth`, login.c:153-209. -/
def welcome (s : Srv) (c : Client) : Srv :=
  let s := write s c ⟨"RPL_WELCOME_MSG", [c.ID, c.mask]⟩
  let s := write s c ⟨"RPL_YOURHOST_MSG", [c.ID, (s.cl s.this).ID]⟩
  let s := write s c ⟨"RPL_CREATED_MSG", [c.ID]⟩
  let s := write s c ⟨"RPL_MYINFO_MSG", [c.ID, (s.cl s.this).ID]⟩
  let s := sendISUPPORT s c
  let s := sendLUSERS s c
  showMOTD s c

/-- The loop of `Login_Autojoin`, login.c:217-238. -/
def autojoinLoop (cl : Nat) : List ConfChannel → Srv → Srv
  | [], s => s
  | ch :: chs, s =>
    let s := if ch.autojoin && (channelSearch s ch.name).isSome then
        (ircJOIN s cl ⟨some (s.cl s.this).ID, "JOIN".toList, [ch.name]⟩).1
      else s
    autojoinLoop cl chs s

/-- `Login_User_PostAuth`, login.c:153-209. -/
def loginPostAuth (s : Srv) (cl : Nat) : HRes :=
  match handleServerBans s cl with
  | (s, false) => (s, false)
  | (s, true) =>
    let s := clientIntroduce s none cl .user
    let s := welcome s (s.cl cl)
    let s := if s.conf.defaultUserModes.isEmpty then s
      else (ircMODE s cl ⟨some (s.cl s.this).ID, "MODE".toList,
        [(s.cl cl).ID, strlcpy 22 ('+' :: s.conf.defaultUserModes)]⟩).1
    (autojoinLoop cl s.conf.channels s, true)

/-- `Conn_GetAuthPing`, conn.c:2505-2510. -/
def authPingOf (s : Srv) (c : Client) : Int :=
  match c.conn.bind (s.conn? ·) with
  | some k => k.authPing
  | none => 0

/-- `Conn_Password`, conn.c:915-923. -/
def passwordOf (s : Srv) (c : Client) : Str :=
  match c.conn.bind (s.conn? ·) with
  | some k => k.pwd
  | none => []

/-- `Login_User`, login.c:61-142. -/
def loginUser (s : Srv) (cl : Nat) : HRes :=
  let c := s.cl cl
  if s.conf.authPing && authPingOf s c ≠ 0 then (clientSetType s cl .waitAuthPing, true)
  else if c.caps.pending then (clientSetType s cl .waitCapEnd, true)
  else if passwordOf s c ≠ s.conf.serverPwd then
    (clientReject s c "Bad server password".toList false, false)
  else loginPostAuth s cl

/-! ## PASS -/

/-- Update the connection of a client. -/
def updConnOf (s : Srv) (c : Client) (f : Conn → Conn) : Srv :=
  match c.conn with
  | some i => s.updConn i f
  | none => s

/-- The flags `IRC_PASS` stores, irc-login.c:111-158. -/
def passFlags (req : Request) : Str :=
  let type := if (req.arg 1).length > 4 then some ((req.arg 1).drop 4) else none
  let impl := req.arg 2
  if type = some "-IRC+".toList then
    let base := match strchr impl '|' with
      | some r => r.tail
      | none => impl
    match strchr base ':' with
    | some r => r.tail
    | none => []
  else if hasChar (req.arg 3) 'Z' then ['Z'] else []

/-- `IRC_PASS`, irc-login.c:49-162. -/
def ircPASS (s : Srv) (cl : Nat) (req : Request) : HRes :=
  let c := s.cl cl
  if c.conn.isNone then (writeErr s c ⟨"ERR_UNKNOWNCOMMAND_MSG", [c.ID, req.command]⟩, true)
  else if (c.type = .unknown && req.argc = 1) ||
      ((c.type = .unknown || c.type = .unknownServer) && (req.argc = 3 || req.argc = 4)) then
    let s := updConnOf s c (fun k => { k with pwd := strlcpy 65 (req.arg 0) })
    let s := clientSetType s cl
      (if req.argc ≥ 2 && (req.arg 1).length ≥ 4 then .gotPass2813 else .gotPass)
    let s := if req.argc ≥ 3 then
        s.updCl cl (fun c => { c with flags := strlcpy 16 (passFlags req) }) else s
    (s, true)
  else if c.type = .unknown || c.type = .unknownServer then needMoreParams s cl req
  else (writeErr s c ⟨"ERR_ALREADYREGISTRED_MSG", [c.ID]⟩, true)

/-! ## NICK, SVSNICK -/

/-- `Change_Nick`, irc-login.c:901-931. -/
def changeNick (s : Srv) (origin target : Nat) (nick : Str) (inform : Bool) : Srv :=
  let t := s.cl target
  let m : Msg := ⟨"NICK", [nick]⟩
  let s :=
    if inform then
      let s := writePrefix s t t m
      writeServers s none t m
    else writeServers s (some origin) t m
  let s := writeRelatedPrefix s target t false m
  let s := registerWhowas s t
  clientSetID s target nick

/-- Is the client on a channel with mode `N`, irc-login.c:275-285. -/
def noNickChange (s : Srv) (cl : Nat) : Option Chan :=
  s.chans.find? (fun c => c.hasMode 'N' && isMemberOf s c.ref cl)

/-- `IRC_NICK` for a client that is not registered yet, irc-login.c:231-261. -/
def nickNew (s : Srv) (cl target : Nat) (nick : Str) : HRes :=
  let s := clientSetID s target nick
  let s := if s.conf.authPing then
      let s := updConnOf s (s.cl cl) (fun k => { k with authPing := s.rnd })
      match (s.cl cl).conn with
      | some i => s.emit i none ⟨"PING", [intStr s.rnd]⟩
      | none => s.crash
    else s
  if (s.cl cl).type = .gotUser then loginUser s cl
  else (clientSetType s cl .gotNick, true)

/-- `IRC_NICK` for a registered client, irc-login.c:262-283. -/
def nickChange (s : Srv) (cl target : Nat) (nick : Str) : HRes :=
  let c := s.cl cl
  match (if c.type = .user && !c.hasMode 'o' then noNickChange s cl else none) with
  | some ch => (writeErr s c ⟨"ERR_NONICKCHANGE_MSG", [c.ID, ch.name]⟩, true)
  | none => (changeNick s cl target nick (c.type = .user), true)

/-- `IRC_NICK`, the part for the client `target`, irc-login.c:215-295. -/
def nickTarget (s : Srv) (cl target : Nat) (nick : Str) : HRes :=
  let t := s.cl target
  if t.ID = nick then (s, true)
  else
    let chk : HRes := if caseEq t.ID nick then (s, true) else clientCheckNick s t nick
    match chk with
    | (s, false) => (s, true)
    | (s, true) =>
      if t.type ≠ .user && t.type ≠ .service && t.type ≠ .server then nickNew s cl target nick
      else nickChange s cl target nick

/-- The new remote user of `IRC_NICK`, irc-login.c:171-366: hops, user, host, token, modes,
info. -/
structure NickIntro where
  hops : Int
  user : Str
  host : Str
  token : Int
  modes : Str
  info : Str

/-- The arguments of an introduction, irc-login.c:295-313 (`argc` is 7 or 2). -/
def nickIntro (s : Srv) (cl : Nat) (req : Request) : NickIntro :=
  if req.argc ≥ 7 then
    { hops := atoi (req.arg 1), user := req.arg 2, host := req.arg 3, token := atoi (req.arg 4),
      modes := (req.arg 5).drop 1, info := req.arg 6 }
  else
    { hops := 1, user := req.arg 0, host := (s.cl cl).ID, token := atoi (req.arg 1),
      modes := [], info := req.arg 0 }

/-- `IRC_NICK` from a server introducing a user, irc-login.c:290-361. -/
def nickRemote (s : Srv) (cl : Nat) (req : Request) : HRes :=
  if req.argc ≠ 2 && req.argc ≠ 7 then needMoreParams s cl req
  else
    let nick := req.arg 0
    let i := nickIntro s cl req
    match clientSearch s nick with
    | some _ => killClient s (some cl) none nick "Nick collision".toList
    | none =>
      match clientGetFromToken s cl i.token with
      | none => killClient s (some cl) none nick "Unknown server".toList
      | some intr =>
        let r := s.nextRef
        let s := clientNewRemoteUser s intr.ref nick i.hops i.user i.host i.token i.modes i.info
        if req.argc < 7 then (clientSetType s r .gotNick, true)
        else (clientIntroduce s (some cl) r .user, true)

/-- `IRC_NICK`, irc-login.c:171-366. -/
def ircNICK (s : Srv) (cl : Nat) (req : Request) : HRes :=
  let c := s.cl cl
  if c.type = .unknown || c.type = .gotPass || c.type = .gotNick || c.type = .gotUser ||
      c.type = .user || c.type = .service then
    if req.argc ≠ 1 then needMoreParams s cl req
    else if c.hasMode 'r' then (writeErr s c ⟨"ERR_RESTRICTED_MSG", [c.ID]⟩, true)
    else nickTarget s cl cl (req.arg 0)
  else if c.type = .server then
    if req.argc = 1 then
      match req.prefix? with
      | none => needMoreParams s cl req
      | some p =>
        match clientSearch s p with
        | none => (writeErr s c ⟨"ERR_NOSUCHNICK_MSG", [c.ID, req.arg 0]⟩, true)
        | some t => nickTarget s cl t.ref (req.arg 0)
    else nickRemote s cl req
  else (writeErr s c ⟨"ERR_ALREADYREGISTRED_MSG", [c.ID]⟩, true)

/-- The originator of `IRC_SVSNICK`, irc-login.c:375-411. -/
def svsFrom (s : Srv) (cl : Nat) (p : Str) : Nat :=
  match clientSearch s p with
  | some f => f.ref
  | none => cl

/-- `IRC_SVSNICK`, irc-login.c:375-411. -/
def ircSVSNICK (s : Srv) (cl : Nat) (req : Request) : HRes :=
  match req.prefix? with
  | none => needMoreParams s cl req
  | some p =>
    let from_ := svsFrom s cl p
    match clientSearch s (req.arg 0) with
    | none => (writeErr s (s.cl cl) ⟨"ERR_NOSUCHNICK_MSG", [(s.cl cl).ID, req.arg 0]⟩, true)
    | some t =>
      if t.type ≠ .user then
        (writeErr s (s.cl cl) ⟨"ERR_NOSUCHNICK_MSG", [(s.cl cl).ID, req.arg 0]⟩, true)
      else if t.conn.isNone then
        (writePrefix s (nextHop s t) (s.cl from_) ⟨"SVSNICK", [req.arg 0, req.arg 1]⟩, true)
      else match clientCheckNick s (s.cl from_) (req.arg 1) with
        | (s, false) => (s, true)
        | (s, true) => (changeNick s from_ t.ref (req.arg 1) true, true)

/-! ## USER, SERVICE, WEBIRC -/

/-- Characters allowed in user names, irc-login.c:442-444. -/
def isUserChar (c : Char) : Bool :=
  c.isAlphanum || "+-@._".toList.contains c

/-- `IRC_USER`, irc-login.c:420-518. -/
def ircUSER (s : Srv) (cl : Nat) (req : Request) : HRes :=
  let c := s.cl cl
  if c.type = .gotNick || c.type = .unknown || c.type = .gotPass then
    if req.argc ≠ 4 then needMoreParams s cl req
    else if !(req.arg 0).all isUserChar then
      (match c.conn with
       | some i => connClose s i (some "Invalid user name".toList) true
       | none => s.crash, false)
    else
      let s := clientSetUser s cl (cutAt (req.arg 0) '@') false
      let s := clientSetInfo s cl (if (req.arg 3).isEmpty then ['-'] else req.arg 3)
      if c.type = .gotNick then loginUser s cl else (clientSetType s cl .gotUser, true)
  else if c.type = .server || c.type = .service then
    if req.argc ≠ 4 then needMoreParams s cl req
    else match req.prefix? with
      | none => needMoreParams s cl req
      | some p =>
        match clientSearch s p with
        | none => (writeErr s c ⟨"ERR_NOSUCHNICK_MSG", [c.ID, p]⟩, true)
        | some u =>
          let s := clientSetUser s u.ref (req.arg 0) true
          let s := clientSetHostname s u.ref (req.arg 1)
          let s := clientSetInfo s u.ref (req.arg 3)
          if u.type = .gotNick then (clientIntroduce s (some cl) u.ref .user, true) else (s, true)
  else if c.type = .user then (writeErr s c ⟨"ERR_ALREADYREGISTRED_MSG", [c.ID]⟩, true)
  else (writeErr s c ⟨"ERR_NOTREGISTERED_MSG", [c.ID]⟩, true)

/-- The text after the first `c`, `dflt` if there is none, irc-login.c:575-590. -/
def afterOr (a : Str) (c : Char) (dflt : Str) : Str :=
  match strchr a c with
  | some r => r.tail
  | none => dflt

/-- `IRC_SERVICE`, irc-login.c:531-609. -/
def ircSERVICE (s : Srv) (cl : Nat) (req : Request) : HRes :=
  let c := s.cl cl
  if c.type ≠ .gotPass && c.type ≠ .server then
    (writeErr s c ⟨"ERR_ALREADYREGISTRED_MSG", [c.ID]⟩, true)
  else if c.type ≠ .server then (writeErr s c ⟨"ERR_ERRONEUSNICKNAME_MSG", [c.ID, req.arg 0]⟩, true)
  else match clientSearch s (req.arg 0) with
    | some _ => killClient s (some cl) none (req.arg 0) "Nick collision".toList
    | none =>
      let token := atoi (req.arg 1)
      match clientGetFromToken s cl token with
      | none => killClient s (some cl) none (req.arg 0) "Unknown server".toList
      | some intr =>
        let host := afterOr (req.arg 0) '@' intr.host
        let nickuser := cutAt (req.arg 0) '@'
        let nick := cutAt nickuser '!'
        let user := afterOr nickuser '!' nick
        let modes := if (req.arg 3).head? = some '+' then (req.arg 3).tail else []
        let r := s.nextRef
        let s := clientNewRemoteUser s intr.ref nick (atoi (req.arg 4)) user host token modes (req.arg 5)
        (clientIntroduce s (some cl) r .service, true)

/-- `IRC_WEBIRC`, irc-login.c:618-637. -/
def ircWEBIRC (s : Srv) (cl : Nat) (req : Request) : HRes :=
  if s.conf.webircPwd.isEmpty || req.arg 0 ≠ s.conf.webircPwd then
    (writeErr s (s.cl cl) ⟨"ERR_PASSWDMISMATCH_MSG", [(s.cl cl).ID]⟩, true)
  else
    let s := clientSetUser s cl (req.arg 1) true
    let s := clientSetHostname s cl (if s.conf.dns then req.arg 2 else req.arg 3)
    (s.updCl cl (fun c => { c with ipaText := some (req.arg 3) }), true)

/-! ## QUIT, PING, PONG -/

/-- Close the connection of a client; the caller reports `DISCONNECTED`. -/
def closeClient (s : Srv) (c : Client) (fwd : Option Str) : HRes :=
  (match c.conn with
   | some i => connClose s i fwd true
   | none => s.crash, false)

/-- The quoted quit message of `IRC_QUIT`, irc-login.c:646-693. -/
def quitText (a : Str) : Str :=
  let q := strlcpy COMMAND_LEN a
  if q.head? = some '"' then q
  else strlcat COMMAND_LEN (strlcat (COMMAND_LEN - 1) ['"'] a) ['"']

/-- `IRC_QUIT`, irc-login.c:646-693. -/
def ircQUIT (s : Srv) (cl : Nat) (req : Request) : HRes :=
  let c := s.cl cl
  if c.type = .server then
    let msg := if req.argc = 1 then some (strlcpy COMMAND_LEN (req.arg 0)) else none
    match req.prefix? with
    | none => needMoreParams s cl req
    | some p =>
      match clientSearch s p with
      | none => (s, true)
      | some t =>
        if t.ref ≠ cl then (clientDestroy s t.ref msg true, true) else closeClient s c msg
  else closeClient s c (if req.argc = 1 then some (quitText (req.arg 0)) else none)

/-- `IRC_QUIT_HTTP`, irc-login.c:707-713. -/
def ircQUIT_HTTP (s : Srv) (cl : Nat) (req : Request) : HRes :=
  ircQUIT s cl { req with argv := ["Oops, HTTP request received? This is IRC!".toList] }

/-- `IRC_PING`, irc-login.c:724-789. -/
def ircPING (s : Srv) (cl : Nat) (req : Request) : HRes :=
  let c := s.cl cl
  let reply : HRes :=
    let from_ : Option Client :=
      if c.type = .server then
        match req.prefix? with
        | some p => clientSearch s p
        | none => some c
      else some (s.cl s.this)
    match from_ with
    | none => (writeErr s c ⟨"ERR_NOSUCHSERVER_MSG", [c.ID, req.prefix?.getD []]⟩, true)
    | some f => (write s c ⟨"PONG", [f.ID, req.arg 0]⟩, true)
  if req.argc < 1 then (writeErr s c ⟨"ERR_NOORIGIN_MSG", [c.ID]⟩, true)
  else if req.argc > 1 then
    match clientSearch s (req.arg 1) with
    | none => (writeErr s c ⟨"ERR_NOSUCHSERVER_MSG", [c.ID, req.arg 1]⟩, true)
    | some t =>
      if t.type ≠ .server then (writeErr s c ⟨"ERR_NOSUCHSERVER_MSG", [c.ID, req.arg 1]⟩, true)
      else if t.ref ≠ s.this then
        match getSender s cl req with
        | .err s => (s, true)
        | .ok f => (writePrefix s t (s.cl f) ⟨"PING", [req.arg 0, req.arg 1]⟩, true)
      else reply
  else reply

/-- The check of the authentication PING, irc-login.c:855-870.  The result of `Login_User`
is ignored: if the client has been disconnected, the following lines use freed memory. -/
def pongAuth (s : Srv) (cl : Nat) (req : Request) : Srv :=
  let c := s.cl cl
  let ping := authPingOf s c
  if ping = 0 then s
  else if ping = atoi (req.arg 0) then
    let s := updConnOf s c (fun k => { k with authPing := 0 })
    if c.type = .waitAuthPing then
      match loginUser s cl with
      | (s, true) => s
      | (s, false) => s.crash
    else s
  else write s c ⟨"NOTICE", [c.ID, "To connect, type /QUOTE PONG ".toList ++ intStr ping]⟩

/-- `IRC_PONG`, irc-login.c:798-892. The time stamps are modelled in Model/Timeout. -/
def ircPONG (s : Srv) (cl : Nat) (req : Request) : HRes :=
  let c := s.cl cl
  if req.argc < 1 then
    if c.type = .user then (writeErr s c ⟨"ERR_NOORIGIN_MSG", [c.ID]⟩, true) else (s, true)
  else if c.type = .user && req.argc > 2 then needMoreParams s cl req
  else if req.argc = 2 && c.type = .server then
    match req.prefix? with
    | none => needMoreParams s cl req
    | some p =>
      match clientSearch s (req.arg 0) with
      | none => (writeErr s c ⟨"ERR_NOSUCHSERVER_MSG", [c.ID, req.arg 0]⟩, true)
      | some t =>
        let from_ := clientSearch s p
        if t.ref ≠ s.this && some t.ref ≠ from_.map (fun f => f.ref) then
          match from_ with
          | none => (writeErr s c ⟨"ERR_NOSUCHSERVER_MSG", [c.ID, p]⟩, true)
          | some f =>
            let a := if (nextHop s t).type ≠ .server then f.ID else req.arg 0
            (writePrefix s t f ⟨"PONG", [a, req.arg 1]⟩, true)
        else (pongAuth s cl req, true)
  else (pongAuth s cl req, true)

end Ngircd
