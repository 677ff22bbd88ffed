import Verif.Model.Server

/-!
# Model of src/ngircd/irc-oper.c and the KILL, ERROR commands of irc.c
-/

namespace Ngircd

/-- `Bad_OperPass`, irc-oper.c:47-56. -/
def badOperPass (s : Srv) (cl : Nat) : HRes :=
  (write s (s.cl cl) ⟨"ERR_PASSWDMISMATCH_MSG", [(s.cl cl).ID]⟩, true)

/-- Does the mask of the operator entry match, irc-oper.c:84-85. -/
def operMaskOk (mask : Option Str) (c : Client) : Bool :=
  match mask with
  | some m => Match m c.mask
  | none => true

/-- `IRC_OPER`, irc-oper.c:65-101: the first entry with that name counts. -/
def ircOPER (s : Srv) (cl : Nat) (req : Request) : HRes :=
  match s.conf.opers.find? (fun o => o.name == req.arg 0) with
  | none => badOperPass s cl
  | some op =>
    if op.pwd ≠ req.arg 1 then badOperPass s cl
    else if !operMaskOk op.mask (s.cl cl) then badOperPass s cl
    else
      let s := if !(s.cl cl).hasMode 'o' then
          let s := (clientModeAdd s cl 'o').1
          let s := write s (s.cl cl) ⟨"MODE", [(s.cl cl).ID, "+o".toList]⟩
          writeServers s none (s.cl cl) ⟨"MODE", [(s.cl cl).ID, "+o".toList]⟩
        else s
      (write s (s.cl cl) ⟨"RPL_YOUREOPER_MSG", [(s.cl cl).ID]⟩, true)

/-- `IRC_DIE`, irc-oper.c:110-141. -/
def ircDIE (s : Srv) (cl : Nat) (req : Request) : HRes :=
  if (opCheck s cl req).isNone then opNoPrivileges s cl req
  else
    let s := if req.argc > 0 then
        s.conns.foldl (fun s k => if (s.cl k.client).type = .user then
          write s (s.cl k.client) ⟨"NOTICE", [(s.cl k.client).ID, req.arg 0]⟩ else s) s
      else s
    ({ s with sigQuit := true }, true)

/-- `IRC_REHASH`, irc-oper.c:150-168. -/
def ircREHASH (s : Srv) (cl : Nat) (req : Request) : HRes :=
  if (opCheck s cl req).isNone then opNoPrivileges s cl req
  else
    let s := write s (s.cl cl) ⟨"RPL_REHASHING_MSG", [(s.cl cl).ID]⟩
    ({ s with sigRehash := true }, true)

/-- `IRC_RESTART`, irc-oper.c:177-193. -/
def ircRESTART (s : Srv) (cl : Nat) (req : Request) : HRes :=
  if (opCheck s cl req).isNone then opNoPrivileges s cl req
  else ({ s with sigRestart := true }, true)

/-- `MAX_SERVERS`, defines.h. -/
def MAX_SERVERS : Nat := 64

/-- `Conf_EnablePassiveServer`, conf.c:632-648, `Conf_EnableServer`, conf.c:606-621 and
`Conf_AddServer`, conf.c:686-713.  Simplification: port, host and flags are not modelled, a
configured server can always be enabled. -/
def connectDo (s : Srv) (req : Request) : HRes :=
  if req.argc ≤ 3 then
    if (confFindServer s (req.arg 0)).isSome then ({ s with linkReq := req.arg 0 :: s.linkReq }, true)
    else (s, false)
  else if s.conf.servers.length ≥ MAX_SERVERS then (s, false)
  else
    let cs : ConfServer := { name := strlcpy CLIENT_ID_LEN (req.arg 0),
                             pwdOut := strlcpy 65 (req.arg 3), pwdIn := strlcpy 65 (req.arg 4) }
    ({ s with conf := { s.conf with servers := s.conf.servers ++ [cs] },
              linkReq := req.arg 0 :: s.linkReq }, true)

/-- `IRC_CONNECT` on this server, irc-oper.c:257-293. -/
def connectHere (s : Srv) (cl from_ : Nat) (req : Request) : HRes :=
  if (opCheck s from_ req).isNone then opNoPrivileges s cl req
  else match connectDo s req with
    | (s, false) =>
      (writeErr s (s.cl from_) ⟨"ERR_NOSUCHSERVER_MSG", [(s.cl from_).ID, req.arg 0]⟩, true)
    | (s, true) =>
      (sendWallops s s.this (s.cl s.this)
        ("Received CONNECT ".toList ++ req.arg 0 ++ " from ".toList ++ (s.cl from_).ID), true)

/-- `IRC_CONNECT`, irc-oper.c:202-294. -/
def ircCONNECT (s : Srv) (cl : Nat) (req : Request) : HRes :=
  if req.argc ≠ 1 && req.argc ≠ 2 && req.argc ≠ 3 && req.argc ≠ 5 && req.argc ≠ 6 then
    needMoreParams s cl req
  else if req.argc > 1 && decide (atoi (req.arg 1) < 1) then needMoreParams s cl req
  else if (s.cl cl).type ≠ .server && !(s.cl cl).hasMode 'o' then opNoPrivileges s cl req
  else if req.argc = 3 || req.argc = 6 then
    let from? := if (s.cl cl).type = .server then
        (match req.prefix? with
         | some p => clientSearch s p
         | none => some (s.cl cl))
      else some (s.cl cl)
    match from? with
    | none => (writeErr s (s.cl cl) ⟨"ERR_NOSUCHNICK_MSG", [(s.cl cl).ID, req.prefix?.getD []]⟩, true)
    | some f =>
      match clientSearch s (req.arg (if req.argc = 3 then 2 else 5)) with
      | none => (writeErr s f ⟨"ERR_NOSUCHSERVER_MSG", [f.ID, req.arg 0]⟩, true)
      | some t =>
        if t.type ≠ .server then (writeErr s f ⟨"ERR_NOSUCHSERVER_MSG", [f.ID, req.arg 0]⟩, true)
        else if t.ref ≠ s.this then (writePrefix s t f ⟨"CONNECT", req.argv⟩, true)
        else connectHere s cl f.ref req
  else connectHere s cl cl req

/-- `IRC_DISCONNECT`, irc-oper.c:306-338 with `Conf_DisableServer`, conf.c:656-674. -/
def ircDISCONNECT (s : Srv) (cl : Nat) (req : Request) : HRes :=
  if (opCheck s cl req).isNone then opNoPrivileges s cl req
  else
    let s := sendWallops s s.this (s.cl s.this)
      ("Received DISCONNECT ".toList ++ req.arg 0 ++ " from ".toList ++ (s.cl cl).ID)
    match confFindServer s (req.arg 0) with
    | none => (writeErr s (s.cl cl) ⟨"ERR_NOSUCHSERVER_MSG", [(s.cl cl).ID, req.arg 0]⟩, true)
    | some slot =>
      let myConn := (s.cl cl).conn
      let s := { s with linkReq := req.arg 0 :: s.linkReq }
      let s := match s.srvConn.find? (fun p => p.1 == slot) with
        | some p => connClose s p.2 (some "Server link terminated on operator request".toList) true
        | none => s
      (s, match myConn with
        | some i => (connClient s i).isSome
        | none => false)

/-- `IRC_WALLOPS`, irc-oper.c:347-375. -/
def ircWALLOPS (s : Srv) (cl : Nat) (req : Request) : HRes :=
  let c := s.cl cl
  if c.type = .user then
    if (opCheck s cl req).isNone then opNoPrivileges s cl req
    else (sendWallops s cl c (req.arg 0), true)
  else if c.type = .server then
    match req.prefix? with
    | none => needMoreParams s cl req
    | some p =>
      match clientSearch s p with
      | none => (writeErr s c ⟨"ERR_NOSUCHNICK_MSG", [c.ID, p]⟩, true)
      | some f => (sendWallops s cl f (req.arg 0), true)
  else (s, true)

/-- Which list, irc-oper.c:414-428. -/
inductive LineClass
  | gline | kline
  deriving DecidableEq

/-- The list of a class, `Class_GetList`, class.c:123-129. -/
def Srv.line (s : Srv) : LineClass → MaskList
  | .gline => s.glines
  | .kline => s.klines

/-- Replace the list of a class. -/
def Srv.setLine (s : Srv) (k : LineClass) (l : MaskList) : Srv :=
  match k with
  | .gline => { s with glines := l }
  | .kline => { s with klines := l }

/-- The loop of `IRC_xLINE` over the clients present, irc-oper.c:466-475.  After the client
`cl` itself has been removed its structure is used again: undefined behaviour. -/
def xlineKills (cl : Nat) (k : LineClass) (reason : Str) : List Nat → Srv → Srv
  | [], s => s
  | r :: rs, s =>
    match s.cl? r with
    | none => s.crash
    | some c =>
      if k = .gline || c.conn.isSome then
        let m := listsCheck (s.line k) (masksOf s c)
        let s := s.setLine k m.1
        if m.2 then
          if (s.cl? cl).isNone then s.crash
          else xlineKills cl k reason rs (killClient s (some cl) none c.ID reason).1
        else xlineKills cl k reason rs s
      else xlineKills cl k reason rs s

/-- The reason given to the clients that a new line covers, irc-oper.c:464-465. -/
def xlineReason (k : LineClass) (from_ : Client) (text : Str) : Str :=
  strlcpy COMMAND_LEN ((if k = .gline then "G-Line by \"".toList else "K-Line by \"".toList) ++
    from_.ID ++ "\": \"".toList ++ text ++ "\"".toList)

/-- The effect of `IRC_xLINE`, irc-oper.c:384-480.  Simplified: a negative time is stored as 0;
both mean that the entry never expires (lists.c:381). -/
def xlineDo (s : Srv) (cl : Nat) (from_ : Client) (k : LineClass) (req : Request) : Srv :=
  let mask := listsMakeMask (req.arg 0) MASK_LEN
  if req.argc = 1 then
    let s := s.setLine k (listsDel (s.line k) mask)
    if k = .gline then writeServers s (some cl) from_ ⟨"GLINE", [req.arg 0]⟩ else s
  else
    let t := atoi (req.arg 1)
    let timeout : Nat := if t > 0 then t.toNat + s.now else 0
    let s := s.setLine k (listsAdd true (s.line k) mask timeout (some (req.arg 2)) false).1
    let s := if k = .gline then writeServers s (some cl) from_ ⟨"GLINE", req.argv⟩ else s
    xlineKills cl k (xlineReason k from_ (req.arg 2)) (s.clients.map (fun c => c.ref)) s

/-- `IRC_xLINE`, irc-oper.c:384-480. -/
def ircXLINE (k : LineClass) (s : Srv) (cl : Nat) (req : Request) : HRes :=
  if req.argc ≠ 1 && req.argc ≠ 3 then needMoreParams s cl req
  else
    let from? := if !s.conf.allowRemoteOper && (s.cl cl).type = .server then none
      else opCheck s cl req
    match from? with
    | none => opNoPrivileges s cl req
    | some f => (xlineDo s cl f k req, true)

/-! ## ERROR and KILL -/

/-- `IRC_ERROR`, irc.c:85-120. -/
def ircERROR (s : Srv) (cl : Nat) (req : Request) : HRes :=
  let c := s.cl cl
  if c.type ≠ .gotPass && c.type ≠ .gotPass2813 && c.type ≠ .unknownServer &&
      c.type ≠ .server && c.type ≠ .service then (s, true)
  else
    let msg := if req.argc < 1 then "Got ERROR command".toList else req.arg 0
    match c.conn with
    | some i => (connClose s i (some msg) false, false)
    | none => (s, true)

/-- `IRC_KILL`, irc.c:138-179. -/
def ircKILL (s : Srv) (cl : Nat) (req : Request) : HRes :=
  let c := s.cl cl
  if c.type ≠ .server && (opCheck s cl req).isNone then opNoPrivileges s cl req
  else
    let from_ := match req.prefix? with
      | none => cl
      | some p => match clientSearch s p with
        | some f => f.ref
        | none => s.this
    let reason := if c.type = .user then
        strlcpy COMMAND_LEN ("KILLed by ".toList ++ c.ID ++ ": ".toList ++ req.arg 1)
      else strlcpy COMMAND_LEN (req.arg 1)
    killClient s (some cl) (some from_) (req.arg 0) reason

end Ngircd
