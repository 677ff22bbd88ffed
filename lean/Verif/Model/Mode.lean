import Verif.Model.Destroy
import Verif.Model.Parse

/-!
# Model of src/ngircd/irc-mode.c and the macros of irc-macros.h

As writes do not fail in the model, the variables `ok` and `connected` of the C functions
keep the value `CONNECTED`.
-/

namespace Ngircd

/-- Number of arguments. -/
def Request.argc (req : Request) : Nat := req.argv.length

/-- `Req->argv[n]` for `n < argc`. -/
def Request.arg (req : Request) (n : Nat) : Str := req.argv.getD n []

/-- Value of the digits at the start of a string. -/
def digitsVal : Str → Nat → Nat
  | [], acc => acc
  | c :: cs, acc => if c.isDigit then digitsVal cs (10 * acc + (c.toNat - '0'.toNat)) else acc

/-- `atoi`/`atol`.  Simplification: no overflow. -/
def atoi (str : Str) : Int :=
  let t := str.dropWhile (fun c => c == ' ' || (9 ≤ c.toNat && c.toNat ≤ 13))
  match t with
  | '-' :: cs => - (digitsVal cs 0 : Int)
  | '+' :: cs => digitsVal cs 0
  | cs => digitsVal cs 0

/-- The reply of the argument count macros, irc-macros.h:26-66. -/
def needMoreParams (s : Srv) (cl : Nat) (req : Request) : HRes :=
  (writeErr s (s.cl cl) ⟨"ERR_NEEDMOREPARAMS_MSG", [(s.cl cl).ID, req.command]⟩, true)

/-- Outcome of `_IRC_GET_SENDER_OR_RETURN_` and `_IRC_GET_TARGET_SERVER_OR_RETURN_`:
the client, or the error reply. -/
inductive Got
  | ok (r : Nat)
  | err (s : Srv)

/-- `_IRC_GET_SENDER_OR_RETURN_`, irc-macros.h:87-98. -/
def getSender (s : Srv) (cl : Nat) (req : Request) : Got :=
  if (s.cl cl).type = .server then
    match req.prefix? with
    | none => .err (needMoreParams s cl req).1
    | some p =>
      match clientSearch s p with
      | none => .err (writeErr s (s.cl cl) ⟨"ERR_NOSUCHNICK_MSG", [(s.cl cl).ID, p]⟩)
      | some c => .ok c.ref
  else .ok cl

/-! ## User modes -/

/-- The action characters of the result string, irc-mode.c:185-206 and 537-550: a trailing
action is replaced, otherwise the new one is appended. -/
def pushAction (the : Str) (c : Char) : Str :=
  match the.getLast? with
  | some l => if l == '+' || l == '-' then the.dropLast ++ [c] else strlcat COMMAND_LEN the [c]
  | none => strlcat COMMAND_LEN the [c]

/-- Remove a trailing action character, irc-mode.c:328-331 and 937-940. -/
def dropAction (the : Str) : Str :=
  match the.getLast? with
  | some l => if l == '+' || l == '-' then the.dropLast else the
  | none => the

/-- What `Client_Mode` decides for one mode letter, irc-mode.c:210-308. -/
inductive UVerdict
  | set            -- `x[0]` is the letter
  | deny (e : String)
  deriving DecidableEq

/-- The `switch` of `Client_Mode`, irc-mode.c:131-374, apart from the side effects. -/
def userModeVerdict (s : Srv) (client origin : Client) (set : Bool) (m : Char) : UVerdict :=
  if "bCiIsw".toList.contains m then .set
  else if m = 'a' then
    if client.type = .server then .set else .deny "ERR_NOPRIVILEGES_MSG"
  else if m = 'B' then
    if client.hasMode 'r' then .deny "ERR_RESTRICTED_MSG" else .set
  else if m = 'c' ∨ m = 'q' ∨ m = 'F' then
    if !set || client.type = .server || origin.hasMode 'o' then .set
    else .deny "ERR_NOPRIVILEGES_MSG"
  else if m = 'o' then
    if !set || client.type = .server then .set else .deny "ERR_NOPRIVILEGES_MSG"
  else if m = 'r' then
    if set || client.type = .server then .set else .deny "ERR_RESTRICTED_MSG"
  else if m = 'R' then
    if client.type = .server then .set else .deny "ERR_NICKREGISTER_MSG"
  else if m = 'x' then
    if client.hasMode 'r' then .deny "ERR_RESTRICTED_MSG"
    else if !set || s.conf.cloakHostModeX.isSome || client.type = .server || origin.hasMode 'o' then
      .set
    else .deny "ERR_NOPRIVILEGES_MSG"
  else if client.type ≠ .server then .deny "ERR_UMODEUNKNOWNFLAG2_MSG"
  else .set

/-- The variables of the loop of `Client_Mode`. -/
structure UModeSt where
  s : Srv
  the : Str
  set : Bool
  hidden : Bool := false

/-- One letter in the loop of `Client_Mode`, irc-mode.c:131-374. -/
def userModeChar (st : UModeSt) (cl origin target : Nat) (m : Char) : UModeSt :=
  if m = '+' ∨ m = '-' then
    if st.set ≠ (m == '+') then { st with the := pushAction st.the m, set := m == '+' } else st
  else
    match userModeVerdict st.s (st.s.cl cl) (st.s.cl origin) st.set m with
    | .deny e => { st with s := writeErr st.s (st.s.cl origin) ⟨e, [(st.s.cl origin).ID]⟩ }
    | .set =>
      let s := if m = 'a' then
          st.s.updCl origin (fun c => { c with away := some (strlcpy CLIENT_AWAY_LEN "Away".toList) })
        else st.s
      let r := if st.set then clientModeAdd s target m else clientModeDel s target m
      { s := r.1, the := if r.2 then strlcat COMMAND_LEN st.the [m] else st.the,
        set := st.set, hidden := st.hidden || m == 'x' }

/-- The loop of `Client_Mode`, irc-mode.c:131-374, over the rest of the current argument and
the arguments after it.  An empty argument makes the pointer run past its end: undefined
behaviour. -/
def userModeLoop (cl origin target : Nat) : List Str → UModeSt → UModeSt
  | [], st => st
  | a :: as, st =>
    if a.isEmpty then { st with s := st.s.crash }
    else userModeLoop cl origin target as (a.foldl (fun st m => userModeChar st cl origin target m) st)

/-- The end of `Client_Mode`, irc-mode.c:131-374: tell client and peers. -/
def userModeFinish (st : UModeSt) (cl origin target : Nat) : Srv :=
  let s := st.s
  if st.the.length < 2 then s
  else
    let m : Msg := ⟨"MODE", [(s.cl target).ID, dropAction st.the]⟩
    let s :=
      if (s.cl cl).type = .server then
        let s := if (s.cl target).conn.isSome then writePrefix s (s.cl target) (s.cl origin) m else s
        writeServers s (some cl) (s.cl origin) m
      else
        let s := writePrefix s (s.cl cl) (s.cl origin) m
        writeServers s (some cl) (s.cl origin) m
    if st.hidden && (s.cl target).conn.isSome then
      writePrefix s (s.cl target) (s.cl origin)
        ⟨"RPL_HOSTHIDDEN_MSG", [(s.cl target).ID, displayedHost s (s.cl target)]⟩
    else s

/-- `Client_Mode`, irc-mode.c:131-374. -/
def clientMode (s : Srv) (cl origin target : Nat) (req : Request) : Srv :=
  if (s.cl cl).type = .user && target ≠ cl then
    writeErr s (s.cl cl) ⟨"ERR_USERSDONTMATCH_MSG", [(s.cl cl).ID]⟩
  else
    match req.argv.drop 1 with
    | [] => write s (s.cl origin) ⟨"RPL_UMODEIS_MSG", [(s.cl target).ID, (s.cl target).modes]⟩
    | a :: rest =>
      match a with
      | [] => writeErr s (s.cl origin) ⟨"ERR_UMODEUNKNOWNFLAG_MSG", [(s.cl origin).ID]⟩
      | c :: cs =>
        if c = '+' ∨ c = '-' then
          let st : UModeSt := { s := s, the := [c], set := c == '+' }
          let st := cs.foldl (fun st m => userModeChar st cl origin target m) st
          userModeFinish (userModeLoop cl origin target rest st) cl origin target
        else writeErr s (s.cl origin) ⟨"ERR_UMODEUNKNOWNFLAG_MSG", [(s.cl origin).ID]⟩

/-! ## Channel modes -/

/-- `Channel_Mode_Answer_Request`, irc-mode.c:383-433. -/
def channelModeAnswer (s : Srv) (origin : Client) (chan : Chan) : Srv :=
  let extra (m : Char) : Str :=
    if m = 'l' then ' ' :: intStr chan.maxusers else if m = 'k' then ' ' :: chan.key else []
  let the := if isMemberOf s chan.ref origin.ref then chan.modes ++ chan.modes.flatMap extra
    else chan.modes
  let s := write s origin ⟨"RPL_CHANNELMODEIS_MSG", [origin.ID, chan.name, the]⟩
  write s origin ⟨"RPL_CREATIONTIME_MSG", [origin.ID, chan.name, intStr chan.creationTime]⟩

/-- The rights collected in `Channel_Mode`: once seen they are kept for the rest of the
command. -/
structure Rights where
  oper : Bool := false
  machine : Bool := false
  owner : Bool := false
  admin : Bool := false
  op : Bool := false
  halfop : Bool := false
  deriving DecidableEq

/-- half operator or above -/
def Rights.half (r : Rights) : Bool :=
  r.oper || r.machine || r.owner || r.admin || r.op || r.halfop

/-- channel operator or above -/
def Rights.chop (r : Rights) : Bool := r.oper || r.machine || r.owner || r.admin || r.op

/-- IRC operator override or server -/
def Rights.top (r : Rights) : Bool := r.oper || r.machine

/-- The rights of the client on the channel are added, irc-mode.c:558-567. -/
def collectRights (s : Srv) (r : Rights) (chan cl : Nat) : Rights :=
  if r.machine || r.oper then r
  else { r with
    owner := r.owner || userHasMode s chan cl 'q',
    admin := r.admin || userHasMode s chan cl 'a',
    op := r.op || userHasMode s chan cl 'o',
    halfop := r.halfop || userHasMode s chan cl 'h' }

/-- The lists of a channel. -/
inductive CList
  | invites | bans | excepts
  deriving DecidableEq

/-- `Channel_GetListInvites`, `Channel_GetListBans`, `Channel_GetListExcepts`. -/
def Chan.list (c : Chan) : CList → MaskList
  | .invites => c.invites
  | .bans => c.bans
  | .excepts => c.excepts

/-- Replace a list of a channel. -/
def Chan.setList (c : Chan) (l : CList) (h : MaskList) : Chan :=
  match l with
  | .invites => { c with invites := h }
  | .bans => { c with bans := h }
  | .excepts => { c with excepts := h }

/-- The mode letter of a list. -/
def CList.letter : CList → Char
  | .invites => 'I'
  | .bans => 'b'
  | .excepts => 'e'

/-- Reply macros of `Channel_ShowInvites`, `Channel_ShowBans`, `Channel_ShowExcepts`. -/
def CList.replies : CList → String × String
  | .invites => ("RPL_INVITELIST_MSG", "RPL_ENDOFINVITELIST_MSG")
  | .bans => ("RPL_BANLIST_MSG", "RPL_ENDOFBANLIST_MSG")
  | .excepts => ("RPL_EXCEPTLIST_MSG", "RPL_ENDOFEXCEPTLIST_MSG")

/-- `ShowChannelList`, channel.c:1188-1210. -/
def showChannelList (s : Srv) (client : Client) (chan : Chan) (l : CList) : Srv :=
  let s := (chan.list l).foldl (fun s e =>
    write s client ⟨l.replies.1, [client.ID, chan.name, e.mask, e.reason.getD [],
      intStr e.validUntil]⟩) s
  write s client ⟨l.replies.2, [client.ID, chan.name]⟩

/-- `MAX_HNDL_CHANNEL_LISTS`, defines.h:210. -/
def MAX_HNDL_CHANNEL_LISTS : Nat := 50

/-- `MAX_HNDL_MODES_ARG`, defines.h:213. -/
def MAX_HNDL_MODES_ARG : Nat := 5

/-- `Send_ListChange`, irc-mode.c:1128-1152. -/
def sendListChange (s : Srv) (isAdd : Bool) (l : CList) (prefix_ client : Client) (chan : Chan)
    (mask : Str) : Srv :=
  let m : Msg := ⟨"MODE", [chan.name, [if isAdd then '+' else '-', l.letter], mask]⟩
  let s := if client.type = .user then writePrefix s client prefix_ m else s
  let s := writeServers s (some client.ref) prefix_ m
  writeChannelPrefix s client.ref chan.ref prefix_ false m

/-- `Add_To_List`, irc-mode.c:1018-1072. -/
def addToList (s : Srv) (l : CList) (prefix_ client : Client) (chan : Chan) (pattern : Str) : Srv :=
  let mask := listsMakeMask pattern MASK_LEN
  let count := listsCount chan.invites + listsCount chan.excepts + listsCount chan.bans
  if (listsCheckDupe (chan.list l) mask).isSome then s
  else if client.type = .user && count ≥ MAX_HNDL_CHANNEL_LISTS then
    writeErr s client ⟨"ERR_LISTFULL_MSG", [client.ID, chan.name, mask]⟩
  else
    let s := s.updChan chan.ref (fun c =>
      c.setList l (listsAdd true (c.list l) mask s.now (some client.ID) false).1)
    sendListChange s true l prefix_ client chan mask

/-- `Del_From_List`, irc-mode.c:1084-1115. -/
def delFromList (s : Srv) (l : CList) (prefix_ client : Client) (chan : Chan) (pattern : Str) : Srv :=
  let mask := listsMakeMask pattern MASK_LEN
  if (listsCheckDupe (chan.list l) mask).isNone then s
  else
    let s := s.updChan chan.ref (fun c => c.setList l (listsDel (c.list l) mask))
    sendListChange s false l prefix_ client chan mask

/-- `Mode_Limit_Reached`, irc-mode.c:111-120. -/
def modeLimitReached (client : Client) (count : Nat) : Bool :=
  if client.type = .server || client.type = .service then false
  else decide (count ≥ MAX_HNDL_MODES_ARG)

/-- The variables of the loop of `Channel_Mode`. `args` are the arguments from `arg_arg`
on. -/
structure CModeSt where
  s : Srv
  the : Str
  targs : Str := []
  set : Bool
  rights : Rights
  count : Nat := 0
  args : List Str

/-- What `Channel_Mode` does for one mode letter before the common part of the loop:
stop (`goto chan_exit`), go on without a change, or change the channel or member mode. -/
inductive CAct
  | exit
  | skip
  | chanMode (argadd : Str)
  | memberMode (client : Nat)

/-- Error reply of `Channel_Mode` to the originator. -/
def cmErr (st : CModeSt) (origin : Nat) (chan : Chan) (e : String) : CModeSt :=
  { st with s := writeErr st.s (st.s.cl origin) ⟨e, [(st.s.cl origin).ID, chan.name]⟩ }

/-- Modes `k` and `l` with an argument, irc-mode.c:602-710; `valid` is the test of the
argument, `change` the effect. -/
def cmArgMode (st : CModeSt) (cl origin : Nat) (chan : Chan) (m : Char) (req : Request) :
    CModeSt × CAct :=
  let st := { st with count := st.count + 1 }
  if modeLimitReached (st.s.cl cl) (st.count - 1) then (st, .exit)
  else if !st.set then
    if st.rights.half then
      if m = 'k' then
        ({ st with args := st.args.drop 1 },
         .chanMode (if (st.s.chan chan.ref).hasMode 'k' then "*".toList else []))
      else (st, .chanMode [])
    else (cmErr st origin chan "ERR_CHANOPRIVSNEEDED_MSG", .skip)
  else match st.args with
    | [] =>
      if st.rights.machine then (st, .exit)
      else ({ st with s := writeErr st.s (st.s.cl origin) ⟨"ERR_NEEDMOREPARAMS_MSG",
        [(st.s.cl origin).ID, req.command]⟩ }, .exit)
    | a :: as =>
      let valid := if m = 'k' then !a.isEmpty && !hasChar a ' '
        else decide (0 < atoi a) && decide (atoi a < 0xFFFF)
      if !valid then
        if st.rights.machine then (st, .exit)
        else (cmErr st origin chan "ERR_INVALIDMODEPARAM_MSG", .exit)
      else if st.rights.half then
        let s := (channelModeDel st.s chan.ref m).1
        let s := if m = 'k' then channelSetKey s chan.ref a
          else channelSetMaxUsers s chan.ref (atoi a).toNat
        let argadd := if m = 'k' then strlcpy 65 a else intStr (atoi a)
        ({ st with s := s, args := as }, .chanMode argadd)
      else ({ cmErr st origin chan "ERR_CHANOPRIVSNEEDED_MSG" with args := as }, .skip)

/-- Member modes, irc-mode.c:749-822: the error for a missing right, in the order of the
fall-through cases. -/
def memberModeDeny (r : Rights) (m : Char) : Option String :=
  if m = 'q' && !(r.oper || r.machine || r.owner) then some "ERR_CHANOPPRIVTOOLOW_MSG"
  else if (m = 'q' || m = 'a') && !(r.oper || r.machine || r.owner || r.admin) then
    some "ERR_CHANOPPRIVTOOLOW_MSG"
  else if (m = 'q' || m = 'a' || m = 'o' || m = 'h') && !r.chop then
    some "ERR_CHANOPRIVSNEEDED_MSG"
  else none

/-- Member modes, irc-mode.c:749-822. -/
def cmMemberMode (st : CModeSt) (origin : Nat) (chan : Chan) (m : Char) : CModeSt × CAct :=
  match memberModeDeny st.rights m with
  | some e => (cmErr st origin chan e, .exit)
  | none =>
    match st.args with
    | [] => (st, .exit)
    | a :: as =>
      if st.rights.half then
        match clientSearch st.s a with
        | some c => ({ st with args := as }, .memberMode c.ref)
        | none => ({ st with s := writeErr st.s (st.s.cl origin) ⟨"ERR_NOSUCHNICK_MSG",
            [(st.s.cl origin).ID, a]⟩, args := as }, .skip)
      else ({ cmErr st origin chan "ERR_CHANOPRIVSNEEDED_MSG" with args := as }, .skip)

/-- List modes, irc-mode.c:823-861. -/
def cmListMode (st : CModeSt) (cl origin : Nat) (chan : Chan) (l : CList) : CModeSt × CAct :=
  let st := { st with count := st.count + 1 }
  if modeLimitReached (st.s.cl cl) (st.count - 1) then (st, .exit)
  else match st.args with
    | [] => ({ st with s := showChannelList st.s (st.s.cl origin) (st.s.chan chan.ref) l }, .skip)
    | a :: as =>
      if st.rights.half then
        let s := if st.set then addToList st.s l (st.s.cl origin) (st.s.cl cl) (st.s.chan chan.ref) a
          else delFromList st.s l (st.s.cl origin) (st.s.cl cl) (st.s.chan chan.ref) a
        ({ st with s := s, args := as }, .skip)
      else ({ cmErr st origin chan "ERR_CHANOPRIVSNEEDED_MSG" with args := as }, .skip)

/-- The `switch` of `Channel_Mode`, irc-mode.c:444-977. -/
def cmSwitch (st : CModeSt) (cl origin : Nat) (chan : Chan) (m : Char) (req : Request) :
    CModeSt × CAct :=
  if "Rsz".toList.contains m && !st.rights.chop then
    (cmErr st origin chan "ERR_CHANOPRIVSNEEDED_MSG", .exit)
  else if "RsziVMmnNQt".toList.contains m then
    if st.rights.half then (st, .chanMode [])
    else (cmErr st origin chan "ERR_CHANOPRIVSNEEDED_MSG", .skip)
  else if m = 'k' ∨ m = 'l' then cmArgMode st cl origin chan m req
  else if m = 'O' ∨ m = 'P' then
    if st.set then
      if st.rights.top then (st, .chanMode [])
      else ({ st with s := writeErr st.s (st.s.cl origin) ⟨"ERR_NOPRIVILEGES_MSG",
        [(st.s.cl origin).ID]⟩ }, .skip)
    else if st.rights.chop then (st, .chanMode [])
    else (cmErr st origin chan "ERR_CHANOPRIVSNEEDED_MSG", .skip)
  else if "qaohv".toList.contains m then cmMemberMode st origin chan m
  else if m = 'I' then cmListMode st cl origin chan .invites
  else if m = 'b' then cmListMode st cl origin chan .bans
  else if m = 'e' then cmListMode st cl origin chan .excepts
  else if (st.s.cl cl).type ≠ .server then
    ({ st with s := writeErr st.s (st.s.cl origin) ⟨"ERR_UNKNOWNMODE_MSG",
      [(st.s.cl origin).ID, [m], chan.name]⟩ }, .skip)
  else (st, .chanMode [])

/-- The common end of the loop body of `Channel_Mode`, irc-mode.c:444-977. -/
def cmApply (st : CModeSt) (origin : Nat) (chan : Chan) (m : Char) : CAct → CModeSt
  | .exit => st
  | .skip => st
  | .memberMode c =>
    if !isMemberOf st.s chan.ref c then
      { st with s := writeErr st.s (st.s.cl origin) ⟨"ERR_USERNOTINCHANNEL_MSG",
        [(st.s.cl origin).ID, (st.s.cl c).ID, chan.name]⟩ }
    else
      let r := if st.set then userModeAdd st.s chan.ref c m else userModeDel st.s chan.ref c m
      if r.2 then
        { st with s := r.1, the := strlcat COMMAND_LEN st.the [m],
                  targs := strlcat COMMAND_LEN (strlcat COMMAND_LEN st.targs [' ']) (st.s.cl c).ID }
      else { st with s := r.1 }
  | .chanMode argadd =>
    let r := if st.set then channelModeAdd st.s chan.ref m else channelModeDel st.s chan.ref m
    { st with
      s := r.1, the := if r.2 then strlcat COMMAND_LEN st.the [m] else st.the,
      targs := if argadd.isEmpty then st.targs
        else strlcat COMMAND_LEN (strlcat COMMAND_LEN st.targs [' ']) argadd }

/-- One letter in the loop of `Channel_Mode`, irc-mode.c:444-977. The second component is
false after `goto chan_exit`. -/
def cmChar (st : CModeSt) (cl origin : Nat) (chan : Chan) (m : Char) (req : Request) :
    CModeSt × Bool :=
  if m = '+' ∨ m = '-' then
    (if st.set ≠ (m == '+') then { st with the := pushAction st.the m, set := m == '+' } else st, true)
  else
    let st := { st with rights := collectRights st.s st.rights chan.ref cl }
    match cmSwitch st cl origin chan m req with
    | (st, .exit) => (st, false)
    | (st, act) => (cmApply st origin chan m act, true)

/-- The loop of `Channel_Mode`, irc-mode.c:444-977: `ptr` is the rest of the current argument.
An empty argument makes the pointer run past its end: undefined behaviour.  `fuel`: every
round consumes a letter or an argument. -/
def cmLoop (cl origin : Nat) (chan : Chan) (req : Request) : Nat → Str → CModeSt → CModeSt
  | 0, _, st => st
  | n + 1, [], st =>
    match st.args with
    | [] => st
    | a :: as =>
      if a.isEmpty then { st with s := st.s.crash }
      else cmLoop cl origin chan req n a { st with args := as }
  | n + 1, m :: ms, st =>
    match cmChar st cl origin chan m req with
    | (st, false) => st
    | (st, true) => cmLoop cl origin chan req n ms st

/-- The end of `Channel_Mode`, irc-mode.c:444-977. -/
def cmFinish (st : CModeSt) (cl origin : Nat) (chan : Chan) : Srv :=
  let s := st.s
  if st.the.length < 2 then s
  else
    let m : Msg := ⟨"MODE", [chan.name, dropAction st.the, st.targs]⟩
    if (s.cl cl).type = .server then
      if chan.isLocal && cl ≠ s.this then s
      else
        let s := writeServers s (some cl) (s.cl origin) m
        writeChannelPrefix s cl chan.ref (s.cl origin) false m
    else
      let origin := if s.conf.operServerMode then s.this else origin
      let s := writePrefix s (s.cl cl) (s.cl origin) m
      let s := if chan.isLocal then s else writeServers s (some cl) (s.cl origin) m
      writeChannelPrefix s cl chan.ref (s.cl origin) false m

/-- Number of letters and arguments: an upper bound for the rounds of the loop. -/
def argsSize : List Str → Nat
  | [] => 0
  | a :: as => a.length + 1 + argsSize as

/-- `Channel_Mode`, irc-mode.c:444-977. -/
def channelMode (s : Srv) (cl origin : Nat) (chan : Chan) (req : Request) : Srv :=
  if chan.isModeless then
    writeErr s (s.cl cl) ⟨"ERR_NOCHANMODES_MSG", [(s.cl cl).ID, chan.name]⟩
  else match req.argv.drop 1 with
    | [] => channelModeAnswer s (s.cl origin) chan
    | a :: rest =>
      let rights : Rights :=
        { oper := (s.cl cl).hasMode 'o' && s.conf.operCanMode,
          machine := (s.cl cl).type = .server || (s.cl cl).type = .service }
      if !isMemberOf s chan.ref cl && !rights.oper && !rights.machine then
        writeErr s (s.cl origin) ⟨"ERR_NOTONCHANNEL_MSG", [(s.cl origin).ID, chan.name]⟩
      else
        let set := a.head? != some '-'
        let ptr := if a.head? = some '-' ∨ a.head? = some '+' then a.drop 1 else a
        let st : CModeSt := { s := s, the := [if set then '+' else '-'], set := set,
                              rights := rights, args := rest }
        cmFinish (cmLoop cl origin chan req (argsSize (a :: rest) + 1) ptr st) cl origin chan

/-- `IRC_MODE`, irc-mode.c:60-100, the replacement of the client: a request with the prefix of
this server is done in its name. -/
def modeCl (s : Srv) (cl : Nat) (req : Request) : Nat :=
  match req.prefix?.bind (clientSearch s) with
  | some c => if c.ref = s.this then s.this else cl
  | none => cl

/-- `IRC_MODE`, irc-mode.c:60-100. -/
def ircMODE (s : Srv) (cl : Nat) (req : Request) : HRes :=
  match getSender s cl req with
  | .err s => (s, true)
  | .ok origin =>
    let cl := modeCl s cl req
    let a := req.arg 0
    let validNick := isValidNick s.conf.maxNickLength a
    match (if validNick then clientSearch s a else none) with
    | some t => (clientMode s cl origin t.ref req, true)
    | none =>
      match (if isValidChanName a then channelSearch s a else none) with
      | some ch => (channelMode s cl origin ch req, true)
      | none =>
        (writeErr s (s.cl cl) ⟨if validNick then "ERR_NOSUCHNICK_MSG" else "ERR_NOSUCHCHANNEL_MSG",
          [(s.cl cl).ID, a]⟩, true)

/-- `Client_SetAway`, client.c:491-506. -/
def clientSetAway (s : Srv) (r : Nat) (txt : Str) : Srv :=
  s.updCl r (fun c => { c with away := some (strlcpy CLIENT_AWAY_LEN txt) })

/-- `IRC_AWAY`, irc-mode.c:986-1006. -/
def ircAWAY (s : Srv) (cl : Nat) (req : Request) : HRes :=
  if req.argc = 1 && !(req.arg 0).isEmpty then
    let s := clientSetAway s cl (req.arg 0)
    let s := (clientModeAdd s cl 'a').1
    let s := writeServers s (some cl) (s.cl cl) ⟨"MODE", [(s.cl cl).ID, "+a".toList]⟩
    (write s (s.cl cl) ⟨"RPL_NOWAWAY_MSG", [(s.cl cl).ID]⟩, true)
  else
    let s := (clientModeDel s cl 'a').1
    let s := writeServers s (some cl) (s.cl cl) ⟨"MODE", [(s.cl cl).ID, "-a".toList]⟩
    (write s (s.cl cl) ⟨"RPL_UNAWAY_MSG", [(s.cl cl).ID]⟩, true)

end Ngircd
