import Verif.Model.State

/-!
# Model of src/ngircd/client.c (accessors) and client-cap.c
-/

namespace Ngircd

/-- `Client_HasMode`, client.c:979-984. -/
def Client.hasMode (c : Client) (m : Char) : Bool := hasChar c.modes m

/-- `Client_HasFlag`, client.c:987-992. -/
def Client.hasFlag (c : Client) (m : Char) : Bool := hasChar c.flags m

/-- `Client_ID`, client.c:696-706 (the length assertion is not modelled). -/
def Client.ID (c : Client) : Str := if c.id.isEmpty then "*".toList else c.id

/-- `Client_User`, client.c:717-722. -/
def Client.User (c : Client) : Str := if c.user.isEmpty then "~".toList else c.user

/-- `x` is a local client: `Client_Conn(c) > NONE`. -/
def Client.isLocal (c : Client) : Bool := c.conn.isSome

/-- `GETID_LEN`, client.c:41. -/
def GETID_LEN : Nat := 31 + 1 + 19 + 1 + 63 + 1

/-- Set a mode letter, `Client_ModeAdd`, client.c:544-562 and `Channel_ModeAdd`,
channel.c:660-680, `Channel_UserModeAdd`, channel.c:707-732: both buffers have 21 bytes.
The new mode string and whether it was newly set. -/
def modeAdd (modes : Str) (m : Char) : Str × Bool :=
  if hasChar modes m then (modes, false) else (strlcat CLIENT_MODE_LEN modes [m], true)

/-- Delete a mode letter, `Client_ModeDel`, client.c:565-589; `Channel_ModeDel`,
channel.c:683-704; `Channel_UserModeDel`, channel.c:735-762: the first occurrence is
removed by moving the rest down. -/
def modeDel (modes : Str) (m : Char) : Str × Bool :=
  if hasChar modes m then (modes.erase m, true) else (modes, false)

/-- The loop of `Client_NextHop`, client.c:894-906. -/
def nextHopF : Nat → Srv → Client → Client
  | 0, _, c => c
  | n + 1, s, c =>
    if c.introducer ≠ c.ref ∧ c.introducer ≠ s.this then nextHopF n s (s.cl c.introducer)
    else c

/-- `Client_NextHop`, client.c:894-906: the directly connected client through which `c` is
reached.  The loop runs at most once per client (introducers were created earlier). -/
def nextHop (s : Srv) (c : Client) : Client := nextHopF s.clients.length s c

/-- `Client_Mask`, client.c:917-931. -/
def Client.mask (c : Client) : Str :=
  if c.type = .server then c.id
  else (c.id ++ '!' :: c.user ++ '@' :: c.host).take (GETID_LEN - 1)

/-- The generation of a cloaked host name in `Client_UpdateCloakedHostname`,
client.c:815-852. -/
def genCloak (s : Srv) (c : Client) : Str :=
  match s.conf.cloakHostModeX with
  | some fmt => (fmt (Hash (strlcat 64 (strlcpy 64 c.host) s.conf.cloakHostSalt))).take 63
  | none => strlcpy 64 (s.cl c.introducer).ID

/-- `Client_HostnameDisplayed`, client.c:773-788.  Simplification: the generated name is
not cached and not announced to the peers. -/
def displayedHost (s : Srv) (c : Client) : Str :=
  if !c.hasMode 'x' then c.host
  else match c.cloaked with
    | some h => h
    | none => genCloak s c

/-- `Client_MaskCloaked`, client.c:945-960. -/
def maskCloaked (s : Srv) (c : Client) : Str :=
  if !c.hasMode 'x' then c.mask
  else (c.id ++ '!' :: c.user ++ '@' :: displayedHost s c).take (GETID_LEN - 1)

/-- The two masks of a client lists are checked against. -/
def masksOf (s : Srv) (c : Client) : ClientMasks :=
  { cloaked := maskCloaked s c, real := c.mask }

/-- `Client_Search`, client.c:597-620. -/
def clientSearch (s : Srv) (nick : Str) : Option Client :=
  let searchId := cutAt (strlcpy CLIENT_ID_LEN nick) '!'
  s.clients.find? (fun c => c.hash == Hash searchId && caseEq c.id searchId)

/-- `Client_SearchServer`, client.c:631-652. -/
def clientSearchServer (s : Srv) (mask : Str) : Option Client :=
  if matchCaseInsensitive mask (s.cl s.this).ID then some (s.cl s.this)
  else s.clients.find? (fun c => c.type = .server && matchCaseInsensitive mask c.id)

/-- `Client_GetFromToken`, client.c:659-677. -/
def clientGetFromToken (s : Srv) (client : Nat) (token : Int) : Option Client :=
  if token = 0 then none
  else s.clients.find? (fun c => c.type = .server && c.introducer == client && c.token == token)

/-- `Count`, client.c:1348-1361. -/
def countType (s : Srv) (t : CType) : Nat := (s.clients.filter (fun c => c.type = t)).length

/-- `MyCount`, client.c:1364-1377. -/
def myCountType (s : Srv) (t : CType) : Nat :=
  (s.clients.filter (fun c => c.introducer == s.this && c.type = t)).length

/-- `Client_MyServerCount`, client.c:1145-1158. -/
def myServerCount (s : Srv) : Nat :=
  (s.clients.filter (fun c => c.type = .server && c.hops = 1)).length

/-- `Client_OperCount`, client.c:1161-1175. -/
def operCount (s : Srv) : Nat :=
  (s.clients.filter (fun c => c.type = .user && c.hasMode 'o')).length

/-- `Client_UnknownCount`, client.c:1178-1192. -/
def unknownCount (s : Srv) : Nat :=
  (s.clients.filter (fun c => c.type ≠ .user && c.type ≠ .service && c.type ≠ .server)).length

/-- The characters below 'A' allowed in nick names, client.c:1219. -/
def nickGoodChars : Str := ";0123456789-".toList

/-- `Client_IsValidNick`, client.c:1215-1238. `strchr(goodchars, Nick[0])` also matches the
NUL of an empty nick name.  Bytes above 127 are refused in any case: as signed `char` they
are below 'A' and not among the good characters, as unsigned `char` they are above '}'. -/
def isValidNick (maxLen : Nat) (nick : Str) : Bool :=
  match nick with
  | [] => false
  | c0 :: _ =>
    !hasChar nickGoodChars c0 && decide (nick.length < maxLen) &&
    nick.all (fun c =>
      !(decide (c.toNat < 'A'.toNat) && !hasChar nickGoodChars c) && !decide (c.toNat > '}'.toNat))

/-- `Adjust_Counters`, client.c:1454-1471. -/
def adjustCounters (s : Srv) (c : Client) : Srv :=
  if c.type ≠ .user then s
  else
    let s := if c.conn.isSome then { s with myMaxUsers := max s.myMaxUsers (myCountType s .user) } else s
    { s with maxUsers := max s.maxUsers (countType s .user) }

/-- The search of `Generate_MyToken`, client.c:1430-1451, from candidate `t` on: the scan
of the list restarts with the next candidate when the token is used. -/
def freeToken : Nat → List Client → Int → Int
  | 0, _, t => t
  | n + 1, cs, t => if cs.any (fun c => c.mytoken == t) then freeToken n cs (t + 1) else t

/-- `Generate_MyToken`, client.c:1430-1451: the loop ends at the latest when as many
candidates as there are clients have been refused. -/
def genMyToken (s : Srv) : Int := freeToken (s.clients.length + 1) s.clients 2

/-- `Client_SetID`, client.c:383-398, on the structure. -/
def setIdC (conf : Conf) (c : Client) (id : Str) : Client :=
  let id' := strlcpy CLIENT_ID_LEN id
  let c := { c with id := id', hash := Hash id' }
  if conf.cloakUserToNick then
    { c with user := strlcpy CLIENT_USER_LEN id, info := strlcpy CLIENT_INFO_LEN id }
  else c

/-- `Client_SetUser`, client.c:401-417, on the structure. -/
def setUserC (conf : Conf) (c : Client) (user : Str) (idented : Bool) : Client :=
  if conf.cloakUserToNick then { c with user := strlcpy CLIENT_USER_LEN c.id }
  else if idented then { c with user := strlcpy CLIENT_USER_LEN user }
  else { c with user := '~' :: strlcpy (CLIENT_USER_LEN - 1) user }

/-- `Client_SetInfo`, client.c:440-452, on the structure. -/
def setInfoC (conf : Conf) (c : Client) (info : Str) : Client :=
  if conf.cloakUserToNick then { c with info := strlcpy CLIENT_INFO_LEN c.id }
  else { c with info := strlcpy CLIENT_INFO_LEN info }

/-- `Client_SetHostname`, client.c:334-359, on the structure. -/
def setHostC (conf : Conf) (c : Client) (host : Str) : Client :=
  match conf.cloakHost with
  | some fmt =>
    if c.host.isEmpty || hasChar c.host '.' || hasChar c.host ':' then
      let cloak := fmt (Hash (strlcat GETID_LEN (strlcpy GETID_LEN host) conf.cloakHostSalt))
      { c with host := strlcpy CLIENT_HOST_LEN (cloak.take (GETID_LEN - 1)) }
    else { c with host := strlcpy CLIENT_HOST_LEN host }
  | none => { c with host := strlcpy CLIENT_HOST_LEN host }

/-- `Client_SetID`, client.c:383-398. -/
def clientSetID (s : Srv) (r : Nat) (id : Str) : Srv := s.updCl r (fun c => setIdC s.conf c id)

/-- `Client_SetUser`, client.c:401-417. -/
def clientSetUser (s : Srv) (r : Nat) (user : Str) (idented : Bool) : Srv :=
  s.updCl r (fun c => setUserC s.conf c user idented)

/-- `Client_SetInfo`, client.c:440-452. -/
def clientSetInfo (s : Srv) (r : Nat) (info : Str) : Srv :=
  s.updCl r (fun c => setInfoC s.conf c info)

/-- `Client_SetHostname`, client.c:334-359. -/
def clientSetHostname (s : Srv) (r : Nat) (host : Str) : Srv :=
  s.updCl r (fun c => setHostC s.conf c host)

/-- `Client_SetType`, client.c:509-516. -/
def clientSetType (s : Srv) (r : Nat) (t : CType) : Srv :=
  let tok := genMyToken s
  let s := s.updCl r (fun c =>
    if t = .server then { c with type := t, mytoken := tok } else { c with type := t })
  adjustCounters s (s.cl r)

/-- `Client_ModeAdd`, client.c:544-562. -/
def clientModeAdd (s : Srv) (r : Nat) (m : Char) : Srv × Bool :=
  (s.updCl r (fun c => { c with modes := (modeAdd c.modes m).1 }), (modeAdd (s.cl r).modes m).2)

/-- `Client_ModeDel`, client.c:565-589. -/
def clientModeDel (s : Srv) (r : Nat) (m : Char) : Srv × Bool :=
  (s.updCl r (fun c => { c with modes := (modeDel c.modes m).1 }), (modeDel (s.cl r).modes m).2)

/-- `if (arg) Client_SetXxx(client, arg)`, client.c:179-224. -/
def withOpt (o : Option Str) (c : Client) (f : Client → Str → Client) : Client :=
  match o with
  | some a => f c a
  | none => c

/-- `Init_New_Client`, client.c:179-224: the structure, before it is linked. -/
def newClientC (s : Srv) (conn : Option Nat) (introducer : Nat) (topserver : Option Nat)
    (type : CType) (id user host info : Option Str) (hops token : Int) (modes : Option Str)
    (idented : Bool) : Client :=
  let c : Client := { ref := s.nextRef, conn := conn, introducer := introducer,
                      topserver := topserver, type := type, starttime := s.now }
  let c := withOpt id c (setIdC s.conf)
  let c := withOpt user c (fun c u => setUserC s.conf c u idented)
  let c := withOpt host c (setHostC s.conf)
  let c := withOpt info c (setInfoC s.conf)
  let c := { c with hops := hops, token := token }
  let c := withOpt modes c (fun c m => { c with modes := strlcpy CLIENT_MODE_LEN m })
  let c := if type = .server then { c with mytoken := genMyToken s } else c
  if c.hasMode 'a' then { c with away := some "Away".toList } else c

/-- `Init_New_Client`, client.c:179-224. The new pointer is the old `nextRef`. -/
def initNewClient (s : Srv) (c : Client) : Srv :=
  adjustCounters { s with clients := c :: s.clients, nextRef := s.nextRef + 1 } c

/-- `Client_NewLocal`, client.c:140-145. -/
def clientNewLocal (s : Srv) (conn : Nat) (host : Option Str) (type : CType) : Srv :=
  initNewClient s (newClientC s (some conn) s.this none type none none host none 0 0 none false)

/-- `Client_NewRemoteServer`, client.c:152-158. -/
def clientNewRemoteServer (s : Srv) (introducer : Nat) (host : Str) (topserver : Nat)
    (hops token : Int) (info : Str) : Srv :=
  initNewClient s (newClientC s none introducer (some topserver) .server (some host) none
    (some host) (some info) hops token none true)

/-- `Client_NewRemoteUser`, client.c:165-171. -/
def clientNewRemoteUser (s : Srv) (introducer : Nat) (nick : Str) (hops : Int) (user host : Str)
    (token : Int) (modes info : Str) : Srv :=
  initNewClient s (newClientC s none introducer none .user (some nick) (some user)
    (some host) (some info) hops token (some modes) true)

/-- `Client_RegisterWhowas`, client.c:1480-1515. -/
def registerWhowas (s : Srv) (c : Client) : Srv :=
  if s.conf.morePrivacy then s
  else if (s.now : Int) - c.starttime < 30 then s
  else
    let slot := s.lastWhowas + 1
    let slot := if slot ≥ 64 ∨ slot < 0 then 0 else slot
    let e : Whowas :=
      { time := s.now, id := strlcpy 32 c.ID, user := strlcpy CLIENT_USER_LEN c.User,
        host := strlcpy CLIENT_HOST_LEN (displayedHost s c),
        info := strlcpy CLIENT_INFO_LEN c.info,
        server := strlcpy CLIENT_HOST_LEN (s.cl c.introducer).ID }
    { s with whowas := s.whowas.set slot.toNat e, lastWhowas := slot }

end Ngircd
