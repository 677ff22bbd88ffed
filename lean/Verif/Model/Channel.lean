import Verif.Model.Write

/-!
# Model of src/ngircd/channel.c
-/

namespace Ngircd

/-- `Channel_HasMode`, channel.c:528-533. -/
def Chan.hasMode (c : Chan) (m : Char) : Bool := hasChar c.modes m

/-- `Channel_IsLocal`, channel.h:148. -/
def Chan.isLocal (c : Chan) : Bool := c.name.head? == some '&'

/-- `Channel_IsModeless`, channel.h:149. -/
def Chan.isModeless (c : Chan) : Bool := c.name.head? == some '+'

/-- `Channel_Search`, channel.c:567-589. -/
def channelSearch (s : Srv) (name : Str) : Option Chan :=
  s.chans.find? (fun c => c.hash == Hash name && caseEq name c.name)

/-- `Get_Cl2Chan`, channel.c:1024-1039. -/
def getCl2Chan (s : Srv) (chan client : Nat) : Option Cl2Chan :=
  s.cl2.find? (fun m => m.chan == chan && m.client == client)

/-- `Channel_IsMemberOf`, channel.c:807-815. -/
def isMemberOf (s : Srv) (chan client : Nat) : Bool := (getCl2Chan s chan client).isSome

/-- `Channel_UserModes`, channel.c:765-779 (asserts that the client is a member). -/
def userModes (s : Srv) (chan client : Nat) : Str :=
  match getCl2Chan s chan client with
  | some m => m.modes
  | none => []

/-- `Channel_UserHasMode`, channel.c:790-804. -/
def userHasMode (s : Srv) (chan client : Nat) (m : Char) : Bool :=
  hasChar (userModes s chan client) m

/-- `Channel_MemberCount`, channel.c:473-488. -/
def memberCount (s : Srv) (chan : Nat) : Nat := (s.cl2.filter (fun m => m.chan == chan)).length

/-- `Channel_CountForUser`, channel.c:491-509. -/
def countForUser (s : Srv) (client : Nat) : Nat :=
  (s.cl2.filter (fun m => m.client == client)).length

/-- `Channel_CountVisible`, channel.c:453-470. -/
def countVisible (s : Srv) (client : Option Nat) : Nat :=
  (s.chans.filter (fun c => match client with
    | some r => !c.hasMode 's' || isMemberOf s c.ref r
    | none => true)).length

/-- `Channel_IsValidName`, channel.c:642-657.  `strchr("#&+", Name[0])` also finds the NUL of an
empty name. -/
def isValidChanName (name : Str) : Bool :=
  (match name with
   | [] => true
   | c :: _ => "#&+".toList.contains c) &&
  decide (name.length < CHANNEL_NAME_LEN) &&
  name.all (fun c => !" ,:\x07".toList.contains c)

/-- The structure `Channel_Create` makes, channel.c:997-1021. -/
def newChan (s : Srv) (name : Str) : Chan :=
  { ref := s.nextRef, name := strlcpy CHANNEL_NAME_LEN name,
    hash := Hash (strlcpy CHANNEL_NAME_LEN name), creationTime := s.now }

/-- `Channel_Create`, channel.c:997-1021. -/
def channelCreate (s : Srv) (name : Str) : Srv :=
  { s with chans := newChan s name :: s.chans, nextRef := s.nextRef + 1 }

/-- `Add_Client`, channel.c:1042-1068. -/
def addClient (s : Srv) (chan client : Nat) : Srv :=
  { s with cl2 := { client := client, chan := chan, modes := [] } :: s.cl2 }

/-- `Channel_Join`, channel.c:250-283. -/
def channelJoin (s : Srv) (client : Client) (name : Str) : Srv × Bool :=
  if !isValidChanName name then
    (writeErr s client ⟨"ERR_NOSUCHCHANNEL_MSG", [client.ID, name]⟩, false)
  else match channelSearch s name with
    | some chan =>
      if isMemberOf s chan.ref client.ref then (s, false)
      else (addClient s chan.ref client.ref, true)
    | none => (addClient (channelCreate s name) s.nextRef client.ref, true)

/-- `Delete_Channel`, channel.c:1350-1376. -/
def deleteChannel (s : Srv) (chan : Nat) : Srv :=
  { s with chans := s.chans.filter (fun c => c.ref != chan) }

/-- The end of `Remove_Client`, channel.c:1071-1158. -/
def deleteIfEmpty (s : Srv) (chan : Nat) : Srv :=
  if !(s.chan chan).hasMode 'P' && (membersOf s chan).isEmpty then deleteChannel s chan else s

/-- Unlinking of the membership, channel.c:1087-1103: the first entry found. -/
def unlinkMember (s : Srv) (chan client : Nat) : Srv :=
  { s with cl2 := s.cl2.eraseP (fun m => m.chan == chan && m.client == client) }

/-- `REMOVE_PART`, `REMOVE_QUIT`, `REMOVE_KICK`, channel.c:42-44. -/
inductive Removal
  | part | quit | kick
  deriving DecidableEq

/-- The messages of `Remove_Client`, channel.c:1071-1158. `chan` is the structure,
`informServer` already takes local channels into account. -/
def removeMsgs (s : Srv) (t : Removal) (chan : Chan) (client origin : Client) (reason : Str)
    (informServer : Bool) : Srv :=
  match t with
  | .quit => s
  | .kick =>
    let m : Msg := ⟨"KICK", [chan.name, client.ID, reason]⟩
    let s := if informServer then writeServers s (some (nextHop s origin).ref) origin m else s
    let s := writeChannelPrefix s client.ref chan.ref origin false m
    if client.conn.isSome && client.type = .user then writePrefix s client origin m else s
  | .part =>
    let reason := if s.conf.morePrivacy then [] else reason
    let m : Msg := ⟨"PART", [chan.name, reason]⟩
    let s := if informServer then writeServers s (some origin.ref) client m else s
    let s := writeChannelPrefix s origin.ref chan.ref client false m
    if origin.conn.isSome && origin.type = .user then writePrefix s origin client m else s

/-- `Remove_Client`, channel.c:1071-1158. -/
def removeClient (s : Srv) (t : Removal) (chan : Nat) (client origin : Client) (reason : Str)
    (informServer : Bool) : Srv × Bool :=
  if !isMemberOf s chan client.ref then (s, false)
  else
    let ch := s.chan chan
    let s := unlinkMember s chan client.ref
    let s := removeMsgs s t ch client origin reason (informServer && !ch.isLocal)
    (deleteIfEmpty s chan, true)

/-- `Channel_Part`, channel.c:293-325. -/
def channelPart (s : Srv) (client origin : Client) (name reason : Str) : Srv × Bool :=
  match channelSearch s name with
  | none => (writeErr s client ⟨"ERR_NOSUCHCHANNEL_MSG", [client.ID, name]⟩, false)
  | some chan =>
    if !isMemberOf s chan.ref client.ref then
      (writeErr s client ⟨"ERR_NOTONCHANNEL_MSG", [client.ID, name]⟩, false)
    else
      let reason := if s.conf.morePrivacy then [] else reason
      removeClient s .part chan.ref client origin reason true

/-- The rank test of `Channel_Kick`, channel.c:331-420. -/
def canKick (s : Srv) (chan : Nat) (peer target origin : Client) : Bool :=
  if userHasMode s chan peer.ref 'q' then true
  else if userHasMode s chan peer.ref 'a' && !userHasMode s chan target.ref 'q' then true
  else if userHasMode s chan peer.ref 'o' && !userHasMode s chan target.ref 'q' &&
      !userHasMode s chan target.ref 'a' then true
  else if userHasMode s chan peer.ref 'h' && !userHasMode s chan target.ref 'q' &&
      !userHasMode s chan target.ref 'a' && !userHasMode s chan target.ref 'o' then true
  else origin.hasMode 'o' && s.conf.operCanMode

/-- `Channel_Kick`, channel.c:331-420. -/
def channelKick (s : Srv) (peer target origin : Client) (name reason : Str) : Srv :=
  match channelSearch s name with
  | none => writeErr s origin ⟨"ERR_NOSUCHCHANNEL_MSG", [origin.ID, name]⟩
  | some chan =>
    if (peer.type ≠ .server && origin.type ≠ .service) && !isMemberOf s chan.ref origin.ref then
      writeErr s origin ⟨"ERR_NOTONCHANNEL_MSG", [origin.ID, name]⟩
    else if !isMemberOf s chan.ref target.ref then
      writeErr s origin ⟨"ERR_USERNOTINCHANNEL_MSG", [origin.ID, target.ID, name]⟩
    else if peer.type = .user &&
        ((chan.hasMode 'Q' || target.hasMode 'q' || target.type = .service) &&
          !origin.hasMode 'o') then
      writeErr s origin ⟨"ERR_KICKDENY_MSG", [origin.ID, name, target.ID]⟩
    else if peer.type = .user && !canKick s chan.ref peer target origin then
      writeErr s origin ⟨"ERR_CHANOPPRIVTOOLOW_MSG", [origin.ID, name]⟩
    else (removeClient s .kick chan.ref target origin reason true).1

/-- `Channel_Quit`, channel.c:423-443. -/
def channelQuit (s : Srv) (client : Client) (reason : Str) : Srv :=
  let reason := if s.conf.morePrivacy then [] else reason
  let s := writeRelatedPrefix s client.ref client false ⟨"QUIT", [reason]⟩
  s.chans.foldl (fun s c => (removeClient s .quit c.ref client client reason false).1) s

/-- `Channel_UserModeAdd`, channel.c:707-732 (asserts that the client is a member): the first
membership entry found. -/
def userModeAdd (s : Srv) (chan client : Nat) (m : Char) : Srv × Bool :=
  ({ s with cl2 := s.cl2.map (fun x =>
      if x.chan = chan ∧ x.client = client then { x with modes := (modeAdd x.modes m).1 } else x) },
   (modeAdd (userModes s chan client) m).2)

/-- `Channel_UserModeDel`, channel.c:735-762. -/
def userModeDel (s : Srv) (chan client : Nat) (m : Char) : Srv × Bool :=
  ({ s with cl2 := s.cl2.map (fun x =>
      if x.chan = chan ∧ x.client = client then { x with modes := (modeDel x.modes m).1 } else x) },
   (modeDel (userModes s chan client) m).2)

/-- `Channel_ModeAdd`, channel.c:660-680. -/
def channelModeAdd (s : Srv) (chan : Nat) (m : Char) : Srv × Bool :=
  (s.updChan chan (fun c => { c with modes := (modeAdd c.modes m).1 }),
   (modeAdd (s.chan chan).modes m).2)

/-- `Channel_ModeDel`, channel.c:683-704. -/
def channelModeDel (s : Srv) (chan : Nat) (m : Char) : Srv × Bool :=
  (s.updChan chan (fun c => { c with modes := (modeDel c.modes m).1 }),
   (modeDel (s.chan chan).modes m).2)

/-- `Channel_SetTopic`, channel.c:856-881; `client = none` is NULL. -/
def channelSetTopic (s : Srv) (chan : Nat) (client : Option Client) (topic : Str) : Srv :=
  s.updChan chan (fun c =>
    { c with
      topic := if topic.length ≥ COMMAND_LEN then c.topic else topic,
      topicTime := s.now,
      topicWho := match client with
        | some cl => if cl.type ≠ .server then strlcpy 32 cl.ID else "-Server-".toList
        | none => "-Server-".toList })

/-- `Channel_SetModes`, channel.c:884-891. -/
def channelSetModes (s : Srv) (chan : Nat) (modes : Str) : Srv :=
  s.updChan chan (fun c => { c with modes := strlcpy CHANNEL_MODE_LEN modes })

/-- `Channel_SetKey`, channel.c:894-902. -/
def channelSetKey (s : Srv) (chan : Nat) (key : Str) : Srv :=
  s.updChan chan (fun c => { c with key := strlcpy 65 key })

/-- `Channel_SetMaxUsers`, channel.c:905-912. -/
def channelSetMaxUsers (s : Srv) (chan : Nat) (n : Nat) : Srv :=
  s.updChan chan (fun c => { c with maxusers := n })

/-- The result of `Can_Send_To_Channel`, channel.c:922-970, and the channel afterwards (one-time
entries of a list may have been used up). -/
def canSendToChannel (s : Srv) (chan : Chan) (from_ : Client) : Chan × Bool :=
  if from_.ref = s.this then (chan, true)
  else
    let isMember := isMemberOf s chan.ref from_.ref
    let um := fun m => isMember && userHasMode s chan.ref from_.ref m
    if chan.hasMode 'n' && !isMember then (chan, false)
    else if chan.hasMode 'M' && !from_.hasMode 'R' && !from_.hasMode 'o' then (chan, false)
    else if um 'v' || um 'h' || um 'o' || um 'a' || um 'q' then (chan, true)
    else if chan.hasMode 'm' then (chan, false)
    else
      let e := listsCheck chan.excepts (masksOf s from_)
      let chan := { chan with excepts := e.1 }
      if e.2 then (chan, true)
      else
        let b := listsCheck chan.bans (masksOf s from_)
        ({ chan with bans := b.1 }, !b.2)

/-- `Channel_Write`, channel.c:973-994. -/
def channelWrite (s : Srv) (chan : Chan) (from_ client : Client) (command : String)
    (sendErrors : Bool) (text : Str) : Srv :=
  let r := canSendToChannel s chan from_
  let s := s.updChan chan.ref (fun _ => r.1)
  if !r.2 then
    if !sendErrors then s
    else if chan.hasMode 'M' then
      writeErr s from_ ⟨"ERR_NEEDREGGEDNICK_MSG", [from_.ID, chan.name]⟩
    else writeErr s from_ ⟨"ERR_CANNOTSENDTOCHAN_MSG", [from_.ID, chan.name]⟩
  else writeChannelPrefix s client.ref chan.ref from_ true ⟨command, [chan.name, text]⟩

/-- One line of a key file, channel.c:1300-1312: `user:nick:key`. -/
def keyLineMatches (line : Str) (client : Client) (key : Str) : Bool :=
  let l := trimStr line
  match strchr l ':' with
  | none => false
  | some rest =>
    let nickpass := rest.tail
    if !Match (cutAt l ':') client.User then false
    else match strchr nickpass ':' with
      | none => false
      | some rest2 => Match (cutAt nickpass ':') client.ID && key == rest2.tail

/-- `Channel_CheckKey`, channel.c:1272-1319. -/
def checkKey (chan : Chan) (client : Client) (key : Str) : Bool :=
  if !chan.hasMode 'k' then true
  else if key.isEmpty then false
  else if chan.key == key then true
  else match chan.keyfile with
    | none => false
    | some lines => lines.any (fun l => keyLineMatches l client key)

end Ngircd
