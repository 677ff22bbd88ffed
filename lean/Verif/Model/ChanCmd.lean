import Verif.Model.Mode

/-!
# Model of src/ngircd/irc-channel.c, irc-op.c and `IRC_Send_NAMES` of irc-info.c
-/

namespace Ngircd

/-- `who_flags_qualifier`, irc-info.c:95-128: the prefix characters of a member. -/
def flagsQualifier (client : Client) (modes : Str) : Str :=
  let all := [('q', '~'), ('a', '&'), ('o', '@'), ('h', '%'), ('v', '+')]
  let have_ := (all.filter (fun p => hasChar modes p.1)).map (fun p => p.2)
  if client.caps.multiPrefix then have_ else have_.take 1

/-- The names `IRC_Send_NAMES` lists, irc-info.c:1527-1554: invisible users only for members. -/
def visibleMembers (s : Srv) (client : Client) (chan : Chan) : List Nat :=
  (membersOf s chan.ref).filter (fun r =>
    isMemberOf s chan.ref client.ref || !(s.cl r).hasMode 'i')

/-- `IRC_Send_NAMES`, irc-info.c:1496-1561.  Simplification: one line instead of several when the
names do not fit. -/
def sendNAMES (s : Srv) (client : Client) (chan : Chan) : Srv :=
  let isMember := isMemberOf s chan.ref client.ref
  if s.conf.morePrivacy && !isMember then s
  else if !isMember && chan.hasMode 's' then s
  else
    let names := (visibleMembers s client chan).map (fun r =>
      flagsQualifier client (userModes s chan.ref r) ++ (s.cl r).ID)
    if names.isEmpty then s
    else write s client ⟨"RPL_NAMREPLY_MSG",
      client.ID :: [if chan.hasMode 's' then '@' else '='] :: chan.name :: names⟩

/-- `IRC_Send_Channel_Info`, irc-channel.c:256-282. -/
def sendChannelInfo (s : Srv) (client : Client) (chan : Chan) : Srv :=
  let s := if chan.topic.isEmpty then s else
    let s := write s client ⟨"RPL_TOPIC_MSG", [client.ID, chan.name, chan.topic]⟩
    write s client ⟨"RPL_TOPICSETBY_MSG", [client.ID, chan.name, chan.topicWho, intStr chan.topicTime]⟩
  let s := sendNAMES s client chan
  write s client ⟨"RPL_ENDOFNAMES_MSG", [client.ID, chan.name]⟩

/-! ## JOIN -/

/-- The loop of `part_from_all_channels`, irc-channel.c:53-65.  The loop ends when there is no
channel left; it would not end if parting did not remove a membership. -/
def partAll : Nat → Srv → Nat → Nat → Srv
  | 0, s, _, _ => s
  | n + 1, s, cl, target =>
    match channelsOf s target with
    | [] => s
    | ch :: _ =>
      partAll n (channelPart s (s.cl target) (s.cl cl) (s.chan ch).name (s.cl target).ID).1 cl target

/-- Does the connection use SSL, `Conn_UsesSSL`, conn.c:2701-2708. -/
def usesSSL (s : Srv) (c : Client) : Bool :=
  match c.conn.bind (s.conn? ·) with
  | some k => k.ssl
  | none => false

/-- The lists of the channel after the three checks of `join_allowed`, irc-channel.c:77-144. -/
def joinConsume (s : Srv) (c : Client) (chan : Chan) : Chan :=
  { chan with
    bans := (listsCheck chan.bans (masksOf s c)).1,
    excepts := (listsCheck chan.excepts (masksOf s c)).1,
    invites := (listsCheck chan.invites (masksOf s c)).1 }

/-- The decision of `join_allowed`, irc-channel.c:77-144, for a client that is not an IRC
operator: the error to report. -/
def joinRefusal (s : Srv) (c : Client) (chan : Chan) (key : Str) : Option String :=
  let banned := (listsCheck chan.bans (masksOf s c)).2
  let excepted := (listsCheck chan.excepts (masksOf s c)).2
  let invited := (listsCheck chan.invites (masksOf s c)).2
  if banned && !invited && !excepted then some "ERR_BANNEDFROMCHAN_MSG"
  else if chan.hasMode 'i' && !invited then some "ERR_INVITEONLYCHAN_MSG"
  else if !checkKey chan c key then some "ERR_BADCHANNELKEY_MSG"
  else if chan.hasMode 'l' && decide (chan.maxusers ≤ memberCount s chan.ref) then
    some "ERR_CHANNELISFULL_MSG"
  else if chan.hasMode 'z' && !usesSSL s c then some "ERR_SECURECHANNEL_MSG"
  else if chan.hasMode 'O' && !c.hasMode 'o' then some "ERR_OPONLYCHANNEL_MSG"
  else if chan.hasMode 'R' && !c.hasMode 'R' then some "ERR_REGONLYCHANNEL_MSG"
  else none

/-- `join_allowed`, irc-channel.c:77-144. -/
def joinAllowed (s : Srv) (cl : Nat) (chan : Chan) (channame key : Str) : Srv × Bool :=
  let c := s.cl cl
  if c.hasMode 'o' then (s, true)
  else
    let s' := s.updChan chan.ref (fun _ => joinConsume s c chan)
    match joinRefusal s c chan key with
    | none => (s', true)
    | some e => (writeErr s' c ⟨e, [c.ID, channame]⟩, false)

/-- `join_set_channelmodes`, irc-channel.c:153-168. -/
def joinSetModes (s : Srv) (chan target : Nat) (flags : Str) : Srv :=
  let s := flags.foldl (fun s m => (userModeAdd s chan target m).1) s
  if (s.chan chan).hasMode 'P' && s.conf.operChanPAutoOp && (s.cl target).hasMode 'o' then
    (userModeAdd s chan target 'o').1
  else s

/-- The lines of `cb_join_forward`, irc-channel.c:183-204. -/
def joinForwardLines (s : Srv) (target to : Client) (channame modes : Str) : List Sent :=
  let rfc := match to.conn with | some i => isRfc1459 s i | none => false
  if rfc then
    (lineTo s to target ⟨"JOIN", [channame]⟩).toList ++
    (if modes.isEmpty then []
     else (lineTo s to target ⟨"MODE", [channame, '+' :: modes, target.ID]⟩).toList)
  else
    (lineTo s to target ⟨"JOIN", [if modes.isEmpty then channame else channame ++ '\x07' :: modes]⟩).toList

/-- `join_forward`, irc-channel.c:217-248. -/
def joinForward (s : Srv) (cl : Nat) (target : Client) (chan : Chan) (channame : Str) : Srv :=
  let modes := strlcpy (CHANNEL_MODE_LEN - 1) (userModes s chan.ref target.ref)
  let s := if chan.isLocal then s else
    s.emits ((peerServers s (some cl) none).flatMap
      (fun to => joinForwardLines s target to channame modes))
  let s := writeChannelPrefix s cl chan.ref target false ⟨"JOIN", [channame]⟩
  if modes.isEmpty then s
  else writeChannelPrefix s cl chan.ref target false ⟨"MODE", [channame, '+' :: modes, target.ID]⟩

/-- May channels of this type be created, irc-channel.c:341. -/
def joinTypeOk (s : Srv) : Str → Bool
  | [] => true
  | ch :: _ => hasChar s.conf.allowedChannelTypes ch

/-- The checks of `IRC_JOIN` for a local user, irc-channel.c:334-373: `none` if the channel is
skipped, otherwise the member modes of the joining user. -/
def joinChecks (s : Srv) (cl : Nat) (channame key : Str) : Srv × Option Str :=
  let c := s.cl cl
  match channelSearch s channame with
  | some chan =>
    if isMemberOf s chan.ref cl then (s, none)
    else if s.conf.maxJoins > 0 && decide ((countForUser s cl : Int) ≥ s.conf.maxJoins) then
      (writeErr s c ⟨"ERR_TOOMANYCHANNELS_MSG", [c.ID, channame]⟩, none)
    else match joinAllowed s cl chan channame key with
      | (s, true) => (s, some [])
      | (s, false) => (s, none)
  | none =>
    if !joinTypeOk s channame then
      (writeErr s c ⟨"ERR_NOSUCHCHANNEL_MSG", [c.ID, channame]⟩, none)
    else if s.conf.maxJoins > 0 && decide ((countForUser s cl : Int) ≥ s.conf.maxJoins) then
      (writeErr s c ⟨"ERR_TOOMANYCHANNELS_MSG", [c.ID, channame]⟩, none)
    else (s, some (if channame.head? = some '+' then [] else ['o']))

/-- `IRC_JOIN` after the checks, irc-channel.c:385-411: `wasNew` tells whether the channel did
not exist. -/
def joinDo (s : Srv) (cl target : Nat) (channame flags : Str) (wasNew : Bool) : Srv :=
  match channelJoin s (s.cl target) channame with
  | (s, false) => s
  | (s, true) =>
    match channelSearch s channame with
    | none => s.crash
    | some chan =>
      let s := if wasNew && chan.isModeless then
          (channelModeAdd (channelModeAdd s chan.ref 't').1 chan.ref 'n').1
        else s
      let s := joinSetModes s chan.ref target flags
      let s := joinForward s cl (s.cl target) (s.chan chan.ref) channame
      if (s.cl cl).type = .user then
        let s := writePrefix s (s.cl cl) (s.cl target) ⟨"JOIN", [channame]⟩
        sendChannelInfo s (s.cl cl) (s.chan chan.ref)
      else s

/-- One round of the loop of `IRC_JOIN`, irc-channel.c:291-420. -/
def joinOne (s : Srv) (cl target : Nat) (name : Str) (key : Str) : Srv :=
  if (s.cl cl).type = .user then
    match joinChecks s cl name key with
    | (s, none) => s
    | (s', some flags) => joinDo s' cl target name flags (channelSearch s name).isNone
  else
    let channame := if (s.cl cl).type = .server then cutAt name '\x07' else name
    let flags := if (s.cl cl).type = .server then
        (match strchr name '\x07' with | some r => r.tail | none => []) else []
    match channelSearch s channame with
    | some chan =>
      let s := s.updChan chan.ref (fun c =>
        { c with invites := (listsCheck c.invites (masksOf s (s.cl target))).1 })
      joinDo s cl target channame flags false
    | none => joinDo s cl target channame flags true

/-- The loop of `IRC_JOIN`, irc-channel.c:291-420, over the channels and keys. -/
def joinLoop (cl target : Nat) : List Str → List Str → Srv → Srv
  | [], _, s => s
  | n :: ns, ks, s => joinLoop cl target ns ks.tail (joinOne s cl target n (ks.headD []))

/-- `IRC_JOIN`, irc-channel.c:291-420. -/
def ircJOIN (s : Srv) (cl : Nat) (req : Request) : HRes :=
  match getSender s cl req with
  | .err s => (s, true)
  | .ok target =>
    if req.argc = 1 && req.arg 0 = ['0'] then (partAll (countForUser s target) s cl target, true)
    else
      let keys := if req.argc > 1 then strtok (req.arg 1) [','] else []
      match strtok (req.arg 0) [','] with
      | [] => needMoreParams s cl req
      | names => (joinLoop cl target names keys s, true)

/-! ## PART, TOPIC, LIST, CHANINFO -/

/-- The loop of `IRC_PART`, irc-channel.c:429-459. -/
def partLoop (cl target : Nat) (reason : Str) : List Str → Srv → Srv
  | [], s => s
  | n :: ns, s =>
    partLoop cl target reason ns (channelPart s (s.cl target) (s.cl cl) n reason).1

/-- `IRC_PART`, irc-channel.c:429-459. -/
def ircPART (s : Srv) (cl : Nat) (req : Request) : HRes :=
  match getSender s cl req with
  | .err s => (s, true)
  | .ok target =>
    match strtok (req.arg 0) [','] with
    | [] => needMoreParams s cl req
    | names => (partLoop cl target (if req.argc > 1 then req.arg 1 else []) names s, true)

/-- May `from` set the topic of a `+t` channel, irc-channel.c:522-532. -/
def topicPower (s : Srv) (cl from_ : Nat) (chan : Nat) : Bool :=
  (if (s.cl cl).type ≠ .server then (s.cl from_).hasMode 'o' else true) ||
  userHasMode s chan from_ 'h' || userHasMode s chan from_ 'o' ||
  userHasMode s chan from_ 'a' || userHasMode s chan from_ 'q'

/-- Setting the topic, irc-channel.c:538-560. -/
def topicSet (s : Srv) (cl from_ : Nat) (chan : Chan) (name topic : Str) : Srv :=
  let from_ := if s.conf.operServerMode then s.this else from_
  let m : Msg := ⟨"TOPIC", [name, topic]⟩
  let s := if chan.isLocal then s else writeServers s (some cl) (s.cl from_) m
  let s := if topic ≠ chan.topic then writeChannelPrefix s cl chan.ref (s.cl from_) false m else s
  let s := channelSetTopic s chan.ref (some (s.cl from_)) topic
  if (s.cl cl).type = .user then writePrefix s (s.cl cl) (s.cl cl) m else s

/-- `IRC_TOPIC`, irc-channel.c:468-561. -/
def ircTOPIC (s : Srv) (cl : Nat) (req : Request) : HRes :=
  match getSender s cl req with
  | .err s => (s, true)
  | .ok from_ =>
    let f := s.cl from_
    match channelSearch s (req.arg 0) with
    | none => (writeErr s f ⟨"ERR_NOSUCHCHANNEL_MSG", [f.ID, req.arg 0]⟩, true)
    | some chan =>
      if (s.cl cl).type ≠ .server && !isMemberOf s chan.ref from_ &&
          !(s.conf.operCanMode && f.hasMode 'o') then
        (writeErr s f ⟨"ERR_NOTONCHANNEL_MSG", [f.ID, req.arg 0]⟩, true)
      else if req.argc = 1 then
        if chan.topic.isEmpty then (write s f ⟨"RPL_NOTOPIC_MSG", [f.ID, chan.name]⟩, true)
        else
          let s := write s f ⟨"RPL_TOPIC_MSG", [(s.cl cl).ID, chan.name, chan.topic]⟩
          (write s f ⟨"RPL_TOPICSETBY_MSG", [(s.cl cl).ID, chan.name, chan.topicWho,
            intStr chan.topicTime]⟩, true)
      else if chan.hasMode 't' && !topicPower s cl from_ chan.ref then
        (writeErr s f ⟨"ERR_CHANOPRIVSNEEDED_MSG", [f.ID, chan.name]⟩, true)
      else (topicSet s cl from_ chan (req.arg 0) (req.arg 1), true)

/-- Is the channel listed for the client, irc-channel.c:618-620. -/
def listVisible (s : Srv) (from_ : Client) (chan : Chan) : Bool :=
  !chan.hasMode 's' || isMemberOf s chan.ref from_.ref || from_.hasMode 'o'

/-- The loop of `IRC_LIST`, irc-channel.c:570-647: `count`
channels have been listed so far. -/
def listLoop (f : Client) : List Str → Nat → Srv → Srv
  | [], _, s => s
  | p :: ps, count, s =>
    let found := s.chans.filter (fun c => matchCaseInsensitive p c.name && listVisible s f c)
    let shown := if s.conf.maxListSize > 0 then found.take (s.conf.maxListSize.toNat - count)
      else found
    let s := shown.foldl (fun s c => write s f ⟨"RPL_LIST_MSG",
      [f.ID, c.name, intStr (memberCount s c.ref), c.topic]⟩) s
    let s := if shown.length < found.length then
        write s f ⟨"NOTICE", [f.ID, "LIST list limit reached!".toList]⟩ else s
    listLoop f ps (count + shown.length) s

/-- `IRC_LIST`, irc-channel.c:570-647. -/
def ircLIST (s : Srv) (cl : Nat) (req : Request) : HRes :=
  match getSender s cl req with
  | .err s => (s, true)
  | .ok from_ =>
    let f := s.cl from_
    let patterns := if req.argc > 0 then strtok (req.arg 0) [','] else [['*']]
    let run : Srv :=
      let s := write s f ⟨"RPL_LISTSTART_MSG", [f.ID]⟩
      let s := listLoop f patterns 0 s
      write s f ⟨"RPL_LISTEND_MSG", [f.ID]⟩
    if req.argc = 2 then
      match clientSearch s (req.arg 1) with
      | none => (writeErr s f ⟨"ERR_NOSUCHSERVER_MSG", [(s.cl cl).ID, req.arg 1]⟩, true)
      | some t =>
        if t.type ≠ .server then
          (writeErr s f ⟨"ERR_NOSUCHSERVER_MSG", [(s.cl cl).ID, req.arg 1]⟩, true)
        else if t.ref ≠ s.this then
          (writePrefix s t f ⟨"LIST", [req.arg 0, req.arg 1]⟩, true)
        else (run, true)
    else (run, true)

/-- The modes of `IRC_CHANINFO`, irc-channel.c:656-755. -/
def chaninfoModes (s : Srv) (cl from_ : Nat) (chan : Nat) (req : Request) : Srv :=
  if (req.arg 1).head? = some '+' && (s.chan chan).modes.isEmpty then
    let s := channelSetModes s chan (req.arg 1).tail
    let s :=
      if req.argc = 5 then
        let s := if (s.chan chan).hasMode 'k' then channelSetKey s chan (req.arg 2) else s
        if (s.chan chan).hasMode 'l' then channelSetMaxUsers s chan (atoi (req.arg 3)).toNat else s
      else (channelModeDel (channelModeDel s chan 'l').1 chan 'k').1
    let c := s.chan chan
    let add := (if c.hasMode 'l' then [intStr c.maxusers] else []) ++
      (if c.hasMode 'k' then [c.key] else [])
    writeChannelPrefix s cl chan (s.cl from_) false ⟨"MODE", req.arg 0 :: ('+' :: c.modes) :: add⟩
  else s

/-- The topic of `IRC_CHANINFO`, irc-channel.c:656-755. -/
def chaninfoTopic (s : Srv) (cl from_ : Nat) (chan : Nat) (req : Request) : Srv :=
  let topic := if req.argc = 5 then req.arg 4 else if req.argc = 3 then req.arg 2 else []
  if (s.chan chan).topic.isEmpty && !topic.isEmpty then
    let s := channelSetTopic s chan (some (s.cl cl)) topic
    writeChannelPrefix s cl chan (s.cl from_) false ⟨"TOPIC", [req.arg 0, (s.chan chan).topic]⟩
  else s

/-- The channel `IRC_CHANINFO`, irc-channel.c:656-755, works on: created if it does not exist. -/
def chaninfoChan (s : Srv) (name : Str) : Srv × Nat :=
  match channelSearch s name with
  | some c => (s, c.ref)
  | none => (channelCreate s name, s.nextRef)

/-- `IRC_CHANINFO`, irc-channel.c:656-755. -/
def ircCHANINFO (s : Srv) (cl : Nat) (req : Request) : HRes :=
  if req.argc < 2 || req.argc = 4 || req.argc > 5 then needMoreParams s cl req
  else match getSender s cl req with
    | .err s => (s, true)
    | .ok from_ =>
      let r := chaninfoChan s (req.arg 0)
      let s := chaninfoModes r.1 cl from_ r.2 req
      let s := chaninfoTopic s cl from_ r.2 req
      (writeServersFlag s (some cl) (s.cl from_) (some 'C') ⟨"CHANINFO", req.argv⟩, true)

/-! ## KICK and INVITE -/

/-- Split at every comma, irc-op.c:72-88. -/
def splitCommas : Str → List Str
  | [] => [[]]
  | c :: cs =>
    if c = ',' then [] :: splitCommas cs
    else match splitCommas cs with
      | [] => [[c]]
      | w :: ws => (c :: w) :: ws

/-- `try_kick`, irc-op.c:35-47. -/
def tryKick (s : Srv) (peer from_ : Nat) (nick channel reason : Str) : Srv :=
  match clientSearch s nick with
  | none => writeErr s (s.cl from_) ⟨"ERR_NOSUCHNICK_MSG", [(s.cl from_).ID, nick]⟩
  | some t => channelKick s (s.cl peer) t (s.cl from_) channel reason

/-- The loops of `IRC_KICK`, irc-op.c:58-125. -/
def kickLoop (peer from_ : Nat) (reason : Str) : List (Str × Str) → Srv → Srv
  | [], s => s
  | (ch, n) :: rest, s => kickLoop peer from_ reason rest (tryKick s peer from_ n ch reason)

/-- `IRC_KICK`, irc-op.c:58-125. -/
def ircKICK (s : Srv) (cl : Nat) (req : Request) : HRes :=
  match getSender s cl req with
  | .err s => (s, true)
  | .ok from_ =>
    let chans := splitCommas (req.arg 0)
    let nicks := splitCommas (req.arg 1)
    let reason := if req.argc = 3 then req.arg 2 else (s.cl from_).ID
    if chans.length = 1 then
      (kickLoop cl from_ reason (nicks.map (fun n => (chans.headD [], n))) s, true)
    else if chans.length = nicks.length then (kickLoop cl from_ reason (chans.zip nicks) s, true)
    else needMoreParams s cl req

/-- The end of `IRC_INVITE`, irc-op.c:134-236: tell target and inviter. -/
def inviteSend (s : Srv) (from_ target : Client) (nick channel : Str) : Srv :=
  let s := writePrefix s target from_ ⟨"INVITE", [nick, channel]⟩
  if target.conn.isSome then
    let s := write s from_ ⟨"RPL_INVITING_MSG", [from_.ID, nick, channel]⟩
    if target.hasMode 'a' then
      write s from_ ⟨"RPL_AWAY_MSG", [from_.ID, target.ID, target.away.getD []]⟩
    else s
  else s

/-- Why `IRC_INVITE` refuses an invitation to an existing channel, irc-op.c:164-194. -/
def inviteRefusal (s : Srv) (from_ target : Client) (chan : Chan) : Option String :=
  if !isMemberOf s chan.ref from_.ref then some "ERR_NOTONCHANNEL_MSG"
  else if chan.hasMode 'V' then some "ERR_NOINVITE_MSG"
  else if chan.hasMode 'i' && !userHasMode s chan.ref from_.ref 'q' &&
      !userHasMode s chan.ref from_.ref 'a' && !userHasMode s chan.ref from_.ref 'o' &&
      !userHasMode s chan.ref from_.ref 'h' then some "ERR_CHANOPRIVSNEEDED_MSG"
  else if isMemberOf s chan.ref target.ref then some "ERR_USERONCHANNEL_MSG"
  else none

/-- `IRC_INVITE`, irc-op.c:134-236. -/
def ircINVITE (s : Srv) (cl : Nat) (req : Request) : HRes :=
  match getSender s cl req with
  | .err s => (s, true)
  | .ok from_ =>
    let f := s.cl from_
    match clientSearch s (req.arg 0) with
    | none => (writeErr s f ⟨"ERR_NOSUCHNICK_MSG", [(s.cl cl).ID, req.arg 0]⟩, true)
    | some t =>
      if t.type ≠ .user then (writeErr s f ⟨"ERR_NOSUCHNICK_MSG", [(s.cl cl).ID, req.arg 0]⟩, true)
      else if (req.arg 1).head? = some '&' && t.conn.isNone then
        (writeErr s f ⟨"ERR_USERNOTONSERV_MSG", [(s.cl cl).ID, req.arg 0]⟩, true)
      else match channelSearch s (req.arg 1) with
        | none => (inviteSend s f t (req.arg 0) (req.arg 1), true)
        | some chan =>
          match inviteRefusal s f t chan with
          | some e => (writeErr s f ⟨e, [f.ID, req.arg 1]⟩, true)
          | none =>
            let b := listsCheck chan.bans (masksOf s t)
            let remember := chan.hasMode 'i' || b.2
            let s := s.updChan chan.ref (fun c =>
              { c with bans := (listsCheck c.bans (masksOf s t)).1,
                       invites := if remember then
                         (listsAdd true c.invites (maskCloaked s t) s.now (some f.ID) true).1
                         else c.invites })
            (inviteSend s f t (req.arg 0) (req.arg 1), true)

end Ngircd
