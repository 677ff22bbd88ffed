import Verif.Model.Cap

/-!
# Model of src/ngircd/irc-info.c and the TRACE, HELP commands of irc.c

These handlers only produce replies.  Simplifications: byte counters, idle times, version and
date texts, the help text and the splitting of long replies are not modelled.
-/

namespace Ngircd

/-- `_IRC_GET_TARGET_SERVER_OR_RETURN_`, irc-macros.h:110-122; errors go to `from_`. -/
def getTarget (s : Srv) (req : Request) (n : Nat) (from_ : Nat) : Got :=
  if req.argc > n then
    match (match clientSearch s (req.arg n) with
      | some c => some c
      | none => clientSearchServer s (req.arg n)) with
    | none => .err (writeErr s (s.cl from_) ⟨"ERR_NOSUCHSERVER_MSG", [(s.cl from_).ID, req.arg n]⟩)
    | some t => .ok (if t.type = .server then t.ref else t.introducer)
  else .ok s.this

/-- The common beginning of most handlers of this file: sender, target server, forwarding
of the command; `k` produces the answer of this server. -/
def answerHere (s : Srv) (cl : Nat) (req : Request) (n : Nat) (fwd : Client → Msg)
    (k : Nat → Srv) : HRes :=
  match getSender s cl req with
  | .err s => (s, true)
  | .ok from_ =>
    match getTarget s req n from_ with
    | .err s => (s, true)
    | .ok t =>
      if t ≠ s.this then (writePrefix s (s.cl t) (s.cl from_) (fwd (s.cl t)), true)
      else (k from_, true)

/-! ## WHO -/

/-- The flags of a WHO reply, irc-info.c:168-176. -/
def whoFlags (c : Client) : Str :=
  (if c.hasMode 'a' then ['G'] else ['H']) ++ (if c.hasMode 'o' then ['*'] else [])

/-- `write_whoreply`, irc-info.c:76-84. -/
def whoReply (s : Srv) (client c : Client) (channame flags : Str) : Msg :=
  ⟨"RPL_WHOREPLY_MSG", [client.ID, channame, c.User, displayedHost s c,
    (s.cl c.introducer).ID, c.ID, flags, intStr c.hops, c.info]⟩

/-- The members `IRC_WHO_Channel` shows, irc-info.c:158-186. -/
def whoMembers (s : Srv) (client : Client) (chan : Chan) (onlyOps : Bool) : List Nat :=
  (membersOf s chan.ref).filter (fun r =>
    (!onlyOps || (s.cl r).hasMode 'o') &&
    (isMemberOf s chan.ref client.ref || !(s.cl r).hasMode 'i' || client.hasMode 'o'))

/-- `IRC_WHO_Channel`, irc-info.c:138-194. -/
def whoChannel (s : Srv) (client : Client) (chan : Chan) (onlyOps : Bool) : Srv :=
  let s' :=
    if !isMemberOf s chan.ref client.ref && !client.hasMode 'o' && chan.hasMode 's' then s
    else (whoMembers s client chan onlyOps).foldl (fun s r =>
      write s client (whoReply s client (s.cl r) chan.name
        (whoFlags (s.cl r) ++ flagsQualifier client (userModes s chan.ref r)))) s
  write s' client ⟨"RPL_ENDOFWHO_MSG", [client.ID, chan.name]⟩

/-- `MAX_RPL_WHO`, defines.h:219. -/
def MAX_RPL_WHO : Nat := 25

/-- Does the mask of a WHO command match the client, irc-info.c:227-242. -/
def whoMatch (s : Srv) (mask : Option Str) (c : Client) : Bool :=
  match mask with
  | none => true
  | some m => matchCaseInsensitive m c.host || matchCaseInsensitive m (s.cl c.introducer).ID ||
      matchCaseInsensitive m c.info || matchCaseInsensitive m c.ID

/-- Is the client visible, irc-info.c:244-262. -/
def whoVisible (s : Srv) (client : Client) (mask : Option Str) (c : Client) : Bool :=
  !c.hasMode 'i' || (match mask with | some m => caseEq c.ID m | none => false) ||
  (channelsOf s client.ref).any (fun ch => isMemberOf s ch c.ref)

/-- `IRC_WHO_Mask`, irc-info.c:204-284. -/
def whoMask (s : Srv) (client : Client) (mask : Option Str) (onlyOps : Bool) : Srv :=
  let mask := mask.map lowerStr
  let found := s.clients.filter (fun c => c.type = .user && (!onlyOps || c.hasMode 'o') &&
    whoMatch s mask c && whoVisible s client mask c)
  let s := (found.take MAX_RPL_WHO).foldl (fun s c =>
    write s client (whoReply s client c "*".toList (whoFlags c))) s
  let s := if found.length > MAX_RPL_WHO then
      write s client ⟨"NOTICE", [client.ID, "WHO list limit reached!".toList]⟩ else s
  write s client ⟨"RPL_ENDOFWHO_MSG", [client.ID, mask.getD "*".toList]⟩

/-- `IRC_WHO`, irc-info.c:1137-1176. -/
def ircWHO (s : Srv) (cl : Nat) (req : Request) : HRes :=
  let onlyOps := req.argc = 2 && req.arg 1 = "o".toList
  if req.argc ≥ 1 then
    match channelSearch s (req.arg 0) with
    | some ch => (whoChannel s (s.cl cl) ch onlyOps, true)
    | none => (whoMask s (s.cl cl) (if req.arg 0 ≠ "0".toList then some (req.arg 0) else none)
        onlyOps, true)
  else (whoMask s (s.cl cl) none onlyOps, true)

/-! ## WHOIS -/

/-- The channels a WHOIS shows, irc-info.c:321-345. -/
def whoisChannels (s : Srv) (client c : Client) : List Chan :=
  ((channelsOf s c.ref).map s.chan).filter (fun ch =>
    !(ch.hasMode 's' && !isMemberOf s ch.ref client.ref) &&
    !(client.type = .server && ch.isLocal))

/-- `IRC_WHOIS_SendReply`, irc-info.c:294-438. -/
def whoisReply (s : Srv) (client from_ c : Client) : Srv :=
  let to (b : Bool) (m : Msg) (s : Srv) : Srv := if b then write s from_ m else s
  let s := write s from_ ⟨"RPL_WHOISUSER_MSG", [from_.ID, c.ID, c.User, displayedHost s c, c.info]⟩
  let s := write s from_ ⟨"RPL_WHOISSERVER_MSG",
    [from_.ID, c.ID, (s.cl c.introducer).ID, (s.cl c.introducer).info]⟩
  let s := if !c.hasMode 'I' || from_.hasMode 'o' then
      let chs := (whoisChannels s client c).map (fun ch =>
        flagsQualifier client (userModes s ch.ref c.ref) ++ ch.name)
      if chs.isEmpty then s else write s client ⟨"RPL_WHOISCHANNELS_MSG", from_.ID :: c.ID :: chs⟩
    else s
  let s := to (c.type = .service) ⟨"RPL_WHOISSERVICE_MSG", [from_.ID, c.ID]⟩ s
  let s := to (c.type ≠ .service && c.hasMode 'o') ⟨"RPL_WHOISOPERATOR_MSG", [from_.ID, c.ID]⟩ s
  let s := to (c.hasMode 'B') ⟨"RPL_WHOISBOT_MSG", [from_.ID, c.ID]⟩ s
  let s := to (usesSSL s c) ⟨"RPL_WHOISSSL_MSG", [from_.ID, c.ID]⟩ s
  let s := to (c.hasMode 'R') ⟨"RPL_WHOISREGNICK_MSG", [from_.ID, c.ID]⟩ s
  let s := to c.account.isSome ⟨"RPL_WHOISLOGGEDIN_MSG", [from_.ID, c.ID, c.account.getD []]⟩ s
  let own := c.conn.isSome && (from_.ref == c.ref || from_.hasMode 'o')
  let s := to own ⟨"RPL_WHOISHOST_MSG", [from_.ID, c.ID, c.host]⟩ s
  let s := to own ⟨"RPL_WHOISMODES_MSG", [from_.ID, c.ID, c.modes]⟩ s
  let s := to (!s.conf.morePrivacy && c.conn.isSome) ⟨"RPL_WHOISIDLE_MSG", [from_.ID, c.ID]⟩ s
  to (c.hasMode 'a') ⟨"RPL_AWAY_MSG", [from_.ID, c.ID, c.away.getD []]⟩ s

/-- `MAX_RPL_WHOIS`, defines.h:222. -/
def MAX_RPL_WHOIS : Nat := 10

/-- The loop over the clients for a wildcard query, irc-info.c:1261-1277: `n` matches so
far. -/
def whoisWild (client from_ : Client) (query : Str) : List Client → Nat → Srv → Srv × Nat
  | [], n, s => (s, n)
  | c :: cs, n, s =>
    if n ≥ MAX_RPL_WHOIS then
      (write s client ⟨"NOTICE", [client.ID, "WHOIS list limit reached!".toList]⟩, n)
    else if c.type = .user && !c.hasMode 'i' && matchCaseInsensitive query c.ID then
      whoisWild client from_ query cs (n + 1) (whoisReply s client from_ c)
    else whoisWild client from_ query cs n s

/-- The loop over the queries, `IRC_WHOIS`, irc-info.c:1185-1285. -/
def whoisLoop (client from_ : Client) (arg : Str) : List Str → Bool → Srv → Srv
  | [], _, s => s
  | q :: qs, got, s =>
    if !q.any (fun c => c == '*' || c == '?') || from_.conn.isNone then
      let s := match clientSearch s q with
        | some c =>
          if c.type = .user || c.type = .service then whoisReply s client from_ c
          else writeErr s client ⟨"ERR_NOSUCHNICK_MSG", [client.ID, q]⟩
        | none => writeErr s client ⟨"ERR_NOSUCHNICK_MSG", [client.ID, q]⟩
      whoisLoop client from_ arg qs got s
    else if got then
      whoisLoop client from_ arg qs got (writeErr s client ⟨"ERR_NOSUCHNICK_MSG", [client.ID, q]⟩)
    else
      let r := whoisWild client from_ q s.clients 0 s
      let s := if r.2 = 0 then writeErr r.1 client ⟨"ERR_NOSUCHNICK_MSG", [client.ID, arg]⟩ else r.1
      whoisLoop client from_ arg qs true s

/-- `IRC_WHOIS`, irc-info.c:1185-1285. -/
def ircWHOIS (s : Srv) (cl : Nat) (req : Request) : HRes :=
  if req.argc < 1 then (writeErr s (s.cl cl) ⟨"ERR_NONICKNAMEGIVEN_MSG", [(s.cl cl).ID]⟩, true)
  else if req.argc > 2 then needMoreParams s cl req
  else match getSender s cl req with
    | .err s => (s, true)
    | .ok from_ =>
      match (if req.argc > 1 then getTarget s req 0 cl else .ok s.this) with
      | .err s => (s, true)
      | .ok t =>
        if t ≠ s.this then
          (writePrefix s (s.cl t) (s.cl from_) ⟨"WHOIS", [req.arg 0, req.arg 1]⟩, true)
        else
          let arg := req.arg (req.argc - 1)
          let qs := (strtok (lowerStr (strlcpy COMMAND_LEN arg)) [',']).take 3
          let s := whoisLoop (s.cl cl) (s.cl from_) arg qs false s
          (write s (s.cl from_) ⟨"RPL_ENDOFWHOIS_MSG", [(s.cl from_).ID, arg]⟩, true)

/-! ## WHOWAS -/

/-- `WHOWAS_EntryWrite`, irc-info.c:440-454. -/
def whowasWrite (s : Srv) (p : Client) (e : Whowas) : Srv :=
  let s := write s p ⟨"RPL_WHOWASUSER_MSG", [p.ID, e.id, e.user, e.host, e.info]⟩
  write s p ⟨"RPL_WHOISSERVER_MSG", [p.ID, e.id, e.server, intStr e.time]⟩

/-- The entry before `i` in the ring, irc-info.c:1356-1361. -/
def whowasPrev (i : Nat) : Nat := if i = 0 then 63 else i - 1

/-- The inner loop of `IRC_WHOWAS`, irc-info.c:1294-1373: state, position, entries found for this
nick and altogether. -/
def whowasScan (p : Client) (nick : Str) (last : Nat) (max : Int) :
    Nat → Nat → Nat → Nat → Srv → Srv × Nat × Nat × Nat
  | 0, i, nc, count, s => (s, i, nc, count)
  | n + 1, i, nc, count, s =>
    let e := s.whowas.getD i {}
    let hit := decide (e.time > 0) && caseEq nick e.id
    let s := if hit then whowasWrite s p e else s
    let nc := if hit then nc + 1 else nc
    let count := if hit then count + 1 else count
    let i := whowasPrev i
    if nc ≠ 0 ∧ (count : Int) ≥ max then (s, i, nc, count)
    else if i = last then (s, i, nc, count)
    else whowasScan p nick last max n i nc count s

/-- The loop over the nicks of `IRC_WHOWAS`, irc-info.c:1294-1373.  The position in the ring is not
reset between the nicks. -/
def whowasLoop (p : Client) (last : Nat) (max : Int) : List Str → Nat → Nat → Srv → Srv
  | [], _, _, s => s
  | n :: ns, i, count, s =>
    let r := whowasScan p n last max 64 i 0 count s
    let s := if r.2.2.1 = 0 then writeErr r.1 p ⟨"ERR_WASNOSUCHNICK_MSG", [p.ID, n]⟩ else r.1
    whowasLoop p last max ns r.2.1 r.2.2.2 s

/-- The number of entries wanted, irc-info.c:1332-1337. -/
def whowasMax (req : Request) : Int :=
  if req.argc > 1 then (if atoi (req.arg 1) < 1 then 25 else atoi (req.arg 1)) else 5

/-- `IRC_WHOWAS`, irc-info.c:1294-1373. -/
def ircWHOWAS (s : Srv) (cl : Nat) (req : Request) : HRes :=
  if req.argc < 1 then (writeErr s (s.cl cl) ⟨"ERR_NONICKNAMEGIVEN_MSG", [(s.cl cl).ID]⟩, true)
  else if req.argc > 3 then needMoreParams s cl req
  else match getSender s cl req with
    | .err s => (s, true)
    | .ok from_ =>
      match getTarget s req 2 from_ with
      | .err s => (s, true)
      | .ok t =>
        if s.conf.morePrivacy then (s, true)
        else if t ≠ s.this then
          (writePrefix s (s.cl t) (s.cl from_)
            ⟨"WHOWAS", [req.arg 0, req.arg 1, (s.cl t).ID]⟩, true)
        else
          let last := s.lastWhowas.toNat
          let s := whowasLoop (s.cl from_) last (whowasMax req)
            (strtok (strlcpy COMMAND_LEN (req.arg 0)) [',']) last 0 s
          (write s (s.cl from_) ⟨"RPL_ENDOFWHOWAS_MSG", [(s.cl from_).ID, req.arg 0]⟩, true)

/-! ## NAMES, LINKS, LUSERS, MOTD, SERVLIST -/

/-- `IRC_NAMES` on this server, irc-info.c:797-845. -/
def namesHere (s : Srv) (from_ : Nat) (req : Request) : Srv :=
  let f := s.cl from_
  if req.argc > 0 then
    (strtok (req.arg 0) [',']).foldl (fun s n =>
      let s := match channelSearch s n with
        | some ch => sendNAMES s f ch
        | none => s
      write s f ⟨"RPL_ENDOFNAMES_MSG", [f.ID, n]⟩) s
  else
    let s := s.chans.foldl (fun s ch => sendNAMES s f ch) s
    let rest := s.clients.filter (fun c => c.type = .user && (channelsOf s c.ref).isEmpty &&
      !c.hasMode 'i')
    let s := if rest.isEmpty then s else
      write s f ⟨"RPL_NAMREPLY_MSG", f.ID :: ['*'] :: ['*'] :: rest.map Client.ID⟩
    write s f ⟨"RPL_ENDOFNAMES_MSG", [f.ID, ['*']]⟩

/-- `IRC_NAMES`, irc-info.c:777-846. -/
def ircNAMES (s : Srv) (cl : Nat) (req : Request) : HRes :=
  answerHere s cl req 1 (fun t => ⟨"NAMES", [req.arg 0, t.ID]⟩) (fun from_ => namesHere s from_ req)

/-- The server shown as uplink, irc-info.c:664-669; `none` if it does not exist any more. -/
def linksTop (s : Srv) (c : Client) : Option Client :=
  match c.topserver with
  | some r => s.cl? r
  | none => some (s.cl s.this)

/-- The servers of `IRC_LINKS`, irc-info.c:632-676. -/
def linksHere (s : Srv) (from_ : Nat) (mask : Str) : Srv :=
  let f := s.cl from_
  let found := s.clients.filter (fun c => c.type = .server && matchCaseInsensitive mask c.ID)
  let s := found.foldl (fun s c =>
    match linksTop s c with
    | some t => write s f ⟨"RPL_LINKS_MSG", [f.ID, c.ID, t.ID, intStr c.hops, c.info]⟩
    | none => s.crash) s
  write s f ⟨"RPL_ENDOFLINKS_MSG", [f.ID, mask]⟩

/-- `IRC_LINKS`, irc-info.c:632-676. -/
def ircLINKS (s : Srv) (cl : Nat) (req : Request) : HRes :=
  let mask := if req.argc > 0 then req.arg (req.argc - 1) else ['*']
  if req.argc = 2 then
    answerHere s cl req 0 (fun t => ⟨"LINKS", [t.ID, req.arg 1]⟩) (fun from_ => linksHere s from_ mask)
  else match getSender s cl req with
    | .err s => (s, true)
    | .ok from_ => (linksHere s from_ mask, true)

/-- `IRC_LUSERS`, irc-info.c:685-705. -/
def ircLUSERS (s : Srv) (cl : Nat) (req : Request) : HRes :=
  answerHere s cl req 1 (fun t => ⟨"LUSERS", [req.arg 0, t.ID]⟩)
    (fun from_ => sendLUSERS s (s.cl from_))

/-- `IRC_MOTD`, irc-info.c:749-768. -/
def ircMOTD (s : Srv) (cl : Nat) (req : Request) : HRes :=
  answerHere s cl req 0 (fun t => ⟨"MOTD", [t.ID]⟩) (fun from_ => showMOTD s (s.cl from_))

/-- `IRC_SERVLIST`, irc-info.c:714-740. -/
def ircSERVLIST (s : Srv) (cl : Nat) (req : Request) : HRes :=
  let c := s.cl cl
  let found := if req.argc < 2 || req.arg 1 = "0".toList then
      s.clients.filter (fun x => x.type = .service &&
        !(req.argc > 0 && !matchCaseInsensitive (req.arg 0) x.ID))
    else []
  let s := found.foldl (fun s x => write s c ⟨"RPL_SERVLIST_MSG",
    [c.ID, x.mask, (s.cl x.introducer).mask, intStr x.hops, x.info]⟩) s
  (write s c ⟨"RPL_SERVLISTEND_MSG", [c.ID, if req.argc > 0 then req.arg 0 else ['*'],
    if req.argc > 1 then req.arg 1 else ['0']]⟩, true)

/-! ## ISON and USERHOST -/

/-- Send a reply whose text has been pasted into the format string, irc-info.c:622 and 1070:
a per cent sign in it is interpreted by `vsnprintf`, undefined behaviour. -/
def writeAsFormat (s : Srv) (c : Client) (cmd : String) (text : Str) : Srv :=
  if hasChar text '%' then s.crash else write s c ⟨cmd, [c.ID, text]⟩

/-- `IRC_ISON`, irc-info.c:594-623. -/
def ircISON (s : Srv) (cl : Nat) (req : Request) : HRes :=
  let nicks := req.argv.flatMap (fun a => (strtok a [' ']).map trimStr)
  let ids := nicks.filterMap (fun n => (clientSearch s n).bind (fun c =>
    if c.type = .user then some (c.ID ++ [' ']) else none))
  (writeAsFormat s (s.cl cl) "RPL_ISON_MSG" (trimLastChr (strlcpy 505 ids.flatten) ' '), true)

/-- One entry of `IRC_USERHOST`, irc-info.c:1034-1071. -/
def userhostEntry (s : Srv) (c : Client) : Str :=
  c.ID ++ (if c.hasMode 'o' then ['*'] else []) ++ ['='] ++
  (if c.hasMode 'a' then ['-'] else ['+']) ++ c.User ++ ['@'] ++ displayedHost s c ++ [' ']

/-- `IRC_USERHOST`, irc-info.c:1034-1071. -/
def ircUSERHOST (s : Srv) (cl : Nat) (req : Request) : HRes :=
  let ents := (req.argv.take 5).filterMap (fun n => (clientSearch s n).bind (fun c =>
    if c.type = .user then some (userhostEntry s c) else none))
  (writeAsFormat s (s.cl cl) "RPL_USERHOST_MSG" (trimLastChr (strlcpy 505 ents.flatten) ' '), true)

/-! ## Plain answers -/

/-- `IRC_ADMIN`, irc-info.c:498-530. -/
def ircADMIN (s : Srv) (cl : Nat) (req : Request) : HRes :=
  answerHere s cl req 0 (fun t => ⟨"ADMIN", [t.ID]⟩) (fun from_ =>
    ["RPL_ADMINME_MSG", "RPL_ADMINLOC1_MSG", "RPL_ADMINLOC2_MSG", "RPL_ADMINEMAIL_MSG"].foldl
      (fun s m => write s (s.cl cl) ⟨m, [(s.cl from_).ID]⟩) s)

/-- `IRC_INFO`, irc-info.c:539-585. -/
def ircINFO (s : Srv) (cl : Nat) (req : Request) : HRes :=
  answerHere s cl req 0 (fun t => ⟨"INFO", [t.ID]⟩) (fun from_ =>
    ["RPL_INFO_MSG", "RPL_INFO_MSG", "RPL_INFO_MSG", "RPL_ENDOFINFO_MSG"].foldl
      (fun s m => write s (s.cl cl) ⟨m, [(s.cl from_).ID]⟩) s)

/-- `IRC_TIME`, irc-info.c:1001-1025. -/
def ircTIME (s : Srv) (cl : Nat) (req : Request) : HRes :=
  answerHere s cl req 0 (fun t => ⟨"TIME", [t.ID]⟩) (fun from_ =>
    write s (s.cl from_) ⟨"RPL_TIME_MSG", [(s.cl from_).ID, (s.cl s.this).ID]⟩)

/-- `IRC_VERSION`, irc-info.c:1096-1128. -/
def ircVERSION (s : Srv) (cl : Nat) (req : Request) : HRes :=
  answerHere s cl req 0 (fun t => ⟨"VERSION", [t.ID]⟩) (fun from_ =>
    sendISUPPORT (write s (s.cl cl) ⟨"RPL_VERSION_MSG", [(s.cl from_).ID, s.conf.serverName]⟩)
      (s.cl from_))

/-- `IRC_SUMMON`, irc-info.c:985-992. -/
def ircSUMMON (s : Srv) (cl : Nat) (_ : Request) : HRes :=
  (writeErr s (s.cl cl) ⟨"ERR_SUMMONDISABLED_MSG", [(s.cl cl).ID]⟩, true)

/-- `IRC_USERS`, irc-info.c:1080-1087. -/
def ircUSERS (s : Srv) (cl : Nat) (_ : Request) : HRes :=
  (writeErr s (s.cl cl) ⟨"ERR_USERSDISABLED_MSG", [(s.cl cl).ID]⟩, true)

/-- The clients whose connections STATS l/L lists, irc-info.c:916-923. -/
def statsLinks (s : Srv) (cl : Nat) (more : Bool) : List Client :=
  (s.conns.map (fun k => s.cl k.client)).filter (fun c =>
    c.type = .server || c.ref == cl || (more && c.type = .user))

/-- `IRC_STATS` on this server, irc-info.c:881-976.  Counters and times are not modelled. -/
def statsHere (s : Srv) (cl from_ : Nat) (req : Request) : Srv :=
  let f := s.cl from_
  let q := (req.arg 0).headD '*'
  let fin (s : Srv) : Srv := write s f ⟨"RPL_ENDOFSTATS_MSG", [f.ID, [q]]⟩
  if q = 'g' ∨ q = 'G' ∨ q = 'k' ∨ q = 'K' then
    if !f.hasMode 'o' then writeErr s f ⟨"ERR_NOPRIVILEGES_MSG", [f.ID]⟩
    else
      let l := if q = 'g' ∨ q = 'G' then s.glines else s.klines
      fin (l.foldl (fun s e => write s f ⟨"RPL_STATSXLINE_MSG",
        [f.ID, [q], e.mask, intStr e.validUntil, e.reason.getD []]⟩) s)
  else if q = 'L' ∧ (opCheck s from_ req).isNone then (opNoPrivileges s from_ req).1
  else if q = 'l' ∨ q = 'L' then
    fin ((statsLinks s cl (q == 'L')).foldl (fun s c =>
      write s f ⟨"RPL_STATSLINKINFO_MSG", [f.ID, c.mask]⟩) s)
  else if q = 'm' ∨ q = 'M' then fin s
  else if q = 'u' ∨ q = 'U' then fin (write s f ⟨"RPL_STATSUPTIME", [f.ID]⟩)
  else fin s

/-- `IRC_STATS`, irc-info.c:855-976. -/
def ircSTATS (s : Srv) (cl : Nat) (req : Request) : HRes :=
  answerHere s cl req 1 (fun t => ⟨"STATS", [req.arg 0, t.ID]⟩) (fun from_ => statsHere s cl from_ req)

/-- The lines of `IRC_TRACE`, irc.c:228-295, about one client. -/
def traceLine (s : Srv) (f c : Client) : Srv :=
  if c.conn.isSome && c.type = .server then
    write s f ⟨"RPL_TRACESERVER_MSG", [f.ID, c.ID, c.host]⟩
  else if c.conn.isSome && c.type = .user && c.hasMode 'o' then
    write s f ⟨"RPL_TRACEOPERATOR_MSG", [f.ID, c.ID]⟩
  else s

/-- `IRC_TRACE`, irc.c:228-295. -/
def ircTRACE (s : Srv) (cl : Nat) (req : Request) : HRes :=
  match getSender s cl req with
  | .err s => (s, true)
  | .ok from_ =>
    match getTarget s req 0 from_ with
    | .err s => (s, true)
    | .ok t =>
      if t ≠ s.this then
        if (s.cl cl).conn.isNone || (nextHop s (s.cl t)).conn.isNone then (s.crash, true)
        else
          let s := write s (s.cl from_) ⟨"RPL_TRACELINK_MSG",
            [(s.cl from_).ID, (s.cl t).ID, (nextHop s (s.cl t)).ID]⟩
          (writePrefix s (s.cl t) (s.cl from_) ⟨"TRACE", [req.arg 0]⟩, true)
      else
        let s := s.clients.foldl (fun s c => traceLine s (s.cl from_) c) s
        (write s (s.cl from_) ⟨"RPL_TRACEEND_MSG", [(s.cl from_).ID, s.conf.serverName]⟩, true)

/-- `IRC_HELP`, irc.c:304-331, without a help text: the topic, or the command list as one line. -/
def ircHELP (s : Srv) (cl : Nat) (req : Request) : HRes :=
  let c := s.cl cl
  if req.argc ≥ 1 && !caseEq (req.arg 0) "Commands".toList then
    (write s c ⟨"NOTICE", [c.ID, "No help for".toList, req.arg 0]⟩, true)
  else (write s c ⟨"NOTICE", [c.ID, "commands".toList]⟩, true)

end Ngircd
