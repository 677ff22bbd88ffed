import Verif.Spec.Burst
import Verif.Spec.Modes
import Verif.Props.Join

/-!
# Vocabulary: answers to queries
-/

namespace Ngircd.Spec

/-- All that has happened between `s` and `t` is that the client at connection `i` got the lines `ms` from this server, in that order. -/
def Answers (s : Srv) (i : Nat) (t : Srv) (ms : List Msg) : Prop :=
  Emitted s t (ms.map (fun m => (⟨i, some (shownAs s (s.cl s.this) i), m⟩ : Sent))).reverse

/-- The channel of that name. -/
def channelNamed (s : Srv) (n : Str) : Option Chan := s.chans.find? (fun c => decide (SameCase c.name n))

/-- The client of that name. -/
def clientNamed (s : Srv) (n : Str) : Option Client := s.clients.find? (fun c => decide (c.id ≠ []) && decide (SameCase c.id (nickPart n)))

/-- The rank signs shown to the client `c`: all of them if it has asked for that, else the highest. -/
def signs (c : Client) (ranks : Str) : Str := if c.caps.multiPrefix then rankSigns true ranks else (rankSigns true ranks).take 1

/-- The members of the channel the client may see: all if it is a member itself, else those that are not invisible. -/
def seenMembers (s : Srv) (c : Client) (ch : Chan) : List Cl2Chan :=
  (channelMembers s ch).filter (fun m => decide (OnChannel s ch.ref c.ref) || decide ('i' ∉ (s.cl m.client).modes))

/-- What NAMES tells the client about a channel. -/
def namesOf (s : Srv) (c : Client) (ch : Chan) : List Msg :=
  if ¬ OnChannel s ch.ref c.ref ∧ (s.conf.morePrivacy = true ∨ 's' ∈ ch.modes) then []
  else if seenMembers s c ch = [] then []
  else [⟨"RPL_NAMREPLY_MSG", c.ID :: [if 's' ∈ ch.modes then '@' else '='] :: ch.name ::
    (seenMembers s c ch).map (fun m => signs c m.modes ++ (s.cl m.client).ID)⟩]

/-- What NAMES tells the client about users on no channel. -/
def homeless (s : Srv) (c : Client) : List Msg :=
  match s.clients.filter (fun u => decide (u.type = .user) && (s.cl2.all (fun m => decide (m.client ≠ u.ref)) && decide ('i' ∉ u.modes))) with
  | [] => []
  | us => [⟨"RPL_NAMREPLY_MSG", c.ID :: ['*'] :: ['*'] :: us.map Client.ID⟩]

/-- The channels whose name matches the mask and that the client may know of. -/
def listed (s : Srv) (c : Client) (mask : Str) : List Chan :=
  s.chans.filter (fun ch => matchCaseInsensitive mask ch.name && (decide ('s' ∉ ch.modes) || (decide (OnChannel s ch.ref c.ref) || decide ('o' ∈ c.modes))))

/-- What LIST tells about a channel. -/
def listLine (s : Srv) (c : Client) (ch : Chan) : Msg :=
  ⟨"RPL_LIST_MSG", [c.ID, ch.name, intStr (channelMembers s ch).length, ch.topic]⟩

/-- The texts, one blank between them. -/
def spaced : List Str → Str
  | [] => []
  | [a] => a
  | a :: b :: as => a ++ ' ' :: spaced (b :: as)

/-- The users that are meant by the names, in that order. -/
def usersNamed (s : Srv) (names : List Str) : List Client :=
  names.filterMap (fun n => (clientNamed s n).bind (fun c => if c.type = .user then some c else none))

/-- What USERHOST tells about a user: whether it is an IRC operator, whether it is away, its user name and its public host name. -/
def aboutUser (s : Srv) (c : Client) : Str :=
  c.ID ++ (if 'o' ∈ c.modes then ['*'] else []) ++ ['='] ++ (if 'a' ∈ c.modes then ['-'] else ['+']) ++ c.User ++ ['@'] ++ publicHost s c

/-- The text is the wanted one, or as much of it as fits into a line. -/
def Fits (text wanted : Str) : Prop := text <+: wanted ∧ (wanted.length < 504 → text = wanted)

/-! ### WHO -/

/-- A line of the answer to WHO about the user `u`. -/
def whoLine (s : Srv) (c u : Client) (chan flags : Str) : Msg :=
  ⟨"RPL_WHOREPLY_MSG", [c.ID, chan, u.User, publicHost s u, (s.cl u.introducer).ID, u.ID, flags, intStr u.hops, u.info]⟩

/-- Whether the user is away ("gone") or here, and whether it is an IRC operator. -/
def presence (u : Client) : Str := (if 'a' ∈ u.modes then ['G'] else ['H']) ++ (if 'o' ∈ u.modes then ['*'] else [])

/-- What WHO tells about a channel: nothing about a secret channel the client is not on, unless it is an IRC operator; otherwise all members that are visible to the client;
`ops`: IRC operators only. -/
def whoOnChannel (s : Srv) (c : Client) (ch : Chan) (ops : Bool) : List Msg :=
  if ¬ OnChannel s ch.ref c.ref ∧ 'o' ∉ c.modes ∧ 's' ∈ ch.modes then []
  else ((channelMembers s ch).filter (fun m => (!ops || decide ('o' ∈ (s.cl m.client).modes)) &&
      (decide (OnChannel s ch.ref c.ref) || (decide ('i' ∉ (s.cl m.client).modes) || decide ('o' ∈ c.modes))))).map
    (fun m => whoLine s c (s.cl m.client) ch.name (presence (s.cl m.client) ++ signs c m.modes))

/-- Two clients are on a common channel. -/
def shares (s : Srv) (a b : Client) : Bool := s.cl2.any (fun m => decide (m.client = a.ref) && decide (OnChannel s m.chan b.ref))

/-- The users WHO with a mask (or without) is about: those of which the (real) host name, the server, the real name or the nick name matches, and that are visible to the client. -/
def whoUsers (s : Srv) (c : Client) (mask : Option Str) (ops : Bool) : List Client :=
  s.clients.filter (fun u => decide (u.type = .user) && (!ops || decide ('o' ∈ u.modes)) &&
    mask.all (fun m => [u.host, (s.cl u.introducer).ID, u.info, u.ID].any (matchCaseInsensitive m)) &&
    (decide ('i' ∉ u.modes) || mask.any (fun m => decide (SameCase u.ID m)) || shares s c u))

/-- The answer to WHO with a mask (or without): at most 25 users. -/
def whoAnswer (s : Srv) (c : Client) (mask : Option Str) (ops : Bool) : List Msg :=
  ((whoUsers s c mask ops).take 25).map (fun u => whoLine s c u ['*'] (presence u)) ++
  (if 25 < (whoUsers s c mask ops).length then [⟨"NOTICE", [c.ID, "WHO list limit reached!".toList]⟩] else []) ++
  [⟨"RPL_ENDOFWHO_MSG", [c.ID, (mask.map lowerStr).getD ['*']]⟩]

/-! ### WHOIS -/

/-- A line, if there is reason for it. -/
def lineIf (b : Bool) (m : Msg) : List Msg := if b then [m] else []

/-- The memberships of the user that the client may know of: channels that are not secret, and those it is on itself. -/
def seenChannels (s : Srv) (c u : Client) : List Cl2Chan :=
  s.cl2.filter (fun m => decide (m.client = u.ref) && (decide ('s' ∉ (s.chan m.chan).modes) || decide (OnChannel s m.chan c.ref)))

/-- What WHOIS tells the local user `c` about `u`. -/
def whoisAbout (s : Srv) (c u : Client) : List Msg :=
  [⟨"RPL_WHOISUSER_MSG", [c.ID, u.ID, u.User, publicHost s u, u.info]⟩,
   ⟨"RPL_WHOISSERVER_MSG", [c.ID, u.ID, (s.cl u.introducer).ID, (s.cl u.introducer).info]⟩] ++
  lineIf ((decide ('I' ∉ u.modes) || decide ('o' ∈ c.modes)) && decide (seenChannels s c u ≠ []))
    ⟨"RPL_WHOISCHANNELS_MSG", c.ID :: u.ID :: (seenChannels s c u).map (fun m => signs c m.modes ++ (s.chan m.chan).name)⟩ ++
  lineIf (u.type = .service) ⟨"RPL_WHOISSERVICE_MSG", [c.ID, u.ID]⟩ ++
  lineIf (decide (u.type ≠ .service) && decide ('o' ∈ u.modes)) ⟨"RPL_WHOISOPERATOR_MSG", [c.ID, u.ID]⟩ ++
  lineIf ('B' ∈ u.modes) ⟨"RPL_WHOISBOT_MSG", [c.ID, u.ID]⟩ ++
  lineIf (s.conns.any (fun k => decide (u.conn = some k.idx) && k.ssl)) ⟨"RPL_WHOISSSL_MSG", [c.ID, u.ID]⟩ ++
  lineIf ('R' ∈ u.modes) ⟨"RPL_WHOISREGNICK_MSG", [c.ID, u.ID]⟩ ++
  u.account.toList.map (fun a => ⟨"RPL_WHOISLOGGEDIN_MSG", [c.ID, u.ID, a]⟩) ++
  (if u.conn.isSome = true ∧ (c.ref = u.ref ∨ 'o' ∈ c.modes) then
    [⟨"RPL_WHOISHOST_MSG", [c.ID, u.ID, u.host]⟩, ⟨"RPL_WHOISMODES_MSG", [c.ID, u.ID, u.modes]⟩] else []) ++
  lineIf (!s.conf.morePrivacy && u.conn.isSome) ⟨"RPL_WHOISIDLE_MSG", [c.ID, u.ID]⟩ ++
  lineIf ('a' ∈ u.modes) ⟨"RPL_AWAY_MSG", [c.ID, u.ID, u.away.getD []]⟩

/-- There is no such nick. -/
def noSuchNick (c : Client) (n : Str) : Msg := ⟨"ERR_NOSUCHNICK_MSG", [c.ID, n]⟩

/-- The answer about a name. -/
def whoisOne (s : Srv) (c : Client) (q : Str) : List Msg :=
  match clientNamed s q with
  | some u => if u.type = .user ∨ u.type = .service then whoisAbout s c u else [noSuchNick c q]
  | none => [noSuchNick c q]

/-- The visible users whose nick matches the mask. -/
def matching (cs : List Client) (q : Str) : List Client :=
  cs.filter (fun u => decide (u.type = .user) && (decide ('i' ∉ u.modes) && matchCaseInsensitive q u.ID))

/-- The answer about a mask: at most ten users; `arg`: the whole argument of the command. -/
def whoisMask (s : Srv) (c : Client) (arg q : Str) : List Msg :=
  ((matching s.clients q).take 10).flatMap (whoisAbout s c) ++
  (if 10 ≤ (matching s.clients.dropLast q).length then [⟨"NOTICE", [c.ID, "WHOIS list limit reached!".toList]⟩] else []) ++
  (if matching s.clients q = [] then [noSuchNick c arg] else [])

/-- The text is a mask. -/
def isMask (q : Str) : Bool := decide ('*' ∈ q) || decide ('?' ∈ q)

/-- The answer to WHOIS for the names or masks `qs`, those before being `before`: only one mask is looked at. -/
def whoisAnswer (s : Srv) (c : Client) (arg : Str) (before : List Str) : List Str → List Msg
  | [] => []
  | q :: qs =>
    (if isMask q then (if before.any isMask then [noSuchNick c q] else whoisMask s c arg q) else whoisOne s c q) ++ whoisAnswer s c arg (before ++ [q]) qs

/-! ### Queries about other servers -/

/-- The server a query is for, if that is named: the server of that name, the server of the user of that name, or the first server whose name matches. -/
def serverMeant (s : Srv) (n : Str) : Option Client :=
  match clientNamed s n with
  | some c => some (if c.type = .server then c else s.cl c.introducer)
  | none =>
    if matchCaseInsensitive n (s.cl s.this).ID then some (s.cl s.this)
    else s.clients.find? (fun c => decide (c.type = .server) && matchCaseInsensitive n c.id)

/-- The queries that are for the server named in an argument, with the number of arguments before that. -/
def serverQueries : List (String × Nat) :=
  [("ADMIN", 0), ("INFO", 0), ("MOTD", 0), ("TIME", 0), ("VERSION", 0), ("LUSERS", 1), ("NAMES", 1), ("STATS", 1)]

end Ngircd.Spec
