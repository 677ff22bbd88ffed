import Verif.Model.Events

/-!
# What peers are expected to respect

ngIRCd trusts linked servers.  Some properties hold only as long as the peers follow the
server protocol; `Polite` says what that means, per request.  None of these conditions
concerns ordinary users.
-/

namespace Ngircd

/-- A name that can be looked up. -/
def GoodName (id : Str) : Prop := id ≠ [] ∧ '!' ∉ id ∧ id.length < CLIENT_ID_LEN

namespace Spec

/-- The command of the request. -/
def Is (req : Request) (n : String) : Prop := caseEq req.command n.toList = true

/-- The client is a user or a service. -/
def Person (c : Client) : Prop := c.type = .user ∨ c.type = .service

/-- The nick name part of the first argument of SERVICE, `nick!user@host`. -/
def serviceNick (a : Str) : Str := cutAt a '!'

/-- The request follows the rules of the server protocol. -/
structure Polite (s : Srv) (cl : Nat) (req : Request) : Prop where
  /-- servers are introduced with a proper name -/
  server : (s.cl cl).type = .server → Is req "SERVER" → GoodName (req.arg 0)
  /-- NICK renames users and services -/
  rename : (s.cl cl).type = .server → Is req "NICK" → req.argc = 1 → ∀ p c,
    req.prefix? = some p → clientSearch s p = some c → Person c
  /-- NICK introduces users with a proper name and a set of modes -/
  nick : (s.cl cl).type = .server → Is req "NICK" → req.argc ≠ 1 →
    GoodName (req.arg 0) ∧ (strlcpy CLIENT_MODE_LEN ((req.arg 5).drop 1)).Nodup
  /-- SERVICE introduces services with a proper name, not containing '@', and a set of modes -/
  service : (s.cl cl).type = .server → Is req "SERVICE" →
    serviceNick (req.arg 0) ≠ [] ∧ (serviceNick (req.arg 0)).length < CLIENT_ID_LEN ∧
    '@' ∉ serviceNick (req.arg 0) ∧
    (strlcpy CLIENT_MODE_LEN (req.arg 3).tail).Nodup
  /-- users and services join channels, and the channels have names -/
  join : (s.cl cl).type = .server → Is req "JOIN" →
    (∀ p c, req.prefix? = some p → clientSearch s p = some c → Person c) ∧
    ∀ n ∈ strtok (req.arg 0) [','], cutAt n '\x07' ≠ []
  /-- the same for NJOIN -/
  njoin : (s.cl cl).type = .server → Is req "NJOIN" → req.arg 0 ≠ [] ∧
    ∀ tok ∈ strtok (strlcpy COMMAND_LEN (req.arg 1)) [','],
      ∀ c ∈ s.clients, caseEq c.id (cutAt (strlcpy CLIENT_ID_LEN (tok.dropWhile isNjoinPrefix)) '!') = true →
        Person c
  /-- CHANINFO names a channel and a set of modes -/
  chaninfo : (s.cl cl).type = .server → Is req "CHANINFO" →
    (isValidChanName (req.arg 0) = true ∧ req.arg 0 ≠ []) ∧
    (strlcpy CHANNEL_MODE_LEN (req.arg 1).tail).Nodup
  /-- a server does not send PASS again after SERVER -/
  pass : (s.cl cl).type = .unknownServer → Is req "PASS" → (s.cl cl).id = []
  /-- operators and peers add new servers with a proper name only -/
  connect : ((s.cl cl).type = .server ∨ (s.cl cl).hasMode 'o' = true) → Is req "CONNECT" →
    3 < req.argc → req.arg 0 ≠ [] ∧ '!' ∉ req.arg 0

/-- The request does not leave a channel without members and without `P` behind: `P` is not
taken away from an empty channel, and CHANINFO is used for existing channels only. -/
structure Tidy (s : Srv) (req : Request) : Prop where
  mode : Is req "MODE" → ∀ ch, channelSearch s (req.arg 0) = some ch →
    membersOf s ch.ref ≠ [] ∨ 'P' ∉ (req.argv.drop 1).flatten
  chaninfo : Is req "CHANINFO" → ∃ ch, channelSearch s (req.arg 0) = some ch

/-- The configuration takes `P` away from no channel. -/
def TidyConf (c : Conf) : Prop :=
  'P' ∉ c.defaultUserModes ∧ ∀ ch ∈ c.channels, ∀ m ∈ ch.modes, 'P' ∉ m

/-- What `Validate_Config` and the sizes of the configuration variables guarantee: the server
and the configured peers have proper names, nick names are shorter than CLIENT_NICK_LEN. -/
def GoodConf (c : Conf) : Prop :=
  GoodName c.serverName ∧ c.maxNickLength ≤ CLIENT_NICK_LEN ∧ ∀ cs ∈ c.servers, GoodName cs.name

/-- `l`, received on connection `i`, is the request `req` of client `cl`, and its prefix is
accepted. -/
def Received (s : Srv) (i : Nat) (l : Str) (cl : Nat) (req : Request) : Prop :=
  ∃ k req0, s.conn? i = some k ∧ k.client = cl ∧
    parseRequest s.conf.scrubCTCP l = .request req0 ∧ validatePrefix s i cl req0 = .pass req

/-- Peers follow the server protocol. -/
def PoliteEvent (s : Srv) (e : Event) : Prop :=
  ∀ i rnd l, e = .line i rnd l → ∀ cl req, Received s i l cl req → Polite s cl req

/-- No channel without members and without `P` is left behind. -/
def TidyEvent (s : Srv) (e : Event) : Prop :=
  (∀ i rnd l, e = .line i rnd l → ∀ cl req, Received s i l cl req → Tidy s req) ∧
  (∀ c, e = .rehash c → TidyConf c)

/-- The states reachable from configurations satisfying `C` by events satisfying `P`. -/
inductive ReachableWith (C : Conf → Prop) (P : Srv → Event → Prop) : Srv → Prop
  | init (conf : Conf) (host : Str) (now : Nat) : C conf → ReachableWith C P (Srv.init conf host now)
  | step {s : Srv} (e : Event) : ReachableWith C P s → s.fault = false → P s e →
      ReachableWith C P (Ngircd.step s e)

end Spec

end Ngircd
