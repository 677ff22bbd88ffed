import Verif.Lemmas.Acts
import Verif.Spec.Polite
import Verif.Spec.Server

/-!
# The guards of the actions

`Okay x t a`: what the code has checked (or what holds by construction) when it does action
`a` in state `t` while handling an event described by `x`.
-/

namespace Ngircd

/-- What is being handled: command and arguments of the request, the client it came from,
whether it came from a registered server link (`peer`), whether that peer broke the rules of
the server protocol (`bad`), and whether a channel without members may be left behind
(`loose`), whether the client was not a user when the event began (`fresh`), and the new
configuration that is being read. -/
structure Ctx where
  cl : Nat := 0
  cmd : Str := []
  argv : List Str := []
  peer : Prop := False
  bad : Prop := False
  loose : Prop := False
  fresh : Prop := False
  newConf : Option Conf := none
  /-- the client was an IRC operator when the event began -/
  oper : Prop := False
  /-- the event is not a line -/
  idle : Prop := False
  /-- a connection may be opened -/
  opens : Prop := False
  /-- data has arrived, or time passes -/
  clock : Prop := False

/-- The command is `n`. -/
def Ctx.is (x : Ctx) (n : String) : Prop := caseEq x.cmd n.toList = true

/-- `f` changes no field of a client an invariant depends on. -/
def KeepsCl (f : Client → Client) : Prop :=
  ∀ c, (f c).ref = c.ref ∧ (f c).id = c.id ∧ (f c).hash = c.hash ∧ (f c).type = c.type ∧
    (f c).conn = c.conn ∧ (f c).introducer = c.introducer ∧ (f c).modes = c.modes ∧
    (f c).mytoken = c.mytoken

/-- The request is CAP REQ and names the capability. -/
def Ctx.asksCap (x : Ctx) : Prop :=
  caseEq (x.argv.getD 0 []) "REQ".toList = true ∧ capMultiPrefix ∈ strtok (strlcpy COMMAND_LEN (x.argv.getD 1 [])) [' ']

/-- A change of capabilities by a CAP command: they are switched on by CAP REQ naming them only, and the
negotiation is ended by CAP END only. -/
structure CapOk (x : Ctx) (ty : CType) (a b : Caps) : Prop where
  cap : x.is "CAP"
  on : b.multiPrefix = true → a.multiPrefix = true ∨ x.asksCap
  pending : a.pending = true → b.pending = false → caseEq (x.argv.getD 0 []) "END".toList = true
  idle : ty = .user → b.pending = a.pending

/-- A change of fields of the client `r` no invariant depends on. -/
structure SoftCl (x : Ctx) (t : Srv) (r : Nat) (f : Client → Client) : Prop where
  keeps : KeepsCl f
  caps : (∀ c, (f c).caps = c.caps) ∨ (r = x.cl ∧ CapOk x (t.cl r).type (t.cl r).caps (f (t.cl r)).caps)
  /-- a user keeps its user name, host and real name -/
  ident : (∀ c, (f c).user = c.user ∧ (f c).host = c.host ∧ (f c).info = c.info) ∨ (t.cl r).type ≠ .user ∨ x.peer

/-- A change of a connection: the password comes from PASS, the number of the authentication PING is set by
NICK and removed by the right PONG. -/
structure ConnOk (x : Ctx) (t : Srv) (i : Nat) (f : Conn → Conn) : Prop where
  keeps : ∀ k, (f k).idx = k.idx ∧ (f k).client = k.client ∧ (f k).ipa = k.ipa
  pwd : (∀ k, (f k).pwd = k.pwd) ∨ ((t.cl x.cl).conn = some i ∧ x.is "PASS" ∧ ∀ k, (f k).pwd = strlcpy 65 (x.argv.getD 0 []))
  times : (∀ k, (f k).lastData = k.lastData ∧ (f k).lastPing = k.lastPing) ∨ x.clock
  ping : (∀ k, (f k).authPing = k.authPing) ∨ ((t.cl x.cl).conn = some i ∧
    ((x.is "NICK" ∧ ((t.cl x.cl).type ≠ .user ∨ x.peer)) ∨ (x.is "PONG" ∧ authPingOf t (t.cl x.cl) = atoi (x.argv.getD 0 []) ∧ ∀ k, (f k).authPing = 0)))

/-- Who may remove the client `c`: servers, IRC operators, and the client it depends on (itself); without a
line received, the server itself. -/
def Ctx.may (x : Ctx) (t : Srv) (c : Client) : Prop := x.peer ∨ x.idle ∨ x.oper ∨ Spec.Under t x.cl c

/-- Client `r` and all that depends on it may be removed. -/
def Ctx.mayAll (x : Ctx) (r : Nat) : Prop := x.peer ∨ x.idle ∨ x.oper ∨ r = x.cl

/-- `f` keeps name and identity of a channel. -/
def KeepsCh (f : Chan → Chan) : Prop :=
  ∀ c, (f c).ref = c.ref ∧ (f c).name = c.name ∧ (f c).hash = c.hash

/-- No ban or exception of the channel is removed by its first match. -/
def Once (c : Chan) : Prop := ∀ e, e ∈ c.bans ∨ e ∈ c.excepts → e.onlyonce = false

/-- What is being handled may change settings of channels and the ranks of members: MODE and
JOIN commands, the log-in of a user (autojoin), commands of servers, the configuration. -/
def Ctx.edits (x : Ctx) : Prop :=
  x.peer ∨ x.is "MODE" ∨ x.is "JOIN" ∨ x.fresh ∨ x.newConf.isSome = true

/-- What is being handled may change the topic of channels. -/
def Ctx.topics (x : Ctx) : Prop := x.peer ∨ x.is "TOPIC" ∨ x.newConf.isSome = true

/-- A change of a channel other than of its name and modes. -/
structure SoftCh (x : Ctx) (f : Chan → Chan) : Prop where
  keeps : KeepsCh f
  modes : ∀ c, (f c).modes = c.modes
  once : ∀ c, Once c → Once (f c)
  settings : x.edits ∨ ∀ c, Once c → (f c).key = c.key ∧ (f c).maxusers = c.maxusers ∧
    (f c).bans = c.bans ∧ (f c).excepts = c.excepts ∧ (f c).keyfile = c.keyfile
  invites : x.edits ∨ x.is "INVITE" ∨ ∀ c, (f c).invites = c.invites
  topic : x.topics ∨ ∀ c, (f c).topic = c.topic

/-- No entry of the list is removed by its first match. -/
def Lasting (l : MaskList) : Prop := ∀ e ∈ l, e.onlyonce = false

/-- The client does not match any G- or K-line. -/
def NotBanned (t : Srv) (r : Nat) : Prop :=
  (listsCheckReason t.glines (masksOf t (t.cl r))).2 = none ∧
  (listsCheckReason t.klines (masksOf t (t.cl r))).2 = none

/-- The checks of `Login_User`. -/
def LoginOK (t : Srv) (r : Nat) : Prop :=
  (t.conf.authPing = true → authPingOf t (t.cl r) = 0) ∧ (t.cl r).caps.pending = false ∧
  passwordOf t (t.cl r) = t.conf.serverPwd ∧ NotBanned t r

/-- Both NICK and USER have been received when this command has been handled. -/
def LoginFrom (x : Ctx) (p : CType) (id : Str) : Prop :=
  (p = .gotUser ∧ x.is "NICK" ∧ id ≠ []) ∨ (p = .gotNick ∧ x.is "USER") ∨ p = .waitAuthPing ∨ p = .waitCapEnd

/-- The transitions of the type of a local client. -/
def LocalType (x : Ctx) (t : Srv) (r : Nat) : CType → Prop
  | .gotPass | .gotPass2813 => (t.cl r).type = .unknown ∨
      ((t.cl r).type = .unknownServer ∧ ((t.cl r).id = [] ∨ x.bad))
  | .gotNick => x.is "NICK" ∧ (t.cl r).id ≠ [] ∧
      ((t.cl r).type = .unknown ∨ (t.cl r).type = .gotPass ∨ (t.cl r).type = .gotNick)
  | .gotUser => x.is "USER" ∧ ((t.cl r).type = .unknown ∨ (t.cl r).type = .gotPass)
  | .waitAuthPing | .waitCapEnd => LoginFrom x (t.cl r).type (t.cl r).id
  | .user => LoginFrom x (t.cl r).type (t.cl r).id ∧ LoginOK t r ∧ x.fresh ∧ ¬ x.peer
  | .unknownServer => ((t.cl r).type = .gotPass ∨ (t.cl r).type = .gotPass2813) ∧ x.is "SERVER"
  | .server => ((t.cl r).type = .unknownServer ∨ (t.cl r).type = .server) ∧ (x.is "SERVER" ∨ atoi x.cmd = 376)
  | .unknown | .service => False

/-- The request is an OPER command with the credentials of a configured operator. -/
def OperCreds (x : Ctx) (t : Srv) (r : Nat) : Prop :=
  x.is "OPER" ∧ ∃ op ∈ t.conf.opers, op.name = x.argv.getD 0 [] ∧ op.pwd = x.argv.getD 1 [] ∧
    ∀ m, op.mask = some m → Match m (t.cl r).mask = true

/-- User modes a client may set itself. -/
def SelfSet (x : Ctx) (t : Srv) (r : Nat) (m : Char) : Prop :=
  m ∈ "bBCiIrswx".toList ∨ (m ∈ "cqF".toList ∧ (t.cl r).hasMode 'o' = true) ∨
  (m = 'a' ∧ x.is "AWAY") ∨ (m = 'o' ∧ OperCreds x t r)

/-- No client has this name. -/
def NameFree (t : Srv) (id : Str) : Prop := ∀ c ∈ t.clients, caseEq c.id id = false

/-- The guards. -/
def Okay (x : Ctx) (t : Srv) : Act → Prop
  | .soft r f => SoftCl x t r f
  | .umode r m set => x.peer ∨
      (x.fresh ∧ m ∈ t.conf.defaultUserModes ∧ (clientSearch t (t.cl x.cl).ID).map Client.ref = some r) ∨ (r = x.cl ∧ (
      (set = true ∧ SelfSet x t r m) ∨ (set = false ∧ m ≠ 'r' ∧ m ≠ 'R')))
  | .setId r id => r ≠ t.this ∧
      ((isValidNick t.conf.maxNickLength id = true ∧ clientSearch t id = none) ∨
       (caseEq (t.cl r).id id = true ∧ id ≠ []) ∨ ((∃ cs ∈ t.conf.servers, caseEq id cs.name = true) ∧ NameFree t id ∧
        (t.cl r).type = .unknownServer) ∨ x.bad) ∧
      (x.peer ∨ (r = x.cl ∧ ((t.cl r).type = .user → x.is "NICK" ∧ ¬ x.fresh)))
  | .setType r ty => r ≠ t.this ∧
      ((t.cl r).conn.isSome = true → ty ≠ .service ∧ ((r = x.cl ∧ LocalType x t r ty) ∨ x.bad)) ∧
      ((t.cl r).conn = none → x.peer ∧
        (((ty = .user ∨ ty = .service ∨ (ty = .gotNick ∧ ∀ m ∈ t.cl2, m.client ≠ r)) ∧
          (t.cl r).type ≠ .server) ∨ x.bad))
  | .setIntro r _ => (t.cl r).conn.isSome = true
  | .newCl c => x.peer ∧ c.ref = t.nextRef ∧ c.conn = none ∧ c.hash = Hash c.id ∧
      (∃ p ∈ t.clients, p.ref = c.introducer ∧ p.type = .server ∧ p.ref ≠ t.this) ∧
      (c.type = .user ∨ c.type = .server) ∧
      (c.mytoken = if c.type = .server then genMyToken t else -1) ∧
      ((GoodName c.id ∧ NameFree t c.id ∧ c.modes.Nodup) ∨ x.bad) ∧ c.caps = {}
  | .newLocal c k => c.ref = t.nextRef ∧ c.id = [] ∧ c.hash = 0 ∧ c.introducer = t.this ∧
      (c.type = .unknown ∨ c.type = .unknownServer) ∧ c.conn = some k.idx ∧ k.client = c.ref ∧
      (∀ k' ∈ t.conns, k'.idx ≠ k.idx) ∧ c.modes = [] ∧ c.mytoken = -1 ∧
      (c.type = .unknown → connLimitReached t k.ipa = false) ∧ c.caps = {} ∧ k.pwd = [] ∧ k.authPing = 0 ∧ x.opens
  | .destroy c => c.ref ≠ t.this ∧ t.clients.find? (destroyHit t c.ref) = some c ∧ x.may t c
  | .whowas c => ∃ r, c = t.cl r ∧ (x.peer ∨ (r = x.cl ∧ x.is "NICK"))
  | .conn i f => ConnOk x t i f
  | .srvConn l => ∀ p ∈ l, p ∈ t.srvConn ∨ ∃ k ∈ t.conns, k.idx = p.2
  | .create name f => channelSearch t name = none ∧ KeepsCh f ∧
      ((isValidChanName name = true ∧ name ≠ []) ∨ x.bad) ∧ (∀ c, c.modes = [] → (f c).modes.Nodup) ∧
      ((∀ c, c.modes = [] → 'P' ∈ (f c).modes) ∨ x.loose) ∧ (∀ c, Once c → Once (f c)) ∧
      (x.peer ∨ x.newConf.isSome = true)
  | .createJoin name r => isValidChanName name = true ∧ channelSearch t name = none ∧
      (name ≠ [] ∨ x.bad) ∧
      (∃ c ∈ t.clients, c.ref = r) ∧ (((t.cl r).type = .user ∨ (t.cl r).type = .service) ∨ x.bad) ∧
      (x.peer ∨ (r = x.cl ∧ (x.is "JOIN" ∨ x.fresh)))
  | .join ch r => (∃ c ∈ t.chans, c.ref = ch) ∧ isMemberOf t ch r = false ∧
      (∃ c ∈ t.clients, c.ref = r) ∧ (((t.cl r).type = .user ∨ (t.cl r).type = .service) ∨ x.bad) ∧
      (x.peer ∨ (r = x.cl ∧ (x.is "JOIN" ∨ x.fresh)))
  | .remove ch r => isMemberOf t ch r = true ∧ (x.peer ∨ (r = x.cl ∧ (x.is "PART" ∨ x.is "JOIN" ∨ x.fresh)) ∨ x.is "KICK")
  | .chSoft _ f => SoftCh x f
  | .chMode ch m set => (m = 'P' → set = false → membersOf t ch ≠ [] ∨ x.loose) ∧ x.edits
  | .chModes ch modes => x.peer ∧ ((strlcpy CHANNEL_MODE_LEN modes).Nodup ∨ x.bad) ∧
      (t.chan ch).modes = []
  | .mmode _ _ _ _ => x.edits
  | .lines g k => (Lasting t.glines → Lasting g) ∧ (Lasting t.klines → Lasting k) ∧
      (x.peer ∨ ¬ x.fresh ∨ ((∀ e ∈ t.glines, e ∈ g ∨ e.onlyonce = true) ∧ (∀ e ∈ t.klines, e ∈ k ∨ e.onlyonce = true)))
  | .conf c => c.maxNickLength = t.conf.maxNickLength ∧ c.serverName = t.conf.serverName ∧
      (∀ cs ∈ c.servers, cs ∈ t.conf.servers ∨ GoodName cs.name ∨ x.bad) ∧
      (Spec.TidyConf c ∨ x.loose ∨
        (c.defaultUserModes = t.conf.defaultUserModes ∧ c.channels = t.conf.channels)) ∧
      (c.defaultUserModes = t.conf.defaultUserModes ∨ ∃ c', x.newConf = some c' ∧ c.defaultUserModes = c'.defaultUserModes) ∧
      (x.newConf.isSome = true ∨ ∃ sv, c = { t.conf with servers := sv })
  | .time _ => True

end Ngircd
