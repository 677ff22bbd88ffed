import Verif.Model.ConfFile

/-!
# Proper configurations
-/

namespace Ngircd
namespace Spec

/-- A predefined channel within its bounds. -/
structure ChannelFits (x : ChannelCfg) : Prop where
  name : x.name.length ≤ 50 ∧ ∀ c, x.name.head? = some c → c = '#' ∨ c = '&' ∨ c = '+'
  modes : ∀ m ∈ x.modes, m.length ≤ 513
  key : x.key.length ≤ 64
  topic : x.topic.length ≤ 512
  maxusers : x.maxusers < 2 ^ 64

/-- A configured server within its bounds. -/
structure PeerFits (x : ServerCfg) : Prop where
  name : x.name.length ≤ 63
  host : x.host.length ≤ 255
  pwdIn : x.pwdIn.length ≤ 64
  pwdOut : x.pwdOut.length ≤ 64
  port : x.port < 65535
  svsMask : x.svsMask.length ≤ 63

/-- All settings are within their bounds. -/
structure Within (c : Cfg) : Prop where
  nickLength : 2 ≤ c.lim.maxNickLength ∧ c.lim.maxNickLength ≤ 32
  connectRetry : 5 ≤ c.lim.connectRetry
  pingTimeout : 5 ≤ c.lim.pingTimeout
  pongTimeout : 5 ≤ c.lim.pongTimeout
  penalty : -1 ≤ c.lim.maxPenaltyTime
  name : c.glob.name.length ≤ 63
  info : c.glob.info.length ≤ 127
  pwd : c.glob.pwd.length ≤ 64
  network : c.glob.network.length ≤ 127 ∧ ' ' ∉ c.glob.network
  motd : c.glob.motd.length < 127
  ports : ∀ p ∈ c.glob.ports ++ c.ssl.ports, 0 < p ∧ p < 65535
  chanTypes : c.opt.allowedChannelTypes.Nodup ∧ ∀ t ∈ c.opt.allowedChannelTypes, t ∈ "#&+".toList
  userModes : c.opt.defaultUserModes.Nodup ∧ ∀ t ∈ c.opt.defaultUserModes, t ∈ "abBcCFiIoqrRswx".toList
  cloak : c.opt.cloakHost.length ≤ 63 ∧ c.opt.cloakHostModeX.length ≤ 63 ∧ c.opt.cloakHostSalt.length ≤ 63
  webirc : c.opt.webircPwd.length ≤ 64
  opers : ∀ o ∈ c.opers, o.name.length ≤ 64 ∧ o.pwd.length ≤ 64
  servers : ∀ x ∈ c.table, PeerFits x
  channels : ∀ x ∈ c.chans, ChannelFits x

/-- A letter or a digit. -/
def Alnum (c : Char) : Prop := ('a' ≤ c ∧ c ≤ 'z') ∨ ('A' ≤ c ∧ c ≤ 'Z') ∨ ('0' ≤ c ∧ c ≤ '9')

/-- The name of an IRC server, RFC 2812: letters, digits, `.` and `-`, beginning with a letter or digit,
with a dot, and shorter than 64 characters. -/
structure HostName (n : Str) : Prop where
  chars : ∀ c ∈ n, Alnum c ∨ c = '.' ∨ c = '-'
  first : ∃ c r, n = c :: r ∧ Alnum c
  dot : '.' ∈ n
  short : n.length < 64

end Spec
end Ngircd
