import Verif.Spec.Channels
import Verif.Spec.Polite
import Verif.Spec.NetInfo

/-!
# Requests known to be handled without an invalid access

`Srv.fault` of the model is set wherever the code would read or write outside of an object, use
an object already freed, follow a null pointer or fail an assertion.
-/

namespace Ngircd.Spec

/-- The request `req` of client `cl` avoids the known defects. -/
structure Harmless (s : Srv) (cl : Nat) (req : Request) : Prop where
  /-- MODE: none of the arguments after the first mode string is empty -/
  mode : Is req "MODE" → [] ∉ req.argv.drop 2
  /-- ISON and USERHOST: nobody has a percent sign in nick, user or host name -/
  names : Is req "ISON" ∨ Is req "USERHOST" → ∀ c ∈ s.clients, c.type = .user →
    '%' ∉ c.ID ∧ '%' ∉ c.User ∧ '%' ∉ displayedHost s c
  /-- LINKS: all servers are known together with the server they are behind -/
  links : Is req "LINKS" → Rooted s
  /-- PONG: a client waiting to be let in by it has the right password and is not banned -/
  pong : Is req "PONG" → (s.cl cl).type = .waitAuthPing → (∀ k ∈ s.conns, k.client = cl → k.pwd = s.conf.serverPwd) ∧
    ¬ Covers s s.glines (s.cl cl) ∧ ¬ Covers s s.klines (s.cl cl)
  /-- GLINE and KLINE: no IRC operator adds an entry -/
  lines : Is req "GLINE" ∨ Is req "KLINE" → req.argv.length ≠ 3 ∨ 'o' ∉ (s.cl cl).modes
  /-- SERVER: not after a PASS -/
  server : Is req "SERVER" → (s.cl cl).type ≠ .gotPass ∧ (s.cl cl).type ≠ .gotPass2813

end Ngircd.Spec
