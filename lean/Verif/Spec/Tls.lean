import Verif.Model.Tls

/-!
# Vocabulary: TLS connections
-/

namespace Ngircd.Spec
open Ngircd

/-- Nothing arrives and nothing is written: the socket may become ready, and `Conn_Handler` turns. -/
def IdleTls (es : List TlsEvent) : Prop :=
  ∀ e ∈ es, (∃ can w k, e = .ready can w k) ∨ ∃ p k, e = .round p k

/-- What is in the pipe for the server: in the read buffer, in the TLS library, in the kernel. -/
def pendingTls (x : Tls) : Str := x.rbuf ++ (x.held ++ x.kern.flatten)

/-- When `SSL_write` has to be called again, then with the buffer it had. -/
def SameBuffer (x : Tls) : Prop := ∀ a d, x.blocked = some (a, d) → a = x.addr

end Ngircd.Spec
