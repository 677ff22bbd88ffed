import Verif.Spec.History
import Verif.Spec.SamplePolite

/-!
# A sample history

A client registers at a server with a password, the authentication PING and a K-line.
-/

namespace Ngircd.Sample
open Spec

/-- Go through the events, keeping the history. -/
def runH (h : List (Srv × Event)) (s : Srv) : List Event → List (Srv × Event) × Srv
  | [] => (h, s)
  | e :: es => runH ((s, e) :: h) (step s e) es

/-- All events can be taken, as a test. -/
def okH (s : Srv) : List Event → Bool
  | [] => true
  | e :: es => !s.fault && politeEvB s e && okH (step s e) es

theorem runH_history {h : List (Srv × Event)} {s : Srv} (hh : History h s) (es : List Event)
    (ho : okH s es = true) : History (runH h s es).1 (runH h s es).2 := by
  induction es generalizing h s with
  | nil => exact hh
  | cons e es ih =>
    simp only [okH, Bool.and_eq_true, Bool.not_eq_true'] at ho
    exact ih (.next e hh ho.1.1 (politeEvB_sound ho.1.2)) ho.2

/-- A server that asks for a lot. -/
def strictConf : Conf := { conf with serverPwd := "pw".toList, authPing := true }

/-- A line on connection 5. -/
def say (l : String) : Event := .line 5 7 l.toList

/-- The events before the registration is complete; an operator on connection 6 has set a K-line. -/
def strictEvents : List Event :=
  [.accept 6 "1.2.3.5".toList "1.2.3.5".toList false,
   .line 6 9 "PASS pw".toList, .line 6 9 "NICK root".toList, .line 6 9 "USER root 0 * :Root".toList,
   .line 6 9 "PONG 9".toList, .line 6 9 "OPER root secret".toList, .line 6 9 "KLINE evil!*@* 0 :Go away".toList,
   .accept 5 "1.2.3.4".toList "1.2.3.4".toList false,
   say "PASS pw", say "CAP LS", say "NICK alice", say "USER alice 0 * :Alice A", say "PONG 7"]

/-- The state then, with its history. -/
def strict : List (Srv × Event) × Srv := runH [] (Srv.init strictConf "host".toList 1000) strictEvents

theorem strict_history : History strict.1 strict.2 :=
  runH_history (.start _ _ _ (by decide +kernel)) _ (by decide +kernel)

instance (s : Srv) (r : Nat) : Decidable (LocalUser s r) := inferInstanceAs (Decidable (∃ _ ∈ _, _))
instance (s : Srv) (e : Event) (r : Nat) : Decidable (Registers s e r) := inferInstanceAs (Decidable (_ ∧ _))

theorem strict_registers : Registers strict.2 (say "CAP END") 4 := by decide +kernel

end Ngircd.Sample
