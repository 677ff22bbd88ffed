import Verif.Model.Events

/-!
# A sample run

Concrete reachable states used to show that the hypotheses of the theorems are met.  They
are computed by the kernel from `Srv.init` with the events of `step`.
-/

namespace Ngircd.Sample

/-- Lines received on connection `i`, one after the other. -/
def lines (s : Srv) (i : Nat) (ls : List String) : Srv :=
  ls.foldl (fun s l => step s (.line i 7 l.toList)) s

/-- A configuration with an operator and a peer server. -/
def conf : Conf :=
  { opers := [{ name := "root".toList, pwd := "secret".toList, mask := some "*!*@1.2.3.*".toList }],
    servers := [{ name := "peer.example.net".toList, pwdIn := "in".toList, pwdOut := "out".toList }],
    operCanMode := true, maxNickLength := 10 }

/-- After start-up. -/
def s0 : Srv := Srv.init conf "host".toList 1000

/-- One connection accepted (socket 5). -/
def s1 : Srv := step s0 (.accept 5 "1.2.3.4".toList "1.2.3.4".toList false)

/-- `alice` has registered (socket 5, client 3). -/
def s2 : Srv := lines s1 5 ["NICK alice", "USER alice 0 * :Alice A"]

/-- `bob` has registered, too (socket 6, client 4). -/
def s3 : Srv :=
  lines (step s2 (.accept 6 "9.9.9.9".toList "9.9.9.9".toList false)) 6
    ["NICK bob", "USER bob 0 * :Bob B"]

/-- `alice` has created `#c` (channel 5), `bob` is on it. -/
def s4 : Srv := lines (lines s3 5 ["JOIN #c"]) 6 ["JOIN #c"]

/-- A server link (socket 7, client 6) with a remote user `zed` (client 7), who is on `#c`, too. -/
def s5 : Srv :=
  lines (step s4 (.accept 7 "5.5.5.5".toList "5.5.5.5".toList false)) 7
    ["PASS in 0210-IRC+ ngIRCd|:CLMSo", "SERVER peer.example.net 1 :peer",
     ":peer.example.net NICK zed 1 zed host.example 1 + :Zed Z", ":peer.example.net NJOIN #c :zed"]

theorem reach_lines {s : Srv} (h : Reachable s) (i : Nat) (ls : List String)
    (hf : ∀ n, n < ls.length → (lines s i (ls.take n)).fault = false) :
    Reachable (lines s i ls) := by
  induction ls generalizing s with
  | nil => exact h
  | cons l ls ih =>
    have h0 : s.fault = false := hf 0 (by simp)
    refine ih (.step _ h h0) ?_
    intro n hn
    exact hf (n + 1) (by simpa using hn)

theorem reach_s0 : Reachable s0 := .init _ _ _
theorem reach_s1 : Reachable s1 := .step _ reach_s0 (by decide +kernel)
theorem reach_s2 : Reachable s2 := reach_lines reach_s1 _ _ (by decide +kernel)
theorem reach_s3 : Reachable s3 :=
  reach_lines (.step _ reach_s2 (by decide +kernel)) _ _ (by decide +kernel)
theorem reach_s4 : Reachable s4 :=
  reach_lines (reach_lines reach_s3 _ _ (by decide +kernel)) _ _ (by decide +kernel)
theorem reach_s5 : Reachable s5 :=
  reach_lines (.step _ reach_s4 (by decide +kernel)) _ _ (by decide +kernel)

end Ngircd.Sample
