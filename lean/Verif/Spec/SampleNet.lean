import Verif.Spec.SamplePolite
import Verif.Spec.Registry

/-!
# A sample run with two links

`alice` (client 3, connection 5) and `bob` (client 5, connection 6) are here and on `#c` (channel 4); the
server `peer` (client 6, connection 7) brings `zed` (client 7), who is on `#c`, and the server
`far` (client 8) with `yan` (client 9); the server `hub` (client 10) is linked at connection 8.
-/

namespace Ngircd.Sample
open Spec

/-- A configuration with two peer servers. -/
def netConf : Conf :=
  { conf with servers := [{ name := "peer.example.net".toList, pwdIn := "in".toList, pwdOut := "out".toList },
      { name := "hub.example.net".toList, pwdIn := "hin".toList, pwdOut := "hout".toList }] }

/-- Two local users on a channel. -/
def net1 : Srv :=
  lines (lines (step (lines (step (Srv.init netConf "host".toList 1000) (.accept 5 "1.2.3.4".toList "1.2.3.4".toList false)) 5
    ["NICK alice", "USER alice 0 * :Alice A", "JOIN #c"]) (.accept 6 "9.9.9.9".toList "9.9.9.9".toList false)) 6
    ["NICK bob", "USER bob 0 * :Bob B"]) 6 ["JOIN #c"]

/-- The first link. -/
def net2 : Srv :=
  lines (step net1 (.accept 7 "5.5.5.5".toList "5.5.5.5".toList false)) 7
    ["PASS in 0210-IRC+ ngIRCd|:CLMSo", "SERVER peer.example.net 1 :peer",
     ":peer.example.net NICK zed 1 zed host.example 1 + :Zed Z", ":peer.example.net NJOIN #c :zed",
     ":peer.example.net SERVER far.example.net 2 5 :far", ":far.example.net NICK yan 2 yan host.example 5 + :Yan Y"]

/-- The second link is about to be made. -/
def net3 : Srv :=
  lines (step net2 (.accept 8 "6.6.6.6".toList "6.6.6.6".toList false)) 8 ["PASS hin 0210-IRC+ ngIRCd|:CLMSo"]

/-- Both links. -/
def net : Srv := lines net3 8 ["SERVER hub.example.net 1 :hub"]

theorem fine_net1 : FineRun net1 :=
  fine_lines (fine_lines (fine_step (fine_lines (fine_step (.init _ _ _ (by decide +kernel)) _ (by decide +kernel)) _ _ (by decide +kernel))
    _ (by decide +kernel)) _ _ (by decide +kernel)) _ _ (by decide +kernel)
theorem fine_net2 : FineRun net2 := fine_lines (fine_step fine_net1 _ (by decide +kernel)) _ _ (by decide +kernel)
theorem fine_net3 : FineRun net3 := fine_lines (fine_step fine_net2 _ (by decide +kernel)) _ _ (by decide +kernel)
theorem fine_net : FineRun net := fine_lines fine_net3 _ _ (by decide +kernel)

theorem polite_net2 : PoliteRun net2 := fine_net2.mono (fun _ h => h.1) (fun _ _ h => h.1)
theorem polite_net3 : PoliteRun net3 := fine_net3.mono (fun _ h => h.1) (fun _ _ h => h.1)
theorem polite_net : PoliteRun net := fine_net.mono (fun _ h => h.1) (fun _ _ h => h.1)

end Ngircd.Sample
