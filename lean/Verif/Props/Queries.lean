import Verif.Lemmas.Query
import Verif.Lemmas.Reply
import Verif.Spec.SamplePolite

/-!
# Queries

Commands that ask for information change nothing (C52).
-/

namespace Ngircd

open Spec

variable {s t u : Srv} {i cl : Nat} {l : Str} {req : Request}

/-- The commands that ask for information. -/
def Spec.queries : List String :=
  ["ADMIN", "HELP", "INFO", "ISON", "LINKS", "LIST", "LUSERS", "MOTD", "NAMES", "PING", "SERVLIST", "STATS",
   "SUMMON", "TIME", "TRACE", "USERHOST", "USERS", "VERSION", "WHO", "WHOIS", "WHOWAS"]

/-- **C52** Commands that ask for information change nothing, whoever sends them: neither clients,
channels, memberships, lists, connections nor any other part of the state; they only send lines. -/
theorem C52_queries (h : Reachable s) (hr : Received s i l cl req) {n : String} (hn : n ∈ queries)
    (his : Is req n) (rnd : Int) : Unchanged s (step s (.line i rnd l)) := by
  have hb := h.base
  have key : ∀ (n : String) (cmd : Command), Is req n → findCommand n.toList = some cmd →
      n.toList.head?.any (fun c => c.isUpper) = true →
      (∀ s cl req, OnlyOutput s (cmd.run s cl req).1) → Unchanged s (step s (.line i rnd l)) := by
    intro n cmd h1 h2 h3 h4
    rcases step_run hr hb rnd h1 h2 h3 with ⟨g, -⟩ | g
    · obtain ⟨o, f, e⟩ := h4 (s.roll rnd) cl req
      rw [g, e]
      exact ⟨o, f, rnd, rfl⟩
    · exact g.unch
  simp only [queries, List.mem_cons, List.not_mem_nil, or_false] at hn
  rcases hn with rfl | rfl | rfl | rfl | rfl | rfl | rfl | rfl | rfl | rfl | rfl | rfl | rfl | rfl | rfl | rfl | rfl |
    rfl | rfl | rfl | rfl
  · exact key _ _ his rfl (by decide) oo_ircADMIN
  · exact key _ _ his rfl (by decide) oo_ircHELP
  · exact key _ _ his rfl (by decide) oo_ircINFO
  · exact key _ _ his rfl (by decide) oo_ircISON
  · exact key _ _ his rfl (by decide) oo_ircLINKS
  · exact key _ _ his rfl (by decide) oo_ircLIST
  · exact key _ _ his rfl (by decide) oo_ircLUSERS
  · exact key _ _ his rfl (by decide) oo_ircMOTD
  · exact key _ _ his rfl (by decide) oo_ircNAMES
  · exact key _ _ his rfl (by decide) oo_ircPING
  · exact key _ _ his rfl (by decide) oo_ircSERVLIST
  · exact key _ _ his rfl (by decide) oo_ircSTATS
  · exact key _ _ his rfl (by decide) oo_ircSUMMON
  · exact key _ _ his rfl (by decide) oo_ircTIME
  · exact key _ _ his rfl (by decide) oo_ircTRACE
  · exact key _ _ his rfl (by decide) oo_ircUSERHOST
  · exact key _ _ his rfl (by decide) oo_ircUSERS
  · exact key _ _ his rfl (by decide) oo_ircVERSION
  · exact key _ _ his rfl (by decide) oo_ircWHO
  · exact key _ _ his rfl (by decide) oo_ircWHOIS
  · exact key _ _ his rfl (by decide) oo_ircWHOWAS

example : ∃ (s : Srv) (i cl : Nat) (l : Str) (req : Request) (n : String), Reachable s ∧ Received s i l cl req ∧
    n ∈ queries ∧ Is req n ∧ (step s (.line i 0 l)).out ≠ s.out :=
  ⟨Sample.s5, 5, 3, "WHOIS zed".toList, ⟨none, "WHOIS".toList, ["zed".toList]⟩, "WHOIS", Sample.reach_s5,
    recv_sound (by decide +kernel), by decide, by simp only [Is]; decide, by decide +kernel⟩

end Ngircd
