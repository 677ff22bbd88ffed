import Verif.Lemmas.Reply
import Verif.Props.Prefix

/-!
# C26, C27: IRC operators
-/

set_option linter.unusedSimpArgs false

namespace Ngircd
open Spec

variable {s t u : Srv} {i cl : Nat} {l : Str} {req : Request} {p : Str}

theorem hasMode_iff {c : Client} {m : Char} : c.hasMode m = true ↔ m ∈ c.modes := by
  simp [Client.hasMode, hasChar]

theorem hasMode_false {c : Client} {m : Char} : c.hasMode m = false ↔ m ∉ c.modes := by
  rw [← hasMode_iff]; simp

/-- The commands that administer the server. -/
def Spec.adminCommands : List String :=
  ["DIE", "RESTART", "REHASH", "CONNECT", "DISCONNECT", "SQUIT", "GLINE", "KLINE", "KILL", "WALLOPS"]

theorem opCheck_user (hty : (s.cl cl).type ≠ .server) (hno : 'o' ∉ (s.cl cl).modes) :
    opCheck s cl req = none := by
  simp only [opCheck, hty, if_false]
  simp only [decide_false, Bool.false_and, Bool.false_eq_true, if_false]
  rw [hasMode_false.2 hno]
  rfl

/-- **C27** A client that is no IRC operator (and no server) cannot administer the server: its
commands are only answered, on its own connection, and change nothing. -/
theorem C27_users (h : Reachable s) (hr : Received s i l cl req) (hcmd : ∃ n ∈ adminCommands, Is req n)
    (hty : (s.cl cl).type ≠ .server) (hno : 'o' ∉ (s.cl cl).modes) (rnd : Int) :
    Answered i s (step s (.line i rnd l)) := by
  have hb := h.base
  have ha := hr.asker hb rnd
  have hop : opCheck (s.roll rnd) cl req = none := opCheck_user hty hno
  have hm : ((s.roll rnd).cl cl).hasMode 'o' = false := hasMode_false.2 hno
  have hty' : ((s.roll rnd).cl cl).type ≠ .server := hty
  have hnp := rp_opNoPrivileges ha
  have hnm := rp_needMoreParams ha
  obtain ⟨n, hn, his⟩ := hcmd
  simp only [adminCommands, List.mem_cons, List.not_mem_nil, or_false] at hn
  rcases hn with rfl | rfl | rfl | rfl | rfl | rfl | rfl | rfl | rfl | rfl <;>
    rcases step_run hr hb rnd his rfl with ⟨hst, hal, -, -⟩ | h
  all_goals try exact h
  all_goals rw [hst]; refine Reply.ans (r := rnd) ?_
  · show Reply i _ (ircDIE (s.roll rnd) cl req).1
    simp only [ircDIE, hop, Option.isNone_none, if_true]; exact hnp
  · show Reply i _ (ircRESTART (s.roll rnd) cl req).1
    simp only [ircRESTART, hop, Option.isNone_none, if_true]; exact hnp
  · show Reply i _ (ircREHASH (s.roll rnd) cl req).1
    simp only [ircREHASH, hop, Option.isNone_none, if_true]; exact hnp
  · show Reply i _ (ircCONNECT (s.roll rnd) cl req).1
    simp only [ircCONNECT]
    split
    · exact hnm
    · split
      · exact hnm
      · rw [if_pos (by simp [hty, hno, hasMode_false.2 hno])]; exact hnp
  · show Reply i _ (ircDISCONNECT (s.roll rnd) cl req).1
    simp only [ircDISCONNECT, hop, Option.isNone_none, if_true]; exact hnp
  · show Reply i _ (ircSQUIT (s.roll rnd) cl req).1
    simp only [ircSQUIT]
    rw [if_pos (by simp [hty, hno, hasMode_false.2 hno])]; exact hnp
  · show Reply i _ (ircXLINE .gline (s.roll rnd) cl req).1
    simp only [ircXLINE, hop, ite_self]
    split
    · exact hnm
    · exact hnp
  · show Reply i _ (ircXLINE .kline (s.roll rnd) cl req).1
    simp only [ircXLINE, hop, ite_self]
    split
    · exact hnm
    · exact hnp
  · show Reply i _ (ircKILL (s.roll rnd) cl req).1
    simp only [ircKILL]
    rw [if_pos (by simp [hty, hop])]; exact hnp
  · show Reply i _ (ircWALLOPS (s.roll rnd) cl req).1
    simp only [ircWALLOPS, hop, Option.isNone_none, if_true, hty', if_false]
    split
    · exact hnp
    · exact rp_refl _ _

example : ∃ req, Reachable Sample.s5 ∧ Received Sample.s5 6 "GLINE *!*@* 0 :all".toList 4 req ∧
    (∃ n ∈ adminCommands, Is req n) ∧ (Sample.s5.cl 4).type ≠ .server ∧ 'o' ∉ (Sample.s5.cl 4).modes :=
  ⟨⟨none, "GLINE".toList, ["*!*@*".toList, "0".toList, "all".toList]⟩, Sample.reach_s5,
    recv_sound (by decide +kernel), ⟨"GLINE", by decide, by simp only [Is]; decide⟩, by decide +kernel, by decide +kernel⟩

/-- The originator as the handlers determine it. -/
theorem opCheck_remote (ha : Asker s i cl req) (hty : (s.cl cl).type = .server)
    (hor : ∀ c, Originator s cl req c → c.type ≠ .server ∧ ¬ MayAdminister s c) :
    opCheck s cl req = none := by
  simp only [opCheck, hty, if_true]
  cases hp : req.prefix? with
  | none =>
    exfalso
    have := hor (s.cl cl) ⟨ha.mem, .inr ⟨by simp [hp], ha.ref⟩⟩
    exact this.1 hty
  | some p =>
    simp only
    cases hc : clientSearch s p with
    | none => simp
    | some c =>
      obtain ⟨h1, h2⟩ := hor c ⟨clientSearch_mem hc, .inl ⟨hty, p, hp, search_name hc⟩⟩
      simp only [h1, decide_true, decide_false, Bool.and_false, Bool.false_eq_true, if_false]
      cases hm : c.hasMode 'o' with
      | false => rfl
      | true =>
        simp only [Bool.not_true, Bool.false_eq_true, if_false]
        rw [if_pos]
        cases hco : c.conn with
        | none =>
          cases har : s.conf.allowRemoteOper with
          | false => rfl
          | true => exact absurd ⟨hasMode_iff.1 hm, .inr har⟩ h2
        | some j => exact absurd ⟨hasMode_iff.1 hm, .inl (by rw [hco]; simp)⟩ h2

/-- Case-insensitive originators of the sample's `zed`. -/
theorem zed_originator (req : Request) (hp : req.prefix? = some "zed".toList) :
    ∀ c, Originator Sample.s5 6 req c → c.type ≠ .server ∧ ¬ MayAdminister Sample.s5 c := by
  have hall : ∀ c ∈ Sample.s5.clients, caseEq c.id (nickPart "zed".toList) = true →
      c.type ≠ .server ∧ 'o' ∉ c.modes := by decide +kernel
  have hty : (Sample.s5.cl 6).type = .server := by decide +kernel
  rintro c ⟨hm, ⟨-, p, hq, hs⟩ | ⟨hn, -⟩⟩
  · rw [hp] at hq; injection hq with hq; subst hq
    obtain ⟨h1, h2⟩ := hall c hm ((caseEq_same _ _).2 hs)
    exact ⟨h1, fun h => h2 h.1⟩
  · exact absurd ⟨hty, by rw [hp]; rfl⟩ hn

/-- **C27** A user of another server who is no IRC operator, or any user of another server
unless remote operators are allowed, cannot shut down, restart or reconfigure the server,
disconnect links or set G-lines and K-lines here. -/
theorem C27_remote_users (h : Reachable s) (hr : Received s i l cl req)
    (hcmd : ∃ n ∈ ["DIE", "RESTART", "REHASH", "DISCONNECT", "SQUIT", "GLINE", "KLINE"], Is req n)
    (hty : (s.cl cl).type = .server)
    (hor : ∀ c, Originator s cl req c → c.type ≠ .server ∧ ¬ MayAdminister s c) (rnd : Int) :
    Answered i s (step s (.line i rnd l)) := by
  have hb := h.base
  have ha := hr.asker hb rnd
  have hop : opCheck (s.roll rnd) cl req = none := opCheck_remote ha hty hor
  have hty' : ((s.roll rnd).cl cl).type = .server := hty
  have hnp := rp_opNoPrivileges ha
  have hnm := rp_needMoreParams ha
  obtain ⟨n, hn, his⟩ := hcmd
  simp only [List.mem_cons, List.not_mem_nil, or_false] at hn
  rcases hn with rfl | rfl | rfl | rfl | rfl | rfl | rfl <;>
    rcases step_run hr hb rnd his rfl with ⟨hst, hal, -, -⟩ | h
  all_goals try exact h
  all_goals first
    | (rw [hty] at hal; exact absurd hal (by decide))
    | (rw [hst]; refine Reply.ans (r := rnd) ?_)
  · show Reply i _ (ircSQUIT (s.roll rnd) cl req).1
    simp only [ircSQUIT]
    rw [if_neg (by simp [hty])]
    simp only [squitFrom, hty', if_true]
    cases hp : req.prefix? with
    | none =>
      exfalso
      have := hor (s.cl cl) ⟨ha.mem, .inr ⟨by simp [hp], ha.ref⟩⟩
      exact this.1 hty
    | some p =>
      simp only
      obtain ⟨c, hc, -⟩ : ∃ c, clientSearch s p = some c ∧ True := by
        obtain ⟨k, req0, hk, hcl, hpq, hv⟩ := hr
        simp only [validatePrefix] at hv
        split at hv
        · rename_i hnone
          split at hv
          · cases hv
          · injection hv with hv; subst hv; rw [hnone] at hp; cases hp
        · rename_i q hq
          split at hv
          · injection hv with hv; subst hv; cases hp
          · split at hv
            · split at hv <;> cases hv
            · rename_i c hc
              split at hv
              · split at hv <;> cases hv
              · injection hv with hv; subst hv
                rw [hq] at hp; injection hp with hp; subst hp
                exact ⟨c, hc, trivial⟩
      obtain ⟨h1, h2⟩ := hor c ⟨clientSearch_mem hc, .inl ⟨hty, p, hp, search_name hc⟩⟩
      rw [roll_search, hc]
      simp only [hop, h1, ne_eq, not_false_eq_true, decide_true, Option.isNone_none, Bool.and_self, if_true]
      exact hnp
  · show Reply i _ (ircXLINE .gline (s.roll rnd) cl req).1
    simp only [ircXLINE, hop, ite_self]
    split
    · exact hnm
    · exact hnp
  · show Reply i _ (ircXLINE .kline (s.roll rnd) cl req).1
    simp only [ircXLINE, hop, ite_self]
    split
    · exact hnm
    · exact hnp

example : ∃ req, Reachable Sample.s5 ∧ Received Sample.s5 7 ":zed GLINE *!*@* 0 :all".toList 6 req ∧
    (∃ n ∈ ["DIE", "RESTART", "REHASH", "DISCONNECT", "SQUIT", "GLINE", "KLINE"], Is req n) ∧
    (Sample.s5.cl 6).type = .server ∧
    ∀ c, Originator Sample.s5 6 req c → c.type ≠ .server ∧ ¬ MayAdminister Sample.s5 c :=
  ⟨⟨some "zed".toList, "GLINE".toList, ["*!*@*".toList, "0".toList, "all".toList]⟩, Sample.reach_s5,
    recv_sound (by decide +kernel), ⟨"GLINE", by decide, by simp only [Is]; decide⟩, by decide +kernel,
    zed_originator _ rfl⟩

/-- **C27** The same for CONNECT, which may be passed on to another server but establishes no
link here. -/
theorem C27_remote_connect (h : Reachable s) (hr : Received s i l cl req) (his : Is req "CONNECT")
    (hty : (s.cl cl).type = .server)
    (hor : ∀ c, Originator s cl req c → c.type ≠ .server ∧ ¬ MayAdminister s c) (rnd : Int) :
    Unchanged s (step s (.line i rnd l)) := by
  have hb := h.base
  have ha := hr.asker hb rnd
  rcases step_run hr hb rnd his rfl with ⟨hst, hal, -, -⟩ | h
  · rw [hst]
    refine unch_roll (r := rnd) ?_
    show OnlyOutput _ (ircCONNECT (s.roll rnd) cl req).1
    have hty' : ((s.roll rnd).cl cl).type = .server := hty
    have hpre : ∃ p, req.prefix? = some p := by
      cases hp : req.prefix? with
      | some p => exact ⟨p, rfl⟩
      | none =>
        exfalso
        have := hor (s.cl cl) ⟨ha.mem, .inr ⟨by simp [hp], ha.ref⟩⟩
        exact this.1 hty
    obtain ⟨p, hp⟩ := hpre
    have hhere : ∀ f, clientSearch s p = some f → OnlyOutput (s.roll rnd) (connectHere (s.roll rnd) cl f.ref req).1 := by
      intro f hf
      have hfm := clientSearch_mem hf
      obtain ⟨h1, h2⟩ := hor f ⟨hfm, .inl ⟨hty, p, hp, search_name hf⟩⟩
      have hcf : (s.roll rnd).cl f.ref = f := cl_of_mem' hb.cl.ord hfm rfl
      have : opCheck (s.roll rnd) f.ref req = none := by
        simp only [opCheck, hcf, h1, if_false]
        simp only [decide_false, Bool.false_and, Bool.false_eq_true, if_false]
        cases hm : f.hasMode 'o' with
        | false => rfl
        | true =>
          simp only [Bool.not_true, Bool.false_eq_true, if_false]
          rw [if_pos]
          cases hco : f.conn with
          | none =>
            cases har : s.conf.allowRemoteOper with
            | false => simp [har]
            | true => exact absurd ⟨hasMode_iff.1 hm, .inr har⟩ h2
          | some j => exact absurd ⟨hasMode_iff.1 hm, .inl (by rw [hco]; simp)⟩ h2
      simp only [connectHere, this, Option.isNone_none, if_true]
      exact oo_opNoPrivileges _ _ _
    simp only [ircCONNECT]
    split
    · exact oo_needMoreParams _ _ _
    · split
      · exact oo_needMoreParams _ _ _
      · split
        · exact oo_opNoPrivileges _ _ _
        · split
          · simp only [hty', if_true, hp, roll_search]
            cases hc : clientSearch s p with
            | none => simp only [hc]; exact oo_writeErr _ _ _
            | some f =>
              simp only [hc]
              split
              · exact oo_writeErr _ _ _
              · split
                · exact oo_writeErr _ _ _
                · split
                  · exact oo_writePrefix _ _ _ _
                  · exact hhere f hc
          · simp only [connectHere, opCheck_remote ha hty hor, Option.isNone_none, if_true]
            exact oo_opNoPrivileges _ _ _
  · exact h.unch

example : ∃ req, Reachable Sample.s5 ∧ Received Sample.s5 7 ":zed CONNECT other.net".toList 6 req ∧
    Is req "CONNECT" ∧ (Sample.s5.cl 6).type = .server ∧
    ∀ c, Originator Sample.s5 6 req c → c.type ≠ .server ∧ ¬ MayAdminister Sample.s5 c :=
  ⟨⟨some "zed".toList, "CONNECT".toList, ["other.net".toList]⟩, Sample.reach_s5,
    recv_sound (by decide +kernel), by simp only [Is]; decide, by decide +kernel, zed_originator _ rfl⟩

end Ngircd
