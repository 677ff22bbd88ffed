import Verif.Lemmas.CalmLogin2
import Verif.Lemmas.CalmQuery
import Verif.Lemmas.CalmMode

/-!
# Commands of IRC operators that cause no invalid access
-/

set_option linter.unusedSimpArgs false
set_option linter.unusedSectionVars false

namespace Ngircd
open Spec

variable {s t u : Srv} {c d f p : Client} {cl i : Nat} {req : Request} {m : Msg}

theorem opCheck_none (hty : (s.cl cl).type ≠ .server) (hno : 'o' ∉ (s.cl cl).modes) :
    opCheck s cl req = none := by
  simp only [opCheck, hty, if_false]
  simp only [decide_false, Bool.false_and, Bool.false_eq_true, if_false]
  have : (s.cl cl).hasMode 'o' = false := by simpa [Client.hasMode, hasChar] using hno
  rw [this]
  rfl

theorem mem_trimLast {x : Str} {a b : Char} (h : a ∈ trimLastChr x b) : a ∈ x := by
  unfold trimLastChr at h
  split at h
  · exact h
  · split at h
    · exact (List.dropLast_prefix x).subset h
    · exact h

/-- What the commands of operators rely on. -/
structure Wide (s : Srv) (cl : Nat) : Prop where
  ref : (s.cl cl).ref = cl
  opens : ∀ c ∈ s.clients, ∀ i, c.conn = some i → (s.conn? i).isSome = true
  hop : ∀ c ∈ s.clients, c.ref ≠ s.this → Routed s (nextHop s c)
  owned : ∀ k ∈ s.conns, Routed s (s.cl k.client)
  links : ∀ p ∈ s.srvConn, (s.conn? p.2).isSome = true

section
variable (hr : Ready s cl req) (hw : Wide s cl)
include hr hw

theorem calm_ircDIE : Calm s (ircDIE s cl req).1 := by
  unfold ircDIE
  split
  · exact hr.noPriv
  · refine Calm.trans (t := if req.argc > 0 then s.conns.foldl (fun s k => if (s.cl k.client).type = .user then
          write s (s.cl k.client) ⟨"NOTICE", [(s.cl k.client).ID, req.arg 0]⟩ else s) s else s) ?_ (.of_eq rfl rfl rfl)
    refine .ite (fun _ => Calm.foldl (fun t k hk h => ?_) (.refl _)) (fun _ => .refl _)
    refine .ite (fun _ => Calm.write ((hw.owned k hk).way (h.clw _)) h) (fun _ => h)

theorem calm_ircREHASH : Calm s (ircREHASH s cl req).1 := by
  unfold ircREHASH
  split
  · exact hr.noPriv
  · exact Calm.trans (Calm.write hr.me (.refl _)) (.of_eq rfl rfl rfl)

theorem calm_ircRESTART : Calm s (ircRESTART s cl req).1 := by
  unfold ircRESTART
  split
  · exact hr.noPriv
  · exact .of_eq rfl rfl rfl

theorem calm_connectDo : Calm s (connectDo s req).1 := by
  unfold connectDo
  repeat' split
  all_goals exact .of_eq rfl rfl rfl

theorem calm_connectHere : Calm s (connectHere s cl cl req).1 := by
  have h := calm_connectDo hr hw
  unfold connectHere
  split
  · exact hr.noPriv
  · split
    · rename_i v e
      rw [e] at h
      exact h.trans (Calm.writeErr (h.toMild.routed (h.clw cl) hr.me) (.refl _))
    · rename_i v e
      rw [e] at h
      exact h.trans (Calm.sendWallops (.refl _))

theorem calm_ircCONNECT : Calm s (ircCONNECT s cl req).1 := by
  have hme := hr.me
  have hnd := hr.need
  have hnp := hr.noPriv
  have hhr := calm_connectHere hr hw
  unfold ircCONNECT
  simp only [if_neg hr.ty]
  split
  · exact hnd
  split
  · exact hnd
  split
  · exact hnp
  split
  · split
    · exact Calm.writeErr hme (.refl _)
    · rename_i x e
      split
      · exact Calm.writeErr hme (.refl _)
      · split
        · rename_i hne
          exact Calm.writePrefix (hr.found e hne) (.refl _)
        · rw [hw.ref]; exact hhr
  · exact hhr

theorem fine_ircDISCONNECT (hf : s.fault = false) : (ircDISCONNECT s cl req).1.fault = false := by
  have hme := hr.me
  unfold ircDISCONNECT
  split
  · exact hr.noPriv.ok hf
  · have h := Calm.sendWallops (Calm.refl s) (a := s.this) (p := s.cl s.this) (x := "Received DISCONNECT ".toList ++ req.arg 0 ++ " from ".toList ++ (s.cl cl).ID)
    have hl : (sendWallops s s.this (s.cl s.this) ("Received DISCONNECT ".toList ++ req.arg 0 ++ " from ".toList ++ (s.cl cl).ID)).srvConn = s.srvConn := rfl
    have hk : ∀ j, (sendWallops s s.this (s.cl s.this) ("Received DISCONNECT ".toList ++ req.arg 0 ++ " from ".toList ++ (s.cl cl).ID)).conn? j = s.conn? j := fun _ => rfl
    generalize sendWallops s s.this (s.cl s.this) ("Received DISCONNECT ".toList ++ req.arg 0 ++ " from ".toList ++ (s.cl cl).ID) = v at h hl hk
    simp only
    split
    · exact (h.trans (Calm.writeErr (h.routed (h.clw cl) hme) (.refl _))).ok hf
    · simp only
      split
      · rename_i e
        have hp := hw.links _ (by rw [← hl]; exact List.mem_of_find?_eq_some e)
        exact (fault_connClose (by rw [← hk] at hp; exact hp)).trans (h.ok hf)
      · exact h.ok hf

theorem calm_ircWALLOPS : Calm s (ircWALLOPS s cl req).1 := by
  unfold ircWALLOPS
  simp only [if_neg hr.ty]
  split
  · split
    · exact hr.noPriv
    · exact Calm.sendWallops (.refl _)
  · exact .refl _

theorem calm_ircXLINE {k : LineClass} (ha : req.argc ≠ 3 ∨ 'o' ∉ (s.cl cl).modes) : Calm s (ircXLINE k s cl req).1 := by
  unfold ircXLINE
  split
  · exact hr.need
  · rename_i h1
    simp only
    split
    · exact hr.noPriv
    · rename_i g hg
      have h2 : req.argc = 1 := by
        rcases ha with ha | ha
        · revert h1; rw [Bool.and_eq_true, decide_eq_true_eq, decide_eq_true_eq]; omega
        · exfalso
          have hx := opCheck_none (s := s) (cl := cl) (req := req) hr.ty ha
          rw [hx, ite_self] at hg
          cases hg
      unfold xlineDo
      simp only [if_pos h2]
      have hs : Calm s (s.setLine k (listsDel (s.line k) (listsMakeMask (req.arg 0) MASK_LEN))) := by
        cases k <;> exact .of_eq rfl rfl rfl
      exact .ite (fun _ => Calm.writeServers hs) (fun _ => hs)

theorem fine_killClient (hf : s.fault = false) {o : Option Nat} {n x : Str} : (killClient s (some cl) o n x).1.fault = false := by
  unfold killClient
  split
  · exact hf
  · rename_i d hd
    have hm : d ∈ s.clients := List.mem_of_find?_eq_some hd
    simp only
    split
    · exact (Calm.writeErr hr.me (.refl _)).ok hf
    · simp only
      split
      · rename_i j hj
        refine (fault_connClose ?_).trans hf
        exact hw.opens d hm j hj
      · rw [clientDestroy, fault_destroyF]
        exact hf

theorem fine_ircKILL (hf : s.fault = false) : (ircKILL s cl req).1.fault = false := by
  unfold ircKILL
  simp only
  split
  · exact hr.noPriv.ok hf
  · exact fine_killClient hr hw hf

theorem fine_ircSQUIT (hf : s.fault = false) : (ircSQUIT s cl req).1.fault = false := by
  unfold ircSQUIT
  split
  · exact hr.noPriv.ok hf
  · have hfm : squitFrom s cl req = some (some (s.cl cl)) := by
      unfold squitFrom
      exact if_neg hr.ty
    rw [hfm]
    simp only
    unfold squitDo
    split
    · exact hf
    · rename_i d hd
      have hm : d ∈ s.clients := List.mem_of_find?_eq_some hd
      split
      · exact hr.noPriv.ok hf
      · rename_i hth
        simp only
        split
        · rename_i j hj
          have ho := hw.opens d hm j hj
          exact (fault_connClose (s := sendWallops s s.this (s.cl s.this) ("Received SQUIT ".toList ++ req.arg 0 ++ " from ".toList ++ (s.cl cl).ID)) ho).trans hf
        · rw [if_pos hr.ty]
          refine (Calm.writePrefix (hw.hop d hm ?_) (.refl _)).ok hf
          intro e
          exact hth (by rw [Bool.and_eq_true, decide_eq_true_eq, decide_eq_true_eq]; exact ⟨hr.ty, e⟩)

omit hw in
theorem calm_ircISON (hn : ∀ c ∈ s.clients, c.type = .user → '%' ∉ c.ID) : Calm s (ircISON s cl req).1 := by
  unfold ircISON
  refine calm_format hr ?_
  intro h
  have h := mem_trimLast h
  have h := mem_strlcpy h
  obtain ⟨x, hx, h⟩ := List.mem_flatten.1 h
  obtain ⟨n, -, e⟩ := List.mem_filterMap.1 hx
  cases hc : clientSearch s n with
  | none => rw [hc] at e; cases e
  | some c =>
    rw [hc, Option.bind_some] at e
    split at e
    · rename_i hu
      injection e with e
      rw [← e] at h
      rcases List.mem_append.1 h with h | h
      · exact hn c (List.mem_of_find?_eq_some hc) hu h
      · exact absurd h (by decide)
    · cases e

omit hw in
theorem calm_ircUSERHOST (hn : ∀ c ∈ s.clients, c.type = .user → '%' ∉ c.ID ∧ '%' ∉ c.User ∧ '%' ∉ displayedHost s c) :
    Calm s (ircUSERHOST s cl req).1 := by
  unfold ircUSERHOST
  refine calm_format hr ?_
  intro h
  have h := mem_trimLast h
  have h := mem_strlcpy h
  obtain ⟨x, hx, h⟩ := List.mem_flatten.1 h
  obtain ⟨n, -, e⟩ := List.mem_filterMap.1 hx
  cases hc : clientSearch s n with
  | none => rw [hc] at e; cases e
  | some c =>
    rw [hc, Option.bind_some] at e
    split at e
    · rename_i hu
      injection e with e
      rw [← e] at h
      obtain ⟨g1, g2, g3⟩ := hn c (List.mem_of_find?_eq_some hc) hu
      unfold userhostEntry at h
      simp only [List.mem_append] at h
      rcases h with ((((((h | h) | h) | h) | h) | h) | h) | h
      · exact g1 h
      · split at h <;> exact absurd h (by decide)
      · exact absurd h (by decide)
      · split at h <;> exact absurd h (by decide)
      · exact g2 h
      · exact absurd h (by decide)
      · exact g3 h
      · exact absurd h (by decide)
    · cases e

end

end Ngircd
