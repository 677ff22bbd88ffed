import Verif.Lemmas.Output
import Verif.Model.Dispatch

/-!
# The query commands only produce output
-/

set_option linter.unusedSimpArgs false

namespace Ngircd
open Spec

variable {s t : Srv}

theorem oow {c : Client} {m : Msg} (h : OnlyOutput s t) : OnlyOutput s (write t c m) :=
  h.trans (oo_write _ _ _)
theorem oowe {c : Client} {m : Msg} (h : OnlyOutput s t) : OnlyOutput s (writeErr t c m) :=
  h.trans (oo_writeErr _ _ _)
theorem oowp {c p : Client} {m : Msg} (h : OnlyOutput s t) : OnlyOutput s (writePrefix t c p m) :=
  h.trans (oo_writePrefix _ _ _ _)
theorem oocr (h : OnlyOutput s t) : OnlyOutput s t.crash := h.trans (oo_crash _)
theorem ooite {c : Prop} [Decidable c] {a b : Srv} (ha : OnlyOutput s a) (hb : OnlyOutput s b) :
    OnlyOutput s (if c then a else b) := by split <;> assumption
theorem oofold {α : Type} {f : Srv → α → Srv} (hf : ∀ s a, OnlyOutput s (f s a)) {l : List α}
    (h : OnlyOutput s t) : OnlyOutput s (l.foldl f t) := h.trans (oo_foldl f hf l t)

theorem ooto {c : Prop} [Decidable c] {p : Client} {m : Msg} (h : OnlyOutput s t) :
    OnlyOutput s (if c then write t p m else t) := by
  split
  · exact oow h
  · exact h

theorem oo_refl (s : Srv) : OnlyOutput s s := .refl s

/-- Peel off output functions. -/
macro "oo" : tactic => `(tactic| repeat' first
  | exact oo_refl _
  | assumption
  | apply oow
  | apply oowe
  | apply oowp
  | apply oocr
  | exact oo_needMoreParams _ _ _
  | exact oo_opNoPrivileges _ _ _
  | exact oo_sendWallops _ _ _ _
  | apply ooto
  | apply ooite
  | (apply oofold; intros)
  | split
  | simp only [])

theorem oo_getSender {cl : Nat} {req : Request} {s' : Srv} (h : getSender s cl req = .err s') :
    OnlyOutput s s' := by
  simp only [getSender] at h
  split at h
  · split at h
    · injection h with h; rw [← h]; exact oo_needMoreParams _ _ _
    · split at h
      · injection h with h; rw [← h]; exact oo_writeErr _ _ _
      · cases h
  · cases h

theorem oo_getTarget {req : Request} {n f : Nat} {s' : Srv} (h : getTarget s req n f = .err s') :
    OnlyOutput s s' := by
  simp only [getTarget] at h
  split at h
  · split at h
    · injection h with h; rw [← h]; exact oo_writeErr _ _ _
    · cases h
  · cases h

theorem oo_answerHere {cl : Nat} {req : Request} {n : Nat} {fwd : Client → Msg} {k : Nat → Srv}
    (hk : ∀ f, OnlyOutput s (k f)) : OnlyOutput s (answerHere s cl req n fwd k).1 := by
  simp only [answerHere]
  split
  · exact oo_getSender ‹_›
  · split
    · exact oo_getTarget ‹_›
    · split
      · exact oo_writePrefix _ _ _ _
      · exact hk _

theorem oo_whoChannel (s : Srv) (c : Client) (ch : Chan) (b : Bool) : OnlyOutput s (whoChannel s c ch b) := by
  simp only [whoChannel]; oo
theorem oo_whoMask (s : Srv) (c : Client) (m : Option Str) (b : Bool) : OnlyOutput s (whoMask s c m b) := by
  simp only [whoMask]; oo
theorem oo_ircWHO (s : Srv) (cl : Nat) (req : Request) : OnlyOutput s (ircWHO s cl req).1 := by
  simp only [ircWHO]
  repeat' split
  all_goals first
    | exact oo_whoChannel _ _ _ _
    | exact oo_whoMask _ _ _ _

theorem oo_whoisReply (s : Srv) (a b c : Client) : OnlyOutput s (whoisReply s a b c) := by
  unfold whoisReply
  extract_lets to s1 s2 chs s3 s4 s5 s6 s7 s8 s9 own s10 s11 s12
  have ht : ∀ (b : Bool) (m : Msg) (u v : Srv), OnlyOutput u v → OnlyOutput u (to b m v) := fun _ _ _ _ h => ooto h
  have h2 : OnlyOutput s s2 := oow (oo_write _ _ _)
  have h3 : OnlyOutput s s3 := by
    simp only [s3]
    split
    · split
      · exact h2
      · exact oow h2
    · exact h2
  clear_value s3
  exact ht _ _ _ _ (ht _ _ _ _ (ht _ _ _ _ (ht _ _ _ _ (ht _ _ _ _ (ht _ _ _ _ (ht _ _ _ _ (ht _ _ _ _
    (ht _ _ _ _ (ht _ _ _ _ h3)))))))))

theorem oo_whoisWild (a b : Client) (q : Str) (l : List Client) (n : Nat) (s : Srv) :
    OnlyOutput s (whoisWild a b q l n s).1 := by
  induction l generalizing n s with
  | nil => exact oo_refl _
  | cons c l ih =>
    simp only [whoisWild]
    split
    · exact oo_write _ _ _
    · split
      · exact (oo_whoisReply _ _ _ _).trans (ih _ _)
      · exact ih _ _

theorem oo_whoisLoop (a b : Client) (arg : Str) (l : List Str) (g : Bool) (s : Srv) :
    OnlyOutput s (whoisLoop a b arg l g s) := by
  induction l generalizing g s with
  | nil => exact oo_refl _
  | cons q l ih =>
    simp only [whoisLoop]
    split
    · refine Spec.OnlyOutput.trans ?_ (ih _ _)
      split
      · split
        · exact oo_whoisReply _ _ _ _
        · exact oo_writeErr _ _ _
      · exact oo_writeErr _ _ _
    · split
      · exact (oo_writeErr _ _ _).trans (ih _ _)
      · refine Spec.OnlyOutput.trans ?_ (ih _ _)
        have := oo_whoisWild a b q s.clients 0 s
        split
        · exact oowe this
        · exact this

theorem oo_ircWHOIS (s : Srv) (cl : Nat) (req : Request) : OnlyOutput s (ircWHOIS s cl req).1 := by
  simp only [ircWHOIS]
  split
  · exact oo_writeErr _ _ _
  · split
    · exact oo_needMoreParams _ _ _
    · split
      · exact oo_getSender ‹_›
      · split
        · rename_i h
          split at h
          · exact oo_getTarget h
          · cases h
        · split
          · exact oo_writePrefix _ _ _ _
          · exact oow (oo_whoisLoop _ _ _ _ _ _)

theorem oo_whowasScan (p : Client) (n : Str) (last : Nat) (max : Int) (k i a b : Nat) (s : Srv) :
    OnlyOutput s (whowasScan p n last max k i a b s).1 := by
  induction k generalizing i a b s with
  | zero => exact oo_refl _
  | succ k ih =>
    simp only [whowasScan]
    generalize (decide ((s.whowas.getD i {}).time > 0) && caseEq n (s.whowas.getD i {}).id) = hit
    have hw : OnlyOutput s (if hit = true then whowasWrite s p (s.whowas.getD i {}) else s) := by
      simp only [whowasWrite]; oo
    generalize (if hit = true then whowasWrite s p (s.whowas.getD i {}) else s) = s1 at hw
    generalize (if hit = true then a + 1 else a) = a1
    generalize (if hit = true then b + 1 else b) = b1
    split
    · exact hw
    · split
      · exact hw
      · exact hw.trans (ih _ _ _ _)

theorem oo_whowasLoop (p : Client) (last : Nat) (max : Int) (l : List Str) (i n : Nat) (s : Srv) :
    OnlyOutput s (whowasLoop p last max l i n s) := by
  induction l generalizing i n s with
  | nil => exact oo_refl _
  | cons q l ih =>
    simp only [whowasLoop]
    have := oo_whowasScan p q last max 64 i 0 n s
    refine Spec.OnlyOutput.trans ?_ (ih _ _ _)
    split
    · exact oowe this
    · exact this

theorem oo_ircWHOWAS (s : Srv) (cl : Nat) (req : Request) : OnlyOutput s (ircWHOWAS s cl req).1 := by
  simp only [ircWHOWAS]
  split
  · exact oo_writeErr _ _ _
  · split
    · exact oo_needMoreParams _ _ _
    · split
      · exact oo_getSender ‹_›
      · split
        · exact oo_getTarget ‹_›
        · split
          · exact oo_refl _
          · split
            · exact oo_writePrefix _ _ _ _
            · exact oow (oo_whowasLoop _ _ _ _ _ _ _)

theorem oo_sendNAMES (s : Srv) (c : Client) (ch : Chan) : OnlyOutput s (sendNAMES s c ch) := by
  simp only [sendNAMES]; oo

theorem oo_namesHere (s : Srv) (f : Nat) (req : Request) : OnlyOutput s (namesHere s f req) := by
  simp only [namesHere]
  split
  · refine oo_foldl _ (fun s n => ?_) _ _
    apply oow
    split
    · exact oo_sendNAMES _ _ _
    · exact oo_refl _
  · have := oo_foldl (fun s ch => sendNAMES s (s.cl f) ch) (fun s ch => oo_sendNAMES s _ ch) s.chans s
    have h2 : OnlyOutput s (s.chans.foldl (fun t ch => sendNAMES t (s.cl f) ch) s) :=
      oo_foldl _ (fun t ch => oo_sendNAMES t _ ch) _ _
    oo

theorem oo_ircNAMES (s : Srv) (cl : Nat) (req : Request) : OnlyOutput s (ircNAMES s cl req).1 :=
  oo_answerHere (fun _ => oo_namesHere _ _ _)

theorem oo_linksHere (s : Srv) (f : Nat) (m : Str) : OnlyOutput s (linksHere s f m) := by
  simp only [linksHere]; oo

theorem oo_ircLINKS (s : Srv) (cl : Nat) (req : Request) : OnlyOutput s (ircLINKS s cl req).1 := by
  simp only [ircLINKS]
  split
  · exact oo_answerHere (fun _ => oo_linksHere _ _ _)
  · split
    · exact oo_getSender ‹_›
    · exact oo_linksHere _ _ _

theorem oo_sendLUSERS (s : Srv) (c : Client) : OnlyOutput s (sendLUSERS s c) := by
  simp only [sendLUSERS]; oo
theorem oo_ircLUSERS (s : Srv) (cl : Nat) (req : Request) : OnlyOutput s (ircLUSERS s cl req).1 :=
  oo_answerHere (fun _ => oo_sendLUSERS _ _)
theorem oo_showMOTD (s : Srv) (c : Client) : OnlyOutput s (showMOTD s c) := by
  simp only [showMOTD]; oo
theorem oo_ircMOTD (s : Srv) (cl : Nat) (req : Request) : OnlyOutput s (ircMOTD s cl req).1 :=
  oo_answerHere (fun _ => oo_showMOTD _ _)
theorem oo_ircSERVLIST (s : Srv) (cl : Nat) (req : Request) : OnlyOutput s (ircSERVLIST s cl req).1 := by
  simp only [ircSERVLIST]; oo
theorem oo_ircISON (s : Srv) (cl : Nat) (req : Request) : OnlyOutput s (ircISON s cl req).1 := by
  simp only [ircISON, writeAsFormat]; oo
theorem oo_ircUSERHOST (s : Srv) (cl : Nat) (req : Request) : OnlyOutput s (ircUSERHOST s cl req).1 := by
  simp only [ircUSERHOST, writeAsFormat]; oo
theorem oo_ircADMIN (s : Srv) (cl : Nat) (req : Request) : OnlyOutput s (ircADMIN s cl req).1 :=
  oo_answerHere (fun _ => oo_foldl _ (fun _ _ => oo_write _ _ _) _ _)
theorem oo_ircINFO (s : Srv) (cl : Nat) (req : Request) : OnlyOutput s (ircINFO s cl req).1 :=
  oo_answerHere (fun _ => oo_foldl _ (fun _ _ => oo_write _ _ _) _ _)
theorem oo_ircTIME (s : Srv) (cl : Nat) (req : Request) : OnlyOutput s (ircTIME s cl req).1 :=
  oo_answerHere (fun _ => by oo)
theorem oo_ircVERSION (s : Srv) (cl : Nat) (req : Request) : OnlyOutput s (ircVERSION s cl req).1 :=
  oo_answerHere (fun _ => by simp only [sendISUPPORT]; oo)
theorem oo_ircSUMMON (s : Srv) (cl : Nat) (req : Request) : OnlyOutput s (ircSUMMON s cl req).1 :=
  oo_writeErr _ _ _
theorem oo_ircUSERS (s : Srv) (cl : Nat) (req : Request) : OnlyOutput s (ircUSERS s cl req).1 :=
  oo_writeErr _ _ _
theorem oo_ircSTATS (s : Srv) (cl : Nat) (req : Request) : OnlyOutput s (ircSTATS s cl req).1 :=
  oo_answerHere (fun _ => by simp only [statsHere]; oo)

theorem oo_ircTRACE (s : Srv) (cl : Nat) (req : Request) : OnlyOutput s (ircTRACE s cl req).1 := by
  simp only [ircTRACE]
  split
  · exact oo_getSender ‹_›
  · split
    · exact oo_getTarget ‹_›
    · simp only [traceLine]; oo

theorem oo_ircHELP (s : Srv) (cl : Nat) (req : Request) : OnlyOutput s (ircHELP s cl req).1 := by
  simp only [ircHELP]; oo

theorem oo_listLoop (f : Client) (l : List Str) (n : Nat) (s : Srv) : OnlyOutput s (listLoop f l n s) := by
  induction l generalizing n s with
  | nil => exact oo_refl _
  | cons p l ih =>
    simp only [listLoop]
    refine Spec.OnlyOutput.trans ?_ (ih _ _)
    oo

theorem oo_ircLIST (s : Srv) (cl : Nat) (req : Request) : OnlyOutput s (ircLIST s cl req).1 := by
  simp only [ircLIST]
  split
  · exact oo_getSender ‹_›
  · rename_i f _
    have h : OnlyOutput s (write (listLoop (s.cl f) (if req.argc > 0 then strtok (req.arg 0) [','] else [['*']]) 0
        (write s (s.cl f) ⟨"RPL_LISTSTART_MSG", [(s.cl f).ID]⟩)) (s.cl f) ⟨"RPL_LISTEND_MSG", [(s.cl f).ID]⟩) :=
      oow ((oo_write _ _ _).trans (oo_listLoop _ _ _ _))
    oo

theorem oo_ircPING (s : Srv) (cl : Nat) (req : Request) : OnlyOutput s (ircPING s cl req).1 := by
  simp only [ircPING]
  repeat' split
  all_goals first
    | exact oo_writeErr _ _ _
    | exact oo_write _ _ _
    | exact oo_writePrefix _ _ _ _
    | exact oo_getSender ‹_›

theorem oo_ircWALLOPS (s : Srv) (cl : Nat) (req : Request) : OnlyOutput s (ircWALLOPS s cl req).1 := by
  simp only [ircWALLOPS]; oo

end Ngircd
