import Verif.Lemmas.Calm

/-!
# Queries of clients go well
-/

set_option linter.unusedSimpArgs false

namespace Ngircd
open Spec

variable {s t u : Srv} {c d f p : Client} {cl : Nat} {req : Request} {m : Msg}

theorem calm_whoChannel (hc : Routed s c) {ch : Chan} {b : Bool} : Calm s (whoChannel s c ch b) := by
  simp only [whoChannel]; calm
theorem calm_whoMask (hc : Routed s c) {x : Option Str} {b : Bool} : Calm s (whoMask s c x b) := by
  simp only [whoMask]; calm

theorem calm_to {q : Prop} [Decidable q] (hc : Routed s c) (h : Calm s t) : Calm s (if q then write t c m else t) := by
  split
  · exact Calm.write hc h
  · exact h

theorem calm_whoisReply (hf : Routed s f) (hc : Routed s c) (h : Calm s t) : Calm s (whoisReply t c f d) := by
  unfold whoisReply
  extract_lets to s1 s2 chs s3 s4 s5 s6 s7 s8 s9 own s10 s11 s12
  have ht : ∀ (b : Bool) (m : Msg) (v : Srv), Calm s v → Calm s (to b m v) := fun _ _ _ h => calm_to hf h
  have h2 : Calm s s2 := Calm.write hf (Calm.write hf h)
  have h3 : Calm s s3 := by
    simp only [s3]
    split
    · split
      · exact h2
      · exact Calm.write hc h2
    · exact h2
  clear_value s3
  exact ht _ _ _ (ht _ _ _ (ht _ _ _ (ht _ _ _ (ht _ _ _ (ht _ _ _ (ht _ _ _ (ht _ _ _ (ht _ _ _ (ht _ _ _ h3)))))))))

theorem calm_whoisWild (hf : Routed s f) (hc : Routed s c) {q : Str} {l : List Client} {n : Nat} (h : Calm s t) : Calm s (whoisWild c f q l n t).1 := by
  induction l generalizing n t with
  | nil => exact h
  | cons x l ih =>
    simp only [whoisWild]
    split
    · exact Calm.write hc h
    · split
      · exact ih (calm_whoisReply hf hc h)
      · exact ih h

theorem calm_whoisLoop (hf : Routed s f) (hc : Routed s c) {a : Str} {l : List Str} {g : Bool} (h : Calm s t) : Calm s (whoisLoop c f a l g t) := by
  induction l generalizing g t with
  | nil => exact h
  | cons q l ih =>
    simp only [whoisLoop]
    split
    · refine ih ?_
      split
      · split
        · exact calm_whoisReply hf hc h
        · exact Calm.writeErr hc h
      · exact Calm.writeErr hc h
    · split
      · exact ih (Calm.writeErr hc h)
      · refine ih ?_
        have := calm_whoisWild hf hc (q := q) (l := t.clients) (n := 0) h
        split
        · exact Calm.writeErr hc this
        · exact this

theorem calm_whowasScan (hc : Routed s c) {q : Str} {last : Nat} {max : Int} {k i a b : Nat} (h : Calm s t) :
    Calm s (whowasScan c q last max k i a b t).1 := by
  induction k generalizing i a b t with
  | zero => exact h
  | succ k ih =>
    simp only [whowasScan]
    generalize (decide ((t.whowas.getD i {}).time > 0) && caseEq q (t.whowas.getD i {}).id) = hit
    have hw : Calm s (if hit = true then whowasWrite t c (t.whowas.getD i {}) else t) := by
      simp only [whowasWrite]; calm
    generalize (if hit = true then whowasWrite t c (t.whowas.getD i {}) else t) = s1 at hw
    generalize (if hit = true then a + 1 else a) = a1
    generalize (if hit = true then b + 1 else b) = b1
    split
    · exact hw
    · split
      · exact hw
      · exact ih hw

theorem calm_whowasLoop (hc : Routed s c) {last : Nat} {max : Int} {l : List Str} {i n : Nat} (h : Calm s t) :
    Calm s (whowasLoop c last max l i n t) := by
  induction l generalizing i n t with
  | nil => exact h
  | cons q l ih =>
    simp only [whowasLoop]
    have := calm_whowasScan hc (q := q) (last := last) (max := max) (k := 64) (i := i) (a := 0) (b := n) h
    refine ih ?_
    split
    · exact Calm.writeErr hc this
    · exact this

theorem calm_sendNAMES (hc : Routed s c) {ch : Chan} (h : Calm s t) : Calm s (sendNAMES t c ch) := by
  simp only [sendNAMES]; calm

theorem calm_namesHere (hc : Routed s (s.cl cl)) : Calm s (namesHere s cl req) := by
  simp only [namesHere]
  split
  · refine Calm.foldl (fun t n _ h => ?_) (Calm.refl _)
    apply Calm.write hc
    split
    · exact calm_sendNAMES hc h
    · exact h
  · have h2 : Calm s (s.chans.foldl (fun t ch => sendNAMES t (s.cl cl) ch) s) := Calm.foldl (fun t ch _ h => calm_sendNAMES hc h) (Calm.refl _)
    calm

theorem calm_sendLUSERS (hc : Routed s c) (h : Calm s t) : Calm s (sendLUSERS t c) := by
  simp only [sendLUSERS]; calm

theorem calm_showMOTD (hc : Routed s c) (h : Calm s t) : Calm s (showMOTD t c) := by
  simp only [showMOTD]; calm

theorem calm_listLoop (hc : Routed s c) {l : List Str} {n : Nat} (h : Calm s t) : Calm s (listLoop c l n t) := by
  induction l generalizing n t with
  | nil => exact h
  | cons p l ih =>
    simp only [listLoop]
    refine ih ?_
    calm

section
variable (hr : Ready s cl req)
include hr

theorem calm_ircWHO : Calm s (ircWHO s cl req).1 := by
  simp only [ircWHO]
  repeat' split
  all_goals first
    | exact calm_whoChannel hr.me
    | exact calm_whoMask hr.me

theorem calm_ircWHOIS : Calm s (ircWHOIS s cl req).1 := by
  have hme := hr.me
  unfold ircWHOIS
  split
  · exact Calm.writeErr hme (Calm.refl _)
  · split
    · exact hr.need
    · rw [hr.sender]
      simp only
      have hk := calm_whoisLoop hme hme (a := req.arg (req.argc - 1)) (l := (strtok (lowerStr (strlcpy COMMAND_LEN (req.arg (req.argc - 1)))) [',']).take 3) (g := false) (Calm.refl s)
      split
      · rename_i h
        split at h
        · rcases hr.target (n := 0) with ⟨r, h1, h2⟩ | ⟨t, h1, h2⟩
          · rw [h1] at h; cases h
          · rw [h1] at h; cases h; exact h2
        · cases h
      · rename_i r h
        split
        · rename_i hne
          split at h
          · rcases hr.target (n := 0) with ⟨r, h1, h2⟩ | ⟨t, h1, h2⟩
            · rw [h1] at h; cases h
              exact Calm.writePrefix (h2 hne) (Calm.refl _)
            · rw [h1] at h; cases h
          · cases h; exact absurd rfl hne
        · exact Calm.write (hme.way (hk.clw cl)) hk

theorem calm_ircWHOWAS : Calm s (ircWHOWAS s cl req).1 := by
  have hme := hr.me
  unfold ircWHOWAS
  split
  · exact Calm.writeErr hme (Calm.refl _)
  · split
    · exact hr.need
    · rw [hr.sender]
      simp only
      rcases hr.target (n := 2) with ⟨r, h1, h2⟩ | ⟨t, h1, h2⟩
      · rw [h1]
        simp only
        split
        · exact Calm.refl _
        · split
          · exact Calm.writePrefix (h2 ‹_›) (Calm.refl _)
          · have hk := calm_whowasLoop hme (last := s.lastWhowas.toNat) (max := whowasMax req) (l := strtok (strlcpy COMMAND_LEN (req.arg 0)) [','])
              (i := s.lastWhowas.toNat) (n := 0) (Calm.refl s)
            exact Calm.write (hme.way (hk.clw cl)) hk
      · rw [h1]; exact h2

theorem calm_ircNAMES : Calm s (ircNAMES s cl req).1 := hr.answer (calm_namesHere hr.me)
theorem calm_ircLUSERS : Calm s (ircLUSERS s cl req).1 := hr.answer (calm_sendLUSERS hr.me (Calm.refl _))
theorem calm_ircMOTD : Calm s (ircMOTD s cl req).1 := hr.answer (calm_showMOTD hr.me (Calm.refl _))

theorem calm_linksHere (hl : ∀ c ∈ s.clients, c.type = .server → linksTop s c ≠ none) {x : Str} : Calm s (linksHere s cl x) := by
  simp only [linksHere]
  apply Calm.write hr.me
  -- no server is missing: the lines are all written
  have : ∀ (l : List Client) (t : Srv), (∀ c ∈ l, c ∈ s.clients ∧ c.type = .server) → t.clients = s.clients ∧ t.this = s.this → Calm s t →
      Calm s (l.foldl (fun t c => match linksTop t c with
        | some x => write t (s.cl cl) ⟨"RPL_LINKS_MSG", [(s.cl cl).ID, c.ID, x.ID, intStr c.hops, c.info]⟩
        | none => t.crash) t) := by
    intro l
    induction l with
    | nil => intro t _ _ h; exact h
    | cons c l ih =>
      intro t hm ht h
      obtain ⟨h1, h2⟩ := hm c (List.mem_cons_self ..)
      have e : linksTop t c = linksTop s c := by
        simp only [linksTop, Srv.cl, Srv.cl?, ht.1, ht.2]
      rw [List.foldl_cons, e]
      cases hx : linksTop s c with
      | none => exact absurd hx (hl c h1 h2)
      | some x => exact ih _ (fun c hc => hm c (List.mem_cons_of_mem _ hc)) ht (Calm.write hr.me h)
  refine this _ s (fun c hc => ?_) ⟨rfl, rfl⟩ (Calm.refl _)
  have := List.mem_filter.1 hc
  simp only [Bool.and_eq_true, decide_eq_true_eq] at this
  exact ⟨this.1, this.2.1⟩

theorem calm_ircLINKS (hl : ∀ c ∈ s.clients, c.type = .server → linksTop s c ≠ none) : Calm s (ircLINKS s cl req).1 := by
  simp only [ircLINKS]
  split
  · exact hr.answer (calm_linksHere hr hl)
  · rw [hr.sender]
    exact calm_linksHere hr hl

theorem calm_ircSERVLIST : Calm s (ircSERVLIST s cl req).1 := by
  have hme := hr.me
  simp only [ircSERVLIST]
  apply Calm.write hme
  refine Calm.foldl (fun t a _ h => Calm.write hme h) (Calm.refl _)

theorem calm_format {n : String} {x : Str} (hx : '%' ∉ x) : Calm s (writeAsFormat s (s.cl cl) n x) := by
  unfold writeAsFormat
  rw [if_neg (by simpa [hasChar] using hx)]
  exact Calm.write hr.me (Calm.refl _)

theorem calm_ircADMIN : Calm s (ircADMIN s cl req).1 := by
  refine hr.answer (Calm.foldl (fun t a _ h => ?_) (Calm.refl _))
  exact Calm.write (hr.me.way (h.clw cl)) h

theorem calm_ircINFO : Calm s (ircINFO s cl req).1 := by
  refine hr.answer (Calm.foldl (fun t a _ h => ?_) (Calm.refl _))
  exact Calm.write (hr.me.way (h.clw cl)) h

theorem calm_ircTIME : Calm s (ircTIME s cl req).1 := hr.answer (Calm.write hr.me (Calm.refl _))

theorem calm_ircVERSION : Calm s (ircVERSION s cl req).1 := by
  have hme := hr.me
  refine hr.answer ?_
  simp only [sendISUPPORT]; calm

theorem calm_ircSUMMON : Calm s (ircSUMMON s cl req).1 := Calm.writeErr hr.me (Calm.refl _)
theorem calm_ircUSERS : Calm s (ircUSERS s cl req).1 := Calm.writeErr hr.me (Calm.refl _)

theorem calm_ircSTATS : Calm s (ircSTATS s cl req).1 := by
  have hme := hr.me
  have hnp := hr.noPriv
  refine hr.answer ?_
  simp only [statsHere]
  calm

theorem calm_ircTRACE (hc : (s.cl cl).conn.isSome) : Calm s (ircTRACE s cl req).1 := by
  have hme := hr.me
  unfold ircTRACE
  rw [hr.sender]
  simp only
  rcases hr.target (n := 0) with ⟨r, h1, h2⟩ | ⟨t, h1, h2⟩
  · rw [h1]
    simp only
    split
    · rename_i hne
      have h3 := h2 hne
      rw [if_neg]
      · exact Calm.writePrefix h3 (Calm.write hme (Calm.refl _))
      · have h4 : (nextHop s (s.cl r)).conn.isSome = true := h3
        simp only [Option.isNone_iff_eq_none, Bool.or_eq_true]
        rw [← Option.not_isSome_iff_eq_none, ← Option.not_isSome_iff_eq_none]
        simp [hc, h4]
    · have hk : Calm s (s.clients.foldl (fun s c => traceLine s (s.cl cl) c) s) := by
        refine Calm.foldl (fun t a _ h => ?_) (Calm.refl _)
        have hm := hme.way (h.clw cl)
        simp only [traceLine]
        calm
      exact Calm.write (hme.way (hk.clw cl)) hk
  · rw [h1]; exact h2

theorem calm_ircHELP : Calm s (ircHELP s cl req).1 := by
  have hme := hr.me
  simp only [ircHELP]
  split <;> calm

theorem calm_ircLIST : Calm s (ircLIST s cl req).1 := by
  have hme := hr.me
  unfold ircLIST
  rw [hr.sender]
  simp only
  have h : Calm s (write (listLoop (s.cl cl) (if req.argc > 0 then strtok (req.arg 0) [','] else [['*']]) 0
      (write s (s.cl cl) ⟨"RPL_LISTSTART_MSG", [(s.cl cl).ID]⟩)) (s.cl cl) ⟨"RPL_LISTEND_MSG", [(s.cl cl).ID]⟩) :=
    Calm.write hme (calm_listLoop hme (Calm.write hme (Calm.refl _)))
  calm
  exact hr.found ‹_› ‹_›

theorem calm_ircPING : Calm s (ircPING s cl req).1 := by
  have hme := hr.me
  unfold ircPING
  simp only [if_neg hr.ty, hr.sender]
  calm
  exact hr.found ‹_› ‹_›

end

end Ngircd
