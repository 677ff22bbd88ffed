import Verif.Model.ConnRead
import Verif.Spec.Lines

namespace Ngircd
open Spec

/-- No CR and no LF. -/
def NoEol (l : Str) : Prop := ∀ c ∈ l, isEol c = false

theorem noEol_nil : NoEol [] := by simp [NoEol]
theorem noEol_cons {c : Char} {l : Str} : NoEol (c :: l) ↔ isEol c = false ∧ NoEol l := by
  simp [NoEol]
theorem noEol_append {a b : Str} : NoEol (a ++ b) ↔ NoEol a ∧ NoEol b := by
  simp only [NoEol, List.mem_append]
  exact ⟨fun h => ⟨fun c hc => h c (Or.inl hc), fun c hc => h c (Or.inr hc)⟩,
    fun h c hc => hc.elim (h.1 c) (h.2 c)⟩

theorem isEol_cr : isEol '\r' = true := rfl
theorem isEol_lf : isEol '\n' = true := rfl

/-! ## idx -/

theorem idx_some {s : Str} {x : Char} {n : Nat} (h : idx s x = some n) :
    ∃ l r, s = l ++ x :: r ∧ x ∉ l ∧ n = l.length := by
  induction s generalizing n with
  | nil => simp [idx] at h
  | cons c cs ih =>
    simp only [idx] at h
    split at h
    · rename_i hc
      simp at hc h
      exact ⟨[], cs, by simp [hc], by simp, by simp [← h]⟩
    · rename_i hc
      simp at hc
      rw [Option.map_eq_some_iff] at h
      obtain ⟨m, hm, rfl⟩ := h
      obtain ⟨l, r, e, hx, rfl⟩ := ih hm
      exact ⟨c :: l, r, by simp [e], by simp [hx, Ne.symm hc], by simp⟩

theorem idx_none {s : Str} {x : Char} : idx s x = none ↔ x ∉ s := by
  induction s with
  | nil => simp [idx]
  | cons c cs ih =>
    simp only [idx]
    split
    · rename_i hc; simp at hc; simp [hc]
    · rename_i hc
      simp at hc
      rw [Option.map_eq_none_iff, ih]
      simp [Ne.symm hc]

theorem idxCrLf_some {s : Str} {n : Nat} (h : idxCrLf s = some n) :
    ∃ l r, s = l ++ '\r' :: '\n' :: r ∧ n = l.length := by
  induction s generalizing n with
  | nil => simp [idxCrLf] at h
  | cons a cs ih =>
    cases cs with
    | nil => simp [idxCrLf] at h
    | cons b cs =>
      simp only [idxCrLf] at h
      split at h
      · rename_i hc
        simp at hc h
        exact ⟨[], cs, by simp [hc], by simp [← h]⟩
      · rw [Option.map_eq_some_iff] at h
        obtain ⟨m, hm, rfl⟩ := h
        obtain ⟨l, r, e, rfl⟩ := ih hm
        exact ⟨a :: l, r, by simp [e], by simp⟩

/-- Two decompositions at a first occurrence. -/
theorem first_split_le {s l r : Str} {x : Char} (h : s = l ++ x :: r)
    {n : Nat} (hi : idx s x = some n) : n ≤ l.length := by
  obtain ⟨l', r', e, hx, rfl⟩ := idx_some hi
  rw [h] at e
  rcases List.append_eq_append_iff.1 e with ⟨u, h1, h2⟩ | ⟨u, h1, h2⟩
  · cases u with
    | nil => have := congrArg List.length h1; simp at this; omega
    | cons y u =>
      simp at h2
      exact absurd (by rw [h1, h2.1]; simp) hx
  · rw [h1]; simp

/-- The search result, in terms of a decomposition of the text before the first NUL. -/
def EolAt (s : Str) (p d : Nat) : Prop :=
  ∃ l c rest, s = l ++ c :: rest ∧ NoEol l ∧ isEol c = true ∧ p = l.length ∧
    (d = 1 ∨ (d = 2 ∧ c = '\r' ∧ ∃ r', rest = '\n' :: r'))

theorem noEol_of_not_mem {l : Str} (h1 : '\r' ∉ l) (h2 : '\n' ∉ l) : NoEol l := by
  intro c hc
  simp only [isEol, Bool.or_eq_false_iff, beq_eq_false_iff_ne]
  exact ⟨fun e => h1 (e ▸ hc), fun e => h2 (e ▸ hc)⟩

theorem not_mem_of_noEol {l : Str} (h : NoEol l) : '\r' ∉ l ∧ '\n' ∉ l :=
  ⟨fun hc => by have := h _ hc; simp [isEol] at this, fun hc => by have := h _ hc; simp [isEol] at this⟩

/-- From the positions of the first CR and the first LF to the first line end. -/
theorem eol_of_min {s : Str} {a b : Nat} (h1 : idx s '\r' = some a) (h2 : idx s '\n' = some b) :
    ∃ l c rest, s = l ++ c :: rest ∧ NoEol l ∧ isEol c = true ∧ (if a < b then a else b) = l.length ∧
      (a < b → c = '\r') ∧ (b < a → c = '\n') := by
  obtain ⟨l1, r1, e1, n1, rfl⟩ := idx_some h1
  obtain ⟨l2, r2, e2, n2, rfl⟩ := idx_some h2
  have hlen : l1.length ≠ l2.length := by
    intro h
    rw [e1] at e2
    have := List.append_inj e2 h
    simp at this
  split
  · rename_i hlt
    refine ⟨l1, '\r', r1, e1, noEol_of_not_mem n1 ?_, rfl, rfl, fun _ => rfl, fun h => by omega⟩
    intro hm
    have : idx s '\n' ≠ none := by rw [h2]; simp
    -- `\n` inside l1 would be an earlier occurrence
    obtain ⟨u, v, hu⟩ := List.append_of_mem hm
    have := first_split_le (s := s) (l := u) (r := v ++ '\r' :: r1) (x := '\n') (by rw [e1, hu]; simp) h2
    have hl : l1.length = u.length + (v.length + 1) := by rw [hu]; simp
    omega
  · rename_i hlt
    refine ⟨l2, '\n', r2, e2, noEol_of_not_mem ?_ n2, rfl, rfl, fun h => by omega, fun _ => rfl⟩
    intro hm
    obtain ⟨u, v, hu⟩ := List.append_of_mem hm
    have := first_split_le (s := s) (l := u) (r := v ++ '\n' :: r2) (x := '\r') (by rw [e2, hu]; simp) h1
    have hl : l2.length = u.length + (v.length + 1) := by rw [hu]; simp
    omega

theorem findEol_some {rbuf : Str} {p d : Nat} (h : findEol rbuf = some (p, d)) :
    EolAt (rbuf.takeWhile (fun c => c != '\x00')) p d := by
  unfold findEol at h
  generalize hs : rbuf.takeWhile (fun c => c != '\x00') = s at h
  simp only at h
  cases hp : idxCrLf s with
  | some q =>
    obtain ⟨l, r, e, rfl⟩ := idxCrLf_some hp
    simp only [hp] at h
    have hcr : idx s '\r' ≠ none := by rw [Ne, idx_none]; rw [e]; simp
    have hlf : idx s '\n' ≠ none := by rw [Ne, idx_none]; rw [e]; simp
    obtain ⟨a, ha⟩ := Option.ne_none_iff_exists'.1 hcr
    obtain ⟨b, hb⟩ := Option.ne_none_iff_exists'.1 hlf
    simp only [ha, hb] at h
    obtain ⟨l0, c0, r0, e0, hn0, hc0, hl0, hx1, hx2⟩ := eol_of_min ha hb
    have hal : a ≤ l.length := first_split_le e ha
    by_cases hnl : (if a < b then a else b) < l.length
    · rw [if_pos hnl] at h
      simp only [Option.some.injEq, Prod.mk.injEq] at h
      obtain ⟨rfl, rfl⟩ := h
      exact ⟨l0, c0, r0, e0, hn0, hc0, hl0, Or.inl rfl⟩
    · rw [if_neg hnl] at h
      simp only [Option.some.injEq, Prod.mk.injEq] at h
      obtain ⟨rfl, rfl⟩ := h
      have hle : l0.length = l.length := by
        have hle2 : (if a < b then a else b) ≤ a := by split <;> omega
        omega
      have := List.append_inj (e0.symm.trans e) hle
      obtain ⟨rfl, h2⟩ := this
      simp at h2
      exact ⟨l0, c0, r0, e0, hn0, hc0, rfl, Or.inr ⟨rfl, h2.1, r, h2.2⟩⟩
  | none =>
    simp only [hp] at h
    cases ha : idx s '\r' with
    | some a =>
      cases hb : idx s '\n' with
      | some b =>
        simp only [ha, hb] at h
        simp at h
        obtain ⟨rfl, rfl⟩ := h
        obtain ⟨l0, c0, r0, e0, hn0, hc0, hl0, _, _⟩ := eol_of_min ha hb
        exact ⟨l0, c0, r0, e0, hn0, hc0, hl0, Or.inl rfl⟩
      | none =>
        simp only [ha, hb] at h
        simp at h
        obtain ⟨rfl, rfl⟩ := h
        obtain ⟨l, r, e, hn, rfl⟩ := idx_some ha
        rw [idx_none] at hb
        refine ⟨l, '\r', r, e, noEol_of_not_mem hn ?_, rfl, rfl, Or.inl rfl⟩
        intro hm; exact hb (by rw [e]; simp [hm])
    | none =>
      cases hb : idx s '\n' with
      | some b =>
        simp only [ha, hb] at h
        simp at h
        obtain ⟨rfl, rfl⟩ := h
        obtain ⟨l, r, e, hn, rfl⟩ := idx_some hb
        rw [idx_none] at ha
        refine ⟨l, '\n', r, e, noEol_of_not_mem ?_ hn, rfl, rfl, Or.inl rfl⟩
        intro hm; exact ha (by rw [e]; simp [hm])
      | none => simp only [ha, hb] at h; simp at h

theorem findEol_none {rbuf : Str} (h : findEol rbuf = none) :
    NoEol (rbuf.takeWhile (fun c => c != '\x00')) := by
  unfold findEol at h
  generalize hs : rbuf.takeWhile (fun c => c != '\x00') = s at h
  simp only at h
  cases hp : idxCrLf s with
  | some q =>
    simp only [hp] at h
    exfalso
    cases ha : idx s '\r' <;> cases hb : idx s '\n' <;> simp only [ha, hb] at h <;>
      try (simp at h; done)
    rename_i a b
    by_cases hnl : (if a < b then a else b) < q
    · rw [if_pos hnl] at h; simp at h
    · rw [if_neg hnl] at h; simp at h
  | none =>
    simp only [hp] at h
    cases ha : idx s '\r' with
    | some a => cases hb : idx s '\n' <;> simp only [ha, hb] at h <;> simp at h
    | none =>
      cases hb : idx s '\n' with
      | some b => simp only [ha, hb] at h; simp at h
      | none =>
        rw [idx_none] at ha hb
        exact noEol_of_not_mem ha hb

/-- If the text before the first NUL has no line end, nothing is found. -/
theorem findEol_eq_none {rbuf : Str} (h : NoEol (rbuf.takeWhile (fun c => c != '\x00'))) :
    findEol rbuf = none := by
  cases hf : findEol rbuf with
  | none => rfl
  | some x =>
    obtain ⟨l, c, r, e, _, hc, _⟩ := findEol_some (p := x.1) (d := x.2) hf
    have := h c (by rw [e]; simp)
    rw [hc] at this; simp at this

/-- The full decomposition of the buffer. -/
theorem findEol_split {rbuf : Str} {p d : Nat} (h : findEol rbuf = some (p, d)) :
    ∃ l c rest, rbuf = l ++ c :: rest ∧ NoEol l ∧ '\x00' ∉ l ∧ isEol c = true ∧ p = l.length ∧
      ((d = 1) ∨ (d = 2 ∧ c = '\r' ∧ ∃ r', rest = '\n' :: r')) := by
  obtain ⟨l, c, r, e, hn, hc, hp, hd⟩ := findEol_some h
  have hsplit : rbuf = rbuf.takeWhile (fun c => c != '\x00') ++ rbuf.dropWhile (fun c => c != '\x00') := by simp
  have hnul : '\x00' ∉ l := by
    intro hm
    have : ('\x00' : Char) ∈ rbuf.takeWhile (fun c => c != '\x00') := by rw [e]; simp [hm]
    have h2 := List.all_eq_true.1 (List.all_takeWhile (l := rbuf) (p := fun c => c != '\x00')) _ this
    simp at h2
  rw [e] at hsplit
  refine ⟨l, c, r ++ rbuf.dropWhile (fun c => c != '\x00'), by simpa using hsplit, hn, hnul, hc, hp, ?_⟩
  rcases hd with h | ⟨h1, h2, r', h3⟩
  · exact Or.inl h
  · exact Or.inr ⟨h1, h2, r' ++ _, by rw [h3]; rfl⟩

/-! ## lines -/

theorem linesFrom_noEol (cur l : Str) (h : NoEol l) : linesFrom cur l = [] := by
  induction l generalizing cur with
  | nil => rfl
  | cons c l ih =>
    rw [noEol_cons] at h
    simp [linesFrom, h.1, ih _ h.2]

theorem linesFrom_line (cur l rest : Str) (c : Char) (hl : NoEol l) (hc : isEol c = true) :
    linesFrom cur (l ++ c :: rest) =
      (if cur = [] ∧ l = [] then [] else [cur.reverse ++ l]) ++ linesFrom [] rest := by
  induction l generalizing cur with
  | nil => simp [linesFrom, hc]; split <;> simp
  | cons d l ih =>
    rw [noEol_cons] at hl
    simp [linesFrom, hl.1, ih (d :: cur) hl.2]

theorem lines_line (l rest : Str) (c : Char) (hl : NoEol l) (hc : isEol c = true) :
    lines (l ++ c :: rest) = (if l = [] then [] else [l]) ++ lines rest := by
  have := linesFrom_line [] l rest c hl hc
  simpa [lines] using this

/-- A stream that is empty or ends with a line end. -/
def Complete (s : Str) : Prop := s = [] ∨ ∃ q c, s = q ++ [c] ∧ isEol c = true

theorem linesFrom_complete (cur a b : Str) (h : a ≠ [] ∧ Complete a) :
    linesFrom cur (a ++ b) = linesFrom cur a ++ linesFrom [] b := by
  induction a generalizing cur with
  | nil => exact absurd rfl h.1
  | cons c a ih =>
    by_cases ha : a = []
    · subst ha
      have hc : isEol c = true := by
        rcases h.2 with h | ⟨q, d, e, hd⟩
        · simp at h
        · rcases q with _ | ⟨x, q⟩
          · simp at e; rw [e]; exact hd
          · simp at e
      simp only [linesFrom, List.cons_append, List.nil_append, hc, if_true]
      split <;> simp
    · have hca : Complete a := by
        rcases h.2 with h | ⟨q, d, e, hd⟩
        · simp at h
        · rcases q with _ | ⟨x, q⟩
          · simp at e; exact absurd e.2 ha
          · simp at e; exact Or.inr ⟨q, d, e.2, hd⟩
      simp only [linesFrom, List.cons_append]
      split
      · split
        · exact ih _ ⟨ha, hca⟩
        · rw [ih _ ⟨ha, hca⟩]; rfl
      · exact ih _ ⟨ha, hca⟩

theorem lines_complete_append (a b : Str) (h : Complete a) : lines (a ++ b) = lines a ++ lines b := by
  by_cases ha : a = []
  · subst ha; rfl
  · exact linesFrom_complete [] a b ⟨ha, h⟩

theorem complete_append_line {a l : Str} {c : Char} (hc : isEol c = true) : Complete (a ++ l ++ [c]) :=
  Or.inr ⟨a ++ l, c, rfl, hc⟩

/-! ## The loop -/

/-- The buffer can never again deliver a command: a NUL comes before any line end. -/
def Wedged (rbuf : Str) : Prop := ∃ l r, rbuf = l ++ '\x00' :: r ∧ NoEol l

theorem wedged_findEol {rbuf : Str} (h : Wedged rbuf) : findEol rbuf = none := by
  obtain ⟨l, r, e, hn⟩ := h
  apply findEol_eq_none
  subst e
  intro c hc
  have hsub : ∀ l : Str, ∀ r, c ∈ (l ++ '\x00' :: r).takeWhile (fun c => c != '\x00') → c ∈ l := by
    intro l r h
    induction l with
    | nil => simp at h
    | cons d l ih =>
      simp only [List.cons_append, List.takeWhile] at h
      split at h
      · rcases List.mem_cons.1 h with rfl | h
        · simp
        · simp [ih h]
      · simp at h
  exact hn c (hsub l r hc)

/-- Does the handler ever return false on an open connection? -/
def REnv.CanFail (e : REnv) : Prop := ∃ h l, (e.H h l).outcome = .failedOpen

/-- The invariant relating a connection to the byte stream received so far. -/
def RInv (e : REnv) (c : RConn) (stream : Str) : Prop :=
  ∃ consumed, consumed <+: stream ∧ Complete consumed ∧ lines consumed = c.executed ∧
    (∀ l ∈ c.executed, l ≠ [] ∧ l.length ≤ 511 ∧ NoEol l) ∧
    (c.isOpen = true → stream = consumed ++ c.rbuf ∨ (e.CanFail ∧ Wedged c.rbuf))

theorem RInv.of_eq {e : REnv} {c c' : RConn} {s : Str} (h : RInv e c s) (h1 : c'.executed = c.executed)
    (h2 : c'.isOpen = true → c.isOpen = true) (h3 : c'.isOpen = true → c'.rbuf = c.rbuf) : RInv e c' s := by
  obtain ⟨k, a, b, d, f, g⟩ := h
  refine ⟨k, a, b, by rw [h1, d], by rw [h1]; exact f, fun ho => ?_⟩
  rw [h3 ho]; exact g (h2 ho)

theorem close_inv {e : REnv} {c : RConn} {s : Str} (h : RInv e c s) : RInv e c.close s :=
  h.of_eq rfl (by simp [RConn.close]) (by simp [RConn.close])

theorem set_wedged (l rest : Str) (c : Char) (h : NoEol l) : Wedged ((l ++ c :: rest).set l.length '\x00') := by
  refine ⟨l, rest, ?_, h⟩
  rw [List.set_append_right _ _ (Nat.le_refl _)]
  simp

theorem handleLoop_inv (e : REnv) (st t : Nat) (i : Nat) (c : RConn) (n : Nat) (s : Str)
    (h : RInv e c s) (ho : c.isOpen = true) : RInv e (handleLoop e st t i c n).1 s := by
  induction i generalizing c n with
  | zero => exact h
  | succ i ih =>
    rw [handleLoop]
    split
    · exact h
    · split
      · exact h
      · split
        · exact h
        · rename_i p d hf
          obtain ⟨l, ch, rest, eb, hn, hnul, hch, hp, hd⟩ := findEol_split hf
          simp only
          split
          · exact close_inv h
          · rename_i hlen
            -- the rest of the buffer behind the terminator
            have hdrop : ∃ term, c.rbuf = l ++ term ++ c.rbuf.drop (p + d) ∧ term.length = d ∧
                (∃ q x, term = q ++ [x] ∧ isEol x = true) ∧
                (∀ x, lines (l ++ term ++ x) = (if l = [] then [] else [l]) ++ lines x) := by
              rcases hd with rfl | ⟨rfl, rfl, r', rfl⟩
              · refine ⟨[ch], ?_, rfl, ⟨[], ch, rfl, hch⟩, ?_⟩
                · rw [eb, hp]; simp
                · intro x
                  have := lines_line l x ch hn hch
                  simpa using this
              · refine ⟨['\r', '\n'], ?_, rfl, ⟨['\r'], '\n', rfl, rfl⟩, ?_⟩
                · rw [eb, hp]; simp
                · intro x
                  have h1 := lines_line l ('\n' :: x) '\r' hn rfl
                  have h2 := lines_line [] x '\n' noEol_nil rfl
                  simp only [List.nil_append] at h2
                  simp only [List.append_assoc, List.cons_append, List.nil_append]
                  rw [h1, h2]; simp
            obtain ⟨term, ebuf, htl, ⟨q, x, hterm, hx⟩, hlines⟩ := hdrop
            obtain ⟨k, hk1, hk2, hk3, hk4, hk5⟩ := h
            have hnw : s = k ++ c.rbuf := by
              rcases hk5 ho with h | ⟨_, hw⟩
              · exact h
              · rw [wedged_findEol hw] at hf; simp at hf
            have hcomp : Complete (k ++ (l ++ term)) := Or.inr ⟨k ++ l ++ q, x, by rw [hterm]; simp, hx⟩
            have hpre : k ++ (l ++ term) <+: s :=
              ⟨c.rbuf.drop (p + d), by rw [hnw]; conv => rhs; rw [ebuf]
                                       simp⟩
            have hsplit : s = (k ++ (l ++ term)) ++ c.rbuf.drop (p + d) := by
              rw [hnw]; conv => lhs; rw [ebuf]
              simp
            have hlk : lines (k ++ (l ++ term)) = c.executed ++ (if l = [] then [] else [l]) := by
              rw [lines_complete_append k _ hk2, hk3]
              have := hlines []
              simp only [List.append_nil] at this
              rw [this]; simp [lines, linesFrom]
            split
            · rename_i hle
              -- empty request
              have hl0 : l = [] := List.eq_nil_of_length_eq_zero (by omega)
              apply ih
              · refine ⟨k ++ (l ++ term), hpre, hcomp, by rw [hlk]; simp [hl0], hk4, fun _ => Or.inl hsplit⟩
              · exact ho
            · rename_i hle
              have hl0 : l ≠ [] := by
                intro h; subst h; simp at hp; omega
              have htake : c.rbuf.take p = l := by rw [eb, hp]; simp
              have hll : l.length ≤ 511 := by
                rcases hd with rfl | ⟨rfl, _⟩ <;> simp [COMMAND_LEN] at hlen <;> omega
              have hlk' : lines (k ++ (l ++ term)) = c.executed ++ [l] := by rw [hlk]; simp [hl0]
              have hall : ∀ y ∈ c.executed ++ [l], y ≠ [] ∧ y.length ≤ 511 ∧ NoEol y := by
                intro y hy
                rcases List.mem_append.1 hy with hy | hy
                · exact hk4 y hy
                · simp at hy; subst hy; exact ⟨hl0, hll, hn⟩
              rw [htake]
              split
              · apply ih
                · exact ⟨k ++ (l ++ term), hpre, hcomp, hlk', hall, fun _ => Or.inl hsplit⟩
                · exact ho
              · exact ⟨k ++ (l ++ term), hpre, hcomp, hlk', hall, by simp [RConn.close]⟩
              · rename_i hout
                refine ⟨k ++ (l ++ term), hpre, hcomp, hlk', hall, fun _ => Or.inr ⟨⟨_, _, hout⟩, ?_⟩⟩
                simp only
                rw [eb, hp]
                exact set_wedged l rest ch hn

theorem throttle_executed (e : REnv) (c : RConn) (t : Nat) :
    (throttle e c t).executed = c.executed ∧ (throttle e c t).isOpen = c.isOpen ∧
    (throttle e c t).rbuf = c.rbuf := by
  unfold throttle; split <;> simp

theorem throttle_inv {e : REnv} {c : RConn} {s : Str} (t : Nat) (h : RInv e c s) : RInv e (throttle e c t) s := by
  have := throttle_executed e c t
  exact h.of_eq this.1 (by rw [this.2.1]; exact id) (fun _ => this.2.2)

theorem handleBuffer_inv (e : REnv) (c : RConn) (m st t : Nat) (s : Str)
    (h : RInv e c s) (ho : c.isOpen = true) : RInv e (handleBuffer e c m st t).1 s := by
  have hl := handleLoop_inv e st t m c 0 s h ho
  unfold handleBuffer
  split
  · rename_i c' heq; rw [heq] at hl; exact hl
  · rename_i c' n heq
    rw [heq] at hl
    split
    · exact throttle_inv t hl
    · exact hl

theorem recv_inv {e : REnv} {c : RConn} {s : Str} (d : Str) (h : RInv e c s) :
    RInv e { c with rbuf := c.rbuf ++ d } (s ++ d) := by
  obtain ⟨k, h1, h2, h3, h4, h5⟩ := h
  refine ⟨k, h1.trans (List.prefix_append _ _), h2, h3, h4, fun ho => ?_⟩
  rcases h5 ho with h | ⟨hc, l, r, el, hn⟩
  · exact Or.inl (by rw [h]; simp)
  · exact Or.inr ⟨hc, l, r ++ d, by simp [el], hn⟩

theorem extend_inv {e : REnv} {c : RConn} {s : Str} (d : Str) (h : RInv e c s) (hc : c.isOpen = false) :
    RInv e c (s ++ d) := by
  obtain ⟨k, h1, h2, h3, h4, h5⟩ := h
  exact ⟨k, h1.trans (List.prefix_append _ _), h2, h3, h4, fun ho => by rw [hc] at ho; simp at ho⟩

theorem step_inv (e : REnv) (c : RConn) (ev : REvent) (s : Str) (h : RInv e c s) :
    RInv e (c.step e ev) (s ++ c.received ev) := by
  unfold RConn.step RConn.received
  by_cases ho : c.isOpen = false
  · cases ev <;> simp [ho] <;> exact h
  · rw [if_neg ho]
    have ho' : c.isOpen = true := by simpa using ho
    cases ev with
    | readable data maxcmd now t bps =>
      simp only
      by_cases hg : c.delaytime > now ∨ c.rbuf.length ≥ COMMAND_LEN
      · rw [if_pos hg, if_pos (Or.inr hg)]; simpa using h
      · rw [if_neg hg, if_neg (by simp [ho']; simpa using hg)]
        unfold readRequest
        split
        · exact extend_inv data (close_inv h) rfl
        · have := handleBuffer_inv e _ maxcmd now t _ (recv_inv data h) ho'
          simp only
          split
          · exact throttle_inv t this
          · exact this
    | handle maxcmd now t =>
      simp only [List.append_nil]
      split
      · exact handleBuffer_inv e c maxcmd now t s h ho'
      · exact h
    | close => simpa using close_inv h

theorem run_inv (e : REnv) (evs : List REvent) (c : RConn) (s : Str) (h : RInv e c s) :
    RInv e (c.run e evs).1 (s ++ (c.run e evs).2) := by
  induction evs generalizing c s with
  | nil => simpa [RConn.run] using h
  | cons ev evs ih =>
    have := ih _ _ (step_inv e c ev s h)
    simpa [RConn.run] using this

theorem init_inv (e : REnv) : RInv e {} [] :=
  ⟨[], List.prefix_refl _, Or.inl rfl, rfl, by simp, fun _ => Or.inl rfl⟩

end Ngircd
