import Verif.Lemmas.Step
import Verif.Lemmas.Query
import Verif.Props.Dispatch
import Verif.Spec.Commands

/-!
# From a line to the handler of its command
-/

set_option linter.unusedSimpArgs false

namespace Ngircd
open Spec

variable {s t u : Srv} {i cl : Nat} {l : Str} {req : Request}

theorem Spec.OnlyOutput.unch (h : OnlyOutput s t) : Unchanged s t := by
  obtain ⟨o, f, rfl⟩ := h; exact ⟨o, f, s.rnd, rfl⟩

theorem unch_refl (s : Srv) : Unchanged s s := ⟨[], s.fault, s.rnd, rfl⟩

theorem Spec.Unchanged.trans (h : Unchanged s t) (h' : Unchanged t u) : Unchanged s u := by
  obtain ⟨o, f, r, rfl⟩ := h
  obtain ⟨o', f', r', rfl⟩ := h'
  exact ⟨o' ++ o, f', r', by simp⟩

theorem unch_rnd (s : Srv) (r : Int) : Unchanged s { s with rnd := r } := ⟨[], s.fault, r, rfl⟩

theorem unch_of (h : OnlyOutput { s with rnd := r } t) : Unchanged s t := (unch_rnd s r).trans h.unch

theorem Spec.Unchanged.clients (h : Unchanged s t) : t.clients = s.clients := by
  obtain ⟨o, f, r, rfl⟩ := h; rfl
theorem Spec.Unchanged.chans (h : Unchanged s t) : t.chans = s.chans := by
  obtain ⟨o, f, r, rfl⟩ := h; rfl
theorem Spec.Unchanged.cl2 (h : Unchanged s t) : t.cl2 = s.cl2 := by
  obtain ⟨o, f, r, rfl⟩ := h; rfl

/-- The prefix check does not depend on the random numbers. -/
theorem validatePrefix_rnd (s : Srv) (rnd : Int) (i cl : Nat) (req req' : Request) :
    validatePrefix { s with rnd := rnd } i cl req = .pass req' ↔ validatePrefix s i cl req = .pass req' := by
  have hn : ∀ c, nextHop { s with rnd := rnd } c = nextHop s c :=
    fun c => nextHop_core (t := { s with rnd := rnd }) (s := s) rfl c
  have hs : ∀ p, clientSearch { s with rnd := rnd } p = clientSearch s p := fun _ => rfl
  have hc : ({ s with rnd := rnd } : Srv).cl cl = s.cl cl := rfl
  have hr : isRfc1459 { s with rnd := rnd } i = isRfc1459 s i := rfl
  simp only [validatePrefix, hc, hr]
  cases req.prefix? with
  | none =>
    simp only
    split <;> simp
  | some p =>
    simp only
    split
    · simp
    · rw [hs p]
      cases clientSearch s p with
      | none => simp only; split <;> simp
      | some x =>
        simp only [hn]
        split
        · split <;> simp
        · simp

/-- The state with the random number of the event. -/
def Srv.roll (s : Srv) (r : Int) : Srv := { s with rnd := r }

@[simp] theorem roll_cl (s : Srv) (r : Int) (c : Nat) : (s.roll r).cl c = s.cl c := rfl
@[simp] theorem roll_clients (s : Srv) (r : Int) : (s.roll r).clients = s.clients := rfl
@[simp] theorem roll_chans (s : Srv) (r : Int) : (s.roll r).chans = s.chans := rfl
@[simp] theorem roll_cl2 (s : Srv) (r : Int) : (s.roll r).cl2 = s.cl2 := rfl
@[simp] theorem roll_this (s : Srv) (r : Int) : (s.roll r).this = s.this := rfl
@[simp] theorem roll_conf (s : Srv) (r : Int) : (s.roll r).conf = s.conf := rfl
@[simp] theorem roll_core (s : Srv) (r : Int) : (s.roll r).core = s.core := rfl
@[simp] theorem roll_search (s : Srv) (r : Int) (n : Str) : clientSearch (s.roll r) n = clientSearch s n := rfl
@[simp] theorem roll_chan (s : Srv) (r : Int) (n : Str) : channelSearch (s.roll r) n = channelSearch s n := rfl

theorem unch_roll (h : OnlyOutput (s.roll r) t) : Unchanged s t := unch_of h

/-- A line whose prefix is accepted is handled as a request. -/
theorem step_line (h : Received s i l cl req) (rnd : Int) :
    step s (.line i rnd l) = (handleRequest (s.roll rnd) cl req).1 := by
  obtain ⟨k, req0, hk, hcl, hp, hv⟩ := h
  subst hcl
  have hk' : ({ s with rnd := rnd } : Srv).conn? i = some k := hk
  simp only [step, Srv.roll]
  rw [if_pos (by rw [hk]; rfl)]
  simp only [handleLine, hk']
  rw [hp]
  simp only
  rw [(validatePrefix_rnd s rnd i k.client req0 req).2 hv]

/-- The row of the command table a request selects. -/
theorem findCommand_is {n : String} (h : Is req n) : findCommand req.command = findCommand n.toList := by
  simp only [findCommand]
  congr 1
  funext c
  have h1 : caseEq req.command n.toList = true := h
  exact caseEq_eq_of h1 _

/-- A command starting with a letter is not a number. -/
theorem atoi_letter {w n : Str} (h : caseEq w n = true) (hn : n.head?.any (fun c => c.isUpper) = true) :
    atoi w ≤ 1 := by
  cases n with
  | nil => simp at hn
  | cons c n =>
    simp only [List.head?_cons, Option.any_some] at hn
    cases w with
    | nil => have := (caseEq_iff _ _).1 h; simp [lowerStr] at this
    | cons d w =>
      have hl := (caseEq_iff _ _).1 h
      simp only [lowerStr, List.map_cons, List.cons.injEq] at hl
      have hd := (toLower_eq_iff d c).1 hl.1
      have hc : 65 ≤ c.toNat ∧ c.toNat ≤ 90 := by
        simp only [Char.isUpper, Bool.and_eq_true, decide_eq_true_eq] at hn
        exact ⟨hn.1, hn.2⟩
      have hnat : d.toNat = c.toNat ∨ d.toNat = c.toNat + 32 := by
        simp only [SameLetter] at hd
        rcases hd with hd | hd | hd
        · left; rw [hd]
        · omega
        · omega
      have h1 : (d == ' ') = false := by
        rw [beq_eq_false_iff_ne]; rintro rfl
        have : (' ').toNat = 32 := rfl
        omega
      have h2 : (decide (9 ≤ d.toNat) && decide (d.toNat ≤ 13)) = false := by
        simp only [Bool.and_eq_false_iff, decide_eq_false_iff_not]; omega
      have h3 : d ≠ '-' := by rintro rfl; have : ('-').toNat = 45 := rfl; omega
      have h4 : d ≠ '+' := by rintro rfl; have : ('+').toNat = 43 := rfl; omega
      have h5 : d.isDigit = false := by
        simp only [Char.isDigit, Bool.and_eq_false_iff, decide_eq_false_iff_not]
        right
        intro hle
        have : d.toNat ≤ 57 := hle
        omega
      simp only [atoi]
      rw [List.dropWhile_cons_of_neg (by rw [h1, h2]; decide)]
      split
      · rename_i heq; injection heq with heq; exact absurd heq h3
      · rename_i heq; injection heq with heq; exact absurd heq h4
      · simp [digitsVal, h5]

/-- Dispatch of a command of the table; no command has three letters that form a number. -/
theorem step_cmd (h : Received s i l cl req) (rnd : Int) {n : String} {cmd : Command} (hn : Is req n)
    (hf : findCommand n.toList = some cmd) (hnum : n.toList.head?.any (fun c => c.isUpper) = true := by decide) :
    step s (.line i rnd l) = (runCommand (s.roll rnd) cl req cmd).1 := by
  rw [step_line h rnd]
  unfold handleRequest
  simp only
  rw [if_neg, findCommand_is hn, hf]
  intro hh
  simp only [Bool.and_eq_true, decide_eq_true_eq] at hh
  have := atoi_letter hn hnum
  omega

/-- A command allowed for the client, with a fitting number of arguments, is run. -/
theorem step_do (h : Received s i l cl req) (rnd : Int) {n : String} {cmd : Command} (hn : Is req n)
    (hf : findCommand n.toList = some cmd) (hty : cmd.types.allows (s.cl cl).type = true)
    (ha : cmd.argcOk req = true) (hnum : n.toList.head?.any (fun c => c.isUpper) = true := by decide) :
    step s (.line i rnd l) = (cmd.run (s.roll rnd) cl req).1 := by
  rw [step_cmd h rnd hn hf hnum]
  simp only [runCommand]
  rw [roll_cl, hty, ha]
  rfl

theorem is_length {n : String} (h : Is req n) : req.command.length = n.toList.length := by
  have h1 : lowerStr req.command = lowerStr n.toList := (caseEq_iff _ _).1 h
  have := congrArg List.length h1
  simpa [lowerStr] using this

/-- The owner of a connection. -/
theorem Spec.Received.owner (hr : Received s i l cl req) (hb : Base s) :
    s.cl cl ∈ s.clients ∧ (s.cl cl).ref = cl ∧ (s.cl cl).conn = some i ∧ cl ≠ s.this := by
  obtain ⟨k, req0, hk, hcl, hp, hv⟩ := hr
  subst hcl
  obtain ⟨g1, g2, g3, g4⟩ := conn?_mem hb.cl hk
  have hm := mem_of_conn (s := s) (r := k.client) (by rw [g3]; rfl)
  exact ⟨hm.1, hm.2, g3, hb.ne_this (by rw [g3]; rfl)⟩

end Ngircd
