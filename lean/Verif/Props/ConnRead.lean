import Verif.Lemmas.ConnRead

/-! # C04, C05, C36: input framing, over-long lines, penalties -/

namespace Ngircd
open Spec

/-- C04 (nothing spurious, reordered or duplicated): for every handler, every schedule and every
received stream - also with NUL bytes, over-long lines, connections closed at any
time - the executed commands are a prefix of the lines of the stream. -/
theorem C04_executed_is_prefix (e : REnv) (evs : List REvent) :
    (RConn.run e {} evs).1.executed <+: lines (RConn.run e {} evs).2 := by
  obtain ⟨k, ⟨r, hr⟩, h2, h3, _, _⟩ := run_inv e evs {} [] (init_inv e)
  simp only [List.nil_append] at hr
  rw [← h3, ← hr, lines_complete_append k r h2]
  exact List.prefix_append _ _

/-- C04 (nothing lost): as long as the connection is open, the executed commands together
with the lines still in the read buffer are exactly the lines of the received stream.  The
hypothesis `hH` excludes handlers that report failure without closing the connection (see
`C04_violation_wedged`). -/
theorem C04_nothing_lost_partial (e : REnv) (evs : List REvent)
    (hH : ∀ h l, (e.H h l).outcome ≠ .failedOpen)
    (ho : (RConn.run e {} evs).1.isOpen = true) :
    (RConn.run e {} evs).1.executed ++ lines (RConn.run e {} evs).1.rbuf
      = lines (RConn.run e {} evs).2 := by
  obtain ⟨k, _, h2, h3, _, h5⟩ := run_inv e evs {} [] (init_inv e)
  rcases h5 ho with h | ⟨⟨a, b, hc⟩, _⟩
  · simp only [List.nil_append] at h
    rw [h, lines_complete_append k _ h2, h3]
  · exact absurd hc (hH a b)

/-- C04 (packet boundaries are irrelevant): two connections that received the same bytes,
however fragmented and however scheduled, and have no complete line left in their buffers,
have executed the same commands. -/
theorem C04_fragmentation_irrelevant_partial (e1 e2 : REnv) (evs1 evs2 : List REvent)
    (hH1 : ∀ h l, (e1.H h l).outcome ≠ .failedOpen) (hH2 : ∀ h l, (e2.H h l).outcome ≠ .failedOpen)
    (ho1 : (RConn.run e1 {} evs1).1.isOpen = true) (ho2 : (RConn.run e2 {} evs2).1.isOpen = true)
    (hs : (RConn.run e1 {} evs1).2 = (RConn.run e2 {} evs2).2)
    (hb1 : lines (RConn.run e1 {} evs1).1.rbuf = []) (hb2 : lines (RConn.run e2 {} evs2).1.rbuf = []) :
    (RConn.run e1 {} evs1).1.executed = (RConn.run e2 {} evs2).1.executed := by
  have h1 := C04_nothing_lost_partial e1 evs1 hH1 ho1
  have h2 := C04_nothing_lost_partial e2 evs2 hH2 ho2
  rw [hb1, List.append_nil] at h1
  rw [hb2, List.append_nil] at h2
  rw [h1, h2, hs]

/-- A handler that accepts everything. -/
def okEnv : REnv := { H := fun _ _ => ⟨.ok, [0]⟩, exempt := false, maxPenalty := none }

example : (RConn.run okEnv {} [.readable "NICK a\r".toList 3 1 1 false, .handle 3 1 1,
      .readable "\nUSER b\n\r\nJO".toList 3 1 1 false, .handle 3 2 2,
      .readable "IN #c\r\n".toList 3 3 3 false, .handle 3 9 9]).1.executed
    = ["NICK a".toList, "USER b".toList, "JOIN #c".toList] := by decide

theorem findEol_isSome {rbuf l rest : Str} {c : Char} (hb : rbuf = l ++ c :: rest)
    (hl : NoEol l) (hnul : '\x00' ∉ l) (hc : isEol c = true) :
    ∃ d, findEol rbuf = some (l.length, d) ∧ (d = 1 ∨ d = 2) := by
  cases hf : findEol rbuf with
  | none =>
    exfalso
    have := findEol_none hf c
    rw [hb] at this
    have hcn : c ≠ '\x00' := by intro h; subst h; simp [isEol] at hc
    have hmem : ∀ l : Str, '\x00' ∉ l → c ∈ (l ++ c :: rest).takeWhile (fun c => c != '\x00') := by
      intro l hl
      induction l with
      | nil => simp [hcn]
      | cons d l ih =>
        simp at hl
        have hd : (d != '\x00') = true := by simpa using Ne.symm hl.1
        simp [List.takeWhile, ih hl.2, hd]
    rw [hc] at this
    exact absurd (this (hmem l hnul)) (by simp)
  | some x =>
    obtain ⟨p, d⟩ := x
    obtain ⟨l', c', rest', eb, hn, hnul', hch, hp, hd⟩ := findEol_split hf
    have : l' = l := by
      rw [hb] at eb
      rcases List.append_eq_append_iff.1 eb with ⟨u, h1, h2⟩ | ⟨u, h1, h2⟩
      · cases u with
        | nil => simpa using h1
        | cons y u =>
          simp at h2
          have := hn c (by rw [h1, h2.1]; simp)
          rw [hc] at this; simp at this
      · cases u with
        | nil => simpa using h1.symm
        | cons y u =>
          simp at h2
          have := hl c' (by rw [h1, h2.1]; simp)
          rw [hch] at this; simp at this
    subst this
    subst hp
    exact ⟨d, rfl, by rcases hd with h | ⟨h, _⟩ <;> simp [h]⟩

/-- The buffer never grows in the loop and the connection is never reopened. -/
theorem handleLoop_shrinks (e : REnv) (st t i : Nat) (c : RConn) (n : Nat) (ho : c.isOpen = true) :
    (handleLoop e st t i c n).1.rbuf.length ≤ c.rbuf.length := by
  induction i generalizing c n with
  | zero => simp [handleLoop]
  | succ i ih =>
    rw [handleLoop]
    split
    · simp
    · split
      · simp
      · split
        · simp
        · simp only
          split
          · simp [RConn.close]
          · split
            · refine Nat.le_trans (ih _ _ ho) (by simp)
            · split
              · refine Nat.le_trans (ih _ _ (by simpa using ho)) (by simp)
              · simp [RConn.close]
              · simp

/-- C04 (progress): when the penalty time is over and the buffer holds a complete line, one
call consumes input (or ends the connection, or meets a failing handler). -/
theorem C04_progress (e : REnv) (c : RConn) (m st t : Nat) (l rest : Str) (x : Char)
    (hH : ∀ h l, (e.H h l).outcome ≠ .failedOpen)
    (ho : c.isOpen = true) (hm : 0 < m) (hd : c.delaytime ≤ st)
    (hb : c.rbuf = l ++ x :: rest) (hl : ∀ y ∈ l, isEol y = false) (hnul : '\x00' ∉ l)
    (hx : isEol x = true) :
    (handleBuffer e c m st t).1.isOpen = false ∨
    (handleBuffer e c m st t).1.rbuf.length < c.rbuf.length := by
  obtain ⟨d, hf, hd12⟩ := findEol_isSome hb hl hnul hx
  obtain ⟨m', rfl⟩ : ∃ m', m = m' + 1 := ⟨m - 1, by omega⟩
  have hne : c.rbuf ≠ [] := by rw [hb]; simp
  have hpos : 0 < c.rbuf.length := List.length_pos_iff.2 hne
  have key : (handleLoop e st t (m' + 1) c 0).1.isOpen = false ∨
      (handleLoop e st t (m' + 1) c 0).1.rbuf.length < c.rbuf.length := by
    rw [handleLoop]
    rw [if_neg (by omega), if_neg hne, hf]
    simp only
    split
    · left; rfl
    · split
      · right
        refine Nat.lt_of_le_of_lt (handleLoop_shrinks e st t m' _ _ ho) ?_
        simp; omega
      · split
        · right
          refine Nat.lt_of_le_of_lt (handleLoop_shrinks e st t m' _ _ ho) ?_
          simp; omega
        · left; rfl
        · rename_i hout; exact absurd hout (hH _ _)
  unfold handleBuffer
  split
  · rename_i heq; rw [heq] at key; exact key
  · rename_i heq
    rw [heq] at key
    split
    · rw [(throttle_executed _ _ _).2.1, (throttle_executed _ _ _).2.2]; exact key
    · exact key

/-- Once a NUL precedes every line end of the buffer, no event ever executes a command again. -/
theorem wedged_forever (e : REnv) (evs : List REvent) (c : RConn) (hw : Wedged c.rbuf) :
    (c.run e evs).1.executed = c.executed := by
  have loop : ∀ (st t m : Nat) (c : RConn), Wedged c.rbuf → ∃ r, handleLoop e st t m c 0 = (c, r) ∧ (r = none ∨ r = some 0) := by
    intro st t m c hw
    cases m with
    | zero => exact ⟨_, rfl, Or.inr rfl⟩
    | succ m =>
      rw [handleLoop, wedged_findEol hw]
      split
      · exact ⟨_, rfl, Or.inl rfl⟩
      · split
        · exact ⟨_, rfl, Or.inr rfl⟩
        · exact ⟨_, rfl, Or.inr rfl⟩
  have hbuf : ∀ (m st t : Nat) (c : RConn), Wedged c.rbuf → (handleBuffer e c m st t).1 = c := by
    intro m st t c hw
    obtain ⟨r, h1, h2⟩ := loop st t m c hw
    unfold handleBuffer
    rw [h1]
    rcases h2 with rfl | rfl <;> simp
  -- closed connections
  have hclosed : ∀ (evs : List REvent) (c : RConn), c.isOpen = false → (c.run e evs).1 = c := by
    intro evs
    induction evs with
    | nil => intros; rfl
    | cons ev evs ih =>
      intro c hc
      have : c.step e ev = c := by simp [RConn.step, hc]
      simp [RConn.run, this, ih c hc]
  induction evs generalizing c with
  | nil => rfl
  | cons ev evs ih =>
    by_cases ho : c.isOpen = false
    · rw [hclosed _ c ho]
    · have ho' : c.isOpen = true := by simpa using ho
      have step : (c.step e ev).executed = c.executed ∧
          ((c.step e ev).isOpen = false ∨ Wedged (c.step e ev).rbuf) := by
        unfold RConn.step
        rw [if_neg ho]
        cases ev with
        | readable data maxcmd now t bps =>
          simp only
          split
          · exact ⟨rfl, Or.inr hw⟩
          · unfold readRequest
            split
            · exact ⟨rfl, Or.inl rfl⟩
            · have hw' : Wedged (c.rbuf ++ data) := by
                obtain ⟨l, r, e, hn⟩ := hw
                exact ⟨l, r ++ data, by rw [e]; simp, hn⟩
              simp only [hbuf maxcmd now t { c with rbuf := c.rbuf ++ data } hw']
              split
              · have := throttle_executed e { c with rbuf := c.rbuf ++ data } t
                rw [this.1, this.2.2]; exact ⟨rfl, Or.inr hw'⟩
              · exact ⟨rfl, Or.inr hw'⟩
        | handle maxcmd now t =>
          simp only
          split
          · rw [hbuf maxcmd now t c hw]; exact ⟨rfl, Or.inr hw⟩
          · exact ⟨rfl, Or.inr hw⟩
        | close => exact ⟨rfl, Or.inl rfl⟩
      simp only [RConn.run]
      rcases step.2 with h | h
      · rw [hclosed _ _ h]; exact step.1
      · rw [ih _ h]; exact step.1

/-- C04 is violated when a handler reports failure while the connection stays open (as
PRIVMSG does when writing to the *target's* connection fails): the connection is wedged - it
stays open, but no command of it is ever executed again, whatever is sent. -/
theorem C04_violation_wedged (e : REnv) (c : RConn) (m st t : Nat) (l rest : Str)
    (ho : c.isOpen = true) (hm : 0 < m) (hd : c.delaytime ≤ st)
    (hb : c.rbuf = l ++ '\n' :: rest) (hl : ∀ y ∈ l, isEol y = false) (hnul : '\x00' ∉ l)
    (hne : l ≠ []) (hlen : l.length ≤ 510)
    (hf : (e.H c.executed l).outcome = .failedOpen) (evs : List REvent) :
    (handleBuffer e c m st t).1.isOpen = true ∧
    ((handleBuffer e c m st t).1.run e evs).1.executed = c.executed ++ [l] := by
  obtain ⟨d, hfe, hd12⟩ := findEol_isSome hb hl hnul (by rfl)
  obtain ⟨m', rfl⟩ : ∃ m', m = m' + 1 := ⟨m - 1, by omega⟩
  have hpos : 0 < l.length := List.length_pos_iff.2 hne
  have e1 : handleLoop e st t (m' + 1) c 0 =
      ({ c with executed := c.executed ++ [l],
                delaytime := addPenalties e.maxPenalty c.delaytime t (e.H c.executed l).penalties,
                rbuf := c.rbuf.set l.length '\x00' }, none) := by
    rw [handleLoop]
    rw [if_neg (by omega), if_neg (by rw [hb]; simp), hfe]
    simp only
    rw [if_neg (by simp [COMMAND_LEN]; omega), if_neg (by omega)]
    have : c.rbuf.take l.length = l := by rw [hb]; simp
    rw [this, hf]
  have e2 : (handleBuffer e c (m' + 1) st t).1 =
      { c with executed := c.executed ++ [l],
               delaytime := addPenalties e.maxPenalty c.delaytime t (e.H c.executed l).penalties,
               rbuf := c.rbuf.set l.length '\x00' } := by
    unfold handleBuffer; rw [e1]
  rw [e2]
  refine ⟨ho, ?_⟩
  rw [wedged_forever e evs _ (by simp only; rw [hb]; exact set_wedged l rest '\n' hl)]

/-- C05: every executed line, with its terminator, is at most 512 bytes long, is not empty and
contains no line end - for every stream, schedule and handler. -/
theorem C05_executed_lines_bounded (e : REnv) (evs : List REvent) (l : Str)
    (h : l ∈ (RConn.run e {} evs).1.executed) :
    l.length + 1 ≤ 512 ∧ l ≠ [] ∧ ∀ c ∈ l, isEol c = false := by
  obtain ⟨k, _, _, _, h4, _⟩ := run_inv e evs {} [] (init_inv e)
  have := h4 l h
  exact ⟨by omega, this.1, this.2.2⟩

/-- C05: an over-long line at the head of the buffer closes the connection and is not executed. -/
theorem C05_overlong_closes (e : REnv) (c : RConn) (m st t : Nat) (l rest : Str) (x : Char)
    (hm : 0 < m) (hd : c.delaytime ≤ st)
    (hb : c.rbuf = l ++ x :: rest) (hl : ∀ y ∈ l, isEol y = false) (hnul : '\x00' ∉ l)
    (hx : isEol x = true) (hlen : l.length ≥ 512) :
    (handleBuffer e c m st t).1.isOpen = false ∧
    (handleBuffer e c m st t).1.executed = c.executed := by
  obtain ⟨d, hfe, hd12⟩ := findEol_isSome hb hl hnul hx
  obtain ⟨m', rfl⟩ : ∃ m', m = m' + 1 := ⟨m - 1, by omega⟩
  have e1 : handleLoop e st t (m' + 1) c 0 = (c.close, none) := by
    rw [handleLoop, if_neg (by omega), if_neg (by rw [hb]; simp), hfe]
    simp only
    rw [if_pos (by simp [COMMAND_LEN]; omega)]
  unfold handleBuffer
  rw [e1]
  exact ⟨rfl, rfl⟩

example : ∃ l : Str, (∀ y ∈ l, isEol y = false) ∧ '\x00' ∉ l ∧ l.length ≥ 512 :=
  ⟨List.replicate 600 'a', by
    intro y hy; rw [List.mem_replicate] at hy; rw [hy.2]; rfl, by
    intro h; rw [List.mem_replicate] at h; exact absurd h.2 (by decide), by
    rw [List.length_replicate]; decide⟩

/-- Lines of at most 510 bytes never close the connection: if no line of the stream is longer,
the handlers never end the connection and nothing else closes it, it stays open. -/
theorem C04_short_lines_keep_open (e : REnv) (evs : List REvent)
    (hH : ∀ h l, (e.H h l).outcome = .ok) (hc : REvent.close ∉ evs)
    (hs : shortLines (RConn.run e {} evs).2) :
    (RConn.run e {} evs).1.isOpen = true := by
  have hnf : ¬ e.CanFail := by rintro ⟨h, l, hf⟩; rw [hH] at hf; simp at hf
  -- one loop: if the buffer's lines are short, the connection stays open
  have loop : ∀ (st t i : Nat) (c : RConn) (n : Nat), c.isOpen = true → shortLines c.rbuf →
      (handleLoop e st t i c n).1.isOpen = true := by
    intro st t i
    induction i with
    | zero => intro c n ho _; exact ho
    | succ i ih =>
      intro c n ho hsl
      rw [handleLoop]
      split
      · exact ho
      · split
        · exact ho
        · split
          · exact ho
          · rename_i p d hf
            obtain ⟨l, ch, rest, eb, hn, hnul, hch, hp, hd⟩ := findEol_split hf
            have hl := hsl [] l (ch :: rest) (by simpa using eb) hn
            have hdrop : shortLines (c.rbuf.drop (p + d)) := by
              intro pre m post hm hmn
              apply hsl (c.rbuf.take (p + d) ++ pre) m post _ hmn
              have := List.take_append_drop (p + d) c.rbuf
              rw [hm] at this
              rw [List.append_assoc, List.append_assoc, ← List.append_assoc pre]
              exact this.symm
            simp only
            rw [if_neg (by simp [COMMAND_LEN]; rcases hd with rfl | ⟨rfl, _⟩ <;> omega)]
            split
            · exact ih _ _ ho hdrop
            · rw [hH]; exact ih _ _ ho hdrop
  have hbuf : ∀ (m st t : Nat) (c : RConn), c.isOpen = true → shortLines c.rbuf →
      (handleBuffer e c m st t).1.isOpen = true := by
    intro m st t c ho hsl
    have := loop st t m c 0 ho hsl
    unfold handleBuffer
    split
    · rename_i heq; rw [heq] at this; exact this
    · rename_i heq
      rw [heq] at this
      split
      · rw [(throttle_executed _ _ _).2.1]; exact this
      · exact this
  -- all events
  have main : ∀ (evs : List REvent) (c : RConn) (s : Str), REvent.close ∉ evs → RInv e c s →
      c.isOpen = true → shortLines (s ++ (c.run e evs).2) → (c.run e evs).1.isOpen = true := by
    intro evs
    induction evs with
    | nil => intro c s _ _ ho _; exact ho
    | cons ev evs ih =>
      intro c s hc hi ho hsl
      simp at hc
      have hi' := step_inv e c ev s hi
      simp only [RConn.run] at hsl ⊢
      rw [← List.append_assoc] at hsl
      apply ih _ _ hc.2 hi' _ hsl
      -- the step keeps it open
      have hsub : ∀ (r : Str) (pre : Str), (∃ post, pre ++ r ++ post = s ++ c.received ev ++ (RConn.run e (c.step e ev) evs).2) →
          shortLines r := by
        rintro r pre ⟨post, h⟩ a m b hm hmn
        apply hsl (pre ++ a) m (b ++ post) _ hmn
        rw [← h, hm]; simp
      obtain ⟨k, _, _, _, _, h5⟩ := hi
      have hrb : s = k ++ c.rbuf := by
        rcases h5 ho with h | ⟨h, _⟩
        · exact h
        · exact absurd h hnf
      unfold RConn.step
      rw [if_neg (by simp [ho])]
      cases ev with
      | readable data maxcmd now t bps =>
        simp only
        by_cases hg : c.delaytime > now ∨ c.rbuf.length ≥ COMMAND_LEN
        · rw [if_pos hg]; exact ho
        · rw [if_neg hg]
          unfold readRequest
          have hg' : ¬ c.rbuf.length ≥ READBUFFER_LEN := by
            simp only [COMMAND_LEN] at hg; simp only [READBUFFER_LEN]; omega
          rw [if_neg hg']
          have hrecv : c.received (.readable data maxcmd now t bps) = data := by
            unfold RConn.received
            simp only
            rw [if_neg (by rw [ho]; simpa using hg)]
          have hsl2 : shortLines (c.rbuf ++ data) := by
            apply hsub (c.rbuf ++ data) k
            exact ⟨(RConn.run e (RConn.step e c (.readable data maxcmd now t bps)) evs).2,
              by rw [hrecv, hrb]; simp⟩
          have := hbuf maxcmd now t { c with rbuf := c.rbuf ++ data } ho hsl2
          simp only
          split
          · rw [(throttle_executed _ _ _).2.1]; exact this
          · exact this
      | handle maxcmd now t =>
        simp only
        split
        · apply hbuf _ _ _ c ho
          apply hsub c.rbuf k
          exact ⟨(RConn.run e (RConn.step e c (.handle maxcmd now t)) evs).2,
            by rw [hrb]; simp [RConn.received]⟩
        · exact ho
      | close => simp at hc
  exact main evs {} [] hc (init_inv e) rfl (by simpa using hs)

theorem handleLoop_succ (e : REnv) (st t i : Nat) (c : RConn) (n : Nat) :
    handleLoop e st t (i + 1) c n =
    if c.delaytime > st then (c, none)
    else if c.rbuf = [] then (c, some n)
    else match findEol c.rbuf with
    | none => (c, some n)
    | some (p, delta) =>
      let len := p + delta
      if len > COMMAND_LEN - 1 then (c.close, none)
      else if len ≤ delta then
        handleLoop e st t i { c with rbuf := c.rbuf.drop len } (n + len)
      else
        let line := c.rbuf.take p
        let r := e.H c.executed line
        let c' := { c with executed := c.executed ++ [line],
                           delaytime := addPenalties e.maxPenalty c.delaytime t r.penalties }
        match r.outcome with
        | .ok => handleLoop e st t i { c' with rbuf := c.rbuf.drop len } (n + len)
        | .closed => (c'.close, none)
        | .failedOpen => ({ c' with rbuf := c.rbuf.set p '\x00' }, none) := rfl

/-- The bound 510 is sharp and the packet boundary matters beyond it: a 511 byte line whose CR
and LF arrive together closes the connection, but is executed when they arrive apart. -/
theorem C04_violation_511 (l : Str) (hl : ∀ y ∈ l, isEol y = false) (hnul : '\x00' ∉ l)
    (hlen : l.length = 511) :
    (RConn.run okEnv {} [.readable (l ++ "\r\n".toList) 3 1 1 false]).1.executed = [] ∧
    (RConn.run okEnv {} [.readable (l ++ "\r".toList) 3 1 1 false,
      .readable "\n".toList 3 1 1 false]).1.executed = [l] := by
  have hne : l ≠ [] := by intro h; subst h; simp at hlen
  constructor
  · obtain ⟨d, hfe, hd12⟩ := findEol_isSome (rbuf := l ++ "\r\n".toList) (l := l) (c := '\r') (rest := ['\n']) rfl hl hnul rfl
    have hd2 : d = 2 := by
      -- the CR LF is found at the position of the first CR
      have hidx : ∀ (l : Str), (∀ y ∈ l, isEol y = false) → idxCrLf (l ++ ['\r', '\n']) = some l.length := by
        intro l hl
        induction l with
        | nil => rfl
        | cons a l ih =>
          have ha := hl a (by simp)
          have ih' := ih (fun y hy => hl y (by simp [hy]))
          cases l with
          | nil => simp [idxCrLf]
          | cons b l =>
            simp only [List.cons_append] at ih' ⊢
            rw [idxCrLf, ih']
            have : (a == '\r') = false := by
              simp [isEol] at ha; simpa using ha.1
            simp [this]
      have htw : (l ++ "\r\n".toList).takeWhile (fun c => c != '\x00') = l ++ ['\r', '\n'] := by
        rw [List.takeWhile_append_of_pos]
        · rfl
        · intro a ha; simp; intro h; subst h; exact hnul ha
      have hcr : ∀ (x : Char) (l r : Str), x ∉ l → idx (l ++ x :: r) x = some l.length := by
        intro x l r hl
        induction l with
        | nil => simp [idx]
        | cons a l ih =>
          simp at hl
          simp [idx, ih hl.2, Ne.symm hl.1]
      have h1 := hcr '\r' l ['\n'] (not_mem_of_noEol hl).1
      have h2 := hcr '\n' (l ++ ['\r']) [] (by simp [(not_mem_of_noEol hl).2])
      simp only [List.append_assoc, List.cons_append, List.nil_append] at h2
      unfold findEol at hfe
      simp only [htw, hidx l hl, h1, h2] at hfe
      simp at hfe
      exact hfe.symm
    subst hd2
    have hst : RConn.step okEnv {} (.readable (l ++ "\r\n".toList) 3 1 1 false) =
        RConn.close { rbuf := l ++ "\r\n".toList } := by
      have h1 : handleLoop okEnv 1 1 3 { rbuf := l ++ "\r\n".toList } 0 =
          (RConn.close { rbuf := l ++ "\r\n".toList }, none) := by
        rw [handleLoop_succ okEnv 1 1 2, if_neg (by simp), if_neg (by simp [hne])]
        simp only [hfe]
        rw [if_pos (by simp [COMMAND_LEN, hlen])]
      have h2 : handleBuffer okEnv { rbuf := l ++ "\r\n".toList } 3 1 1 =
          (RConn.close { rbuf := l ++ "\r\n".toList }, 0) := by
        unfold handleBuffer; rw [h1]
      unfold RConn.step readRequest
      simp only [List.nil_append, h2]
      simp [RConn.close, COMMAND_LEN, READBUFFER_LEN]
    simp only [RConn.run, hst, RConn.close]
  · obtain ⟨d, hfe, hd12⟩ := findEol_isSome (rbuf := l ++ "\r".toList) (l := l) (c := '\r') (rest := []) rfl hl hnul rfl
    have hd1 : d = 1 := by
      obtain ⟨l', c', rest', eb, hn, hnul', hch, hp, hd⟩ := findEol_split hfe
      rcases hd with h | ⟨_, h2, r', h3⟩
      · exact h
      · have := congrArg List.length eb
        rw [h3] at this
        simp at this
        omega
    subst hd1
    have hst : RConn.step okEnv {} (.readable (l ++ "\r".toList) 3 1 1 false) =
        { executed := [l], delaytime := 1 } := by
      have h0 : ∀ i n, handleLoop okEnv 1 1 i { executed := [l], delaytime := 1 } n =
          ({ executed := [l], delaytime := 1 }, some n) := by
        intro i n; cases i <;> simp [handleLoop]
      have h1 : handleLoop okEnv 1 1 3 { rbuf := l ++ "\r".toList } 0 =
          ({ executed := [l], delaytime := 1 }, some 512) := by
        rw [handleLoop_succ okEnv 1 1 2, if_neg (by simp), if_neg (by simp [hne])]
        simp only [hfe]
        have ht : (l ++ "\r".toList).take l.length = l := by simp
        have hdp : (l ++ "\r".toList).drop (l.length + 1) = [] := by simp
        rw [if_neg (by simp [COMMAND_LEN, hlen]), if_neg (by omega)]
        simp only [ht, hdp]
        rw [hlen]
        exact h0 2 512
      have h2 : handleBuffer okEnv { rbuf := l ++ "\r".toList } 3 1 1 =
          ({ executed := [l], delaytime := 1 }, 512) := by
        unfold handleBuffer; rw [h1]; simp
      unfold RConn.step readRequest
      simp only [List.nil_append, h2]
      simp [COMMAND_LEN, READBUFFER_LEN]
    have hst2 : (RConn.step okEnv { executed := [l], delaytime := 1 } (.readable "\n".toList 3 1 1 false)).executed = [l] := by
      simp [RConn.step, readRequest, handleBuffer, handleLoop, findEol, idx, idxCrLf, COMMAND_LEN, READBUFFER_LEN]
    simp only [RConn.run, hst]
    exact hst2

/-! ## C36 -/

/-- C36: one penalty adds exactly its seconds to the later of now and the running penalty;
values below 10 s are capped by the configured maximum, larger ones are not. -/
theorem C36_penalty_exact (mp : Option Nat) (delay t s : Nat) :
    setPenalty mp delay t s = max delay t +
      (match mp with
       | none => s
       | some m => if s < 10 then min s m else s) := by
  unfold setPenalty
  cases mp with
  | none => simp only; split <;> omega
  | some m => simp only; split <;> split <;> split <;> omega

theorem setPenalty_mono (mp : Option Nat) (delay t s : Nat) : delay ≤ setPenalty mp delay t s := by
  rw [C36_penalty_exact]; cases mp <;> simp only <;> omega

theorem addPenalties_mono (mp : Option Nat) (delay t : Nat) (ps : List Nat) :
    delay ≤ addPenalties mp delay t ps := by
  unfold addPenalties
  induction ps generalizing delay with
  | nil => exact Nat.le_refl _
  | cons s ps ih => exact Nat.le_trans (setPenalty_mono mp delay t s) (ih _)

theorem throttle_mono (e : REnv) (c : RConn) (t : Nat) : c.delaytime ≤ (throttle e c t).delaytime := by
  unfold throttle
  split
  · exact Nat.le_refl _
  · exact setPenalty_mono _ _ _ _

theorem handleLoop_mono (e : REnv) (st t i : Nat) (c : RConn) (n : Nat) :
    c.delaytime ≤ (handleLoop e st t i c n).1.delaytime := by
  induction i generalizing c n with
  | zero => exact Nat.le_refl _
  | succ i ih =>
    rw [handleLoop]
    split
    · exact Nat.le_refl _
    · split
      · exact Nat.le_refl _
      · split
        · exact Nat.le_refl _
        · simp only
          split
          · exact Nat.le_refl _
          · split
            · refine Nat.le_trans ?_ (ih _ _)
              exact Nat.le_refl _
            · split
              · refine Nat.le_trans ?_ (ih _ _)
                exact addPenalties_mono _ _ _ _
              · exact addPenalties_mono _ _ _ _
              · exact addPenalties_mono _ _ _ _

theorem handleBuffer_mono (e : REnv) (c : RConn) (m st t : Nat) :
    c.delaytime ≤ (handleBuffer e c m st t).1.delaytime := by
  have := handleLoop_mono e st t m c 0
  unfold handleBuffer
  split
  · rename_i heq; rw [heq] at this; exact this
  · rename_i heq
    rw [heq] at this
    split
    · exact Nat.le_trans this (throttle_mono _ _ _)
    · exact this

/-- C36: no event ever lowers the penalty time of a connection. -/
theorem C36_penalty_never_decreases (e : REnv) (c : RConn) (evs : List REvent) :
    c.delaytime ≤ (c.run e evs).1.delaytime := by
  induction evs generalizing c with
  | nil => exact Nat.le_refl _
  | cons ev evs ih =>
    refine Nat.le_trans ?_ (ih _)
    unfold RConn.step
    split
    · exact Nat.le_refl _
    · cases ev with
      | readable data m now t bps =>
        simp only
        split
        · exact Nat.le_refl _
        · unfold readRequest
          split
          · exact Nat.le_refl _
          · have := handleBuffer_mono e { c with rbuf := c.rbuf ++ data } m now t
            simp only
            split
            · exact Nat.le_trans this (throttle_mono _ _ _)
            · exact this
      | handle m now t =>
        simp only
        split
        · exact handleBuffer_mono e c m now t
        · exact Nat.le_refl _
      | close => exact Nat.le_refl _

/-- C36: while the penalty lasts (the clock reads less than the penalty time) neither a
command is executed nor data read from the socket. -/
theorem C36_penalty_blocks (e : REnv) (c : RConn) (ev : REvent) (hev : ev ≠ .close)
    (hb : match ev with
      | .readable _ _ now _ _ => now < c.delaytime
      | .handle _ now _ => now < c.delaytime
      | .close => True) :
    c.step e ev = c ∧ c.received ev = [] := by
  cases ev with
  | readable data m now t bps =>
    simp only at hb
    simp [RConn.step, RConn.received, hb]
  | handle m now t =>
    simp only at hb
    refine ⟨?_, rfl⟩
    have hl : handleBuffer e c m now t = (c, 0) := by
      unfold handleBuffer
      cases m with
      | zero => simp [handleLoop]
      | succ m => simp [handleLoop, hb]
    unfold RConn.step
    split
    · rfl
    · simp only
      split
      · rw [hl]
      · rfl
  | close => exact absurd rfl hev

example : (RConn.step okEnv { delaytime := 7, rbuf := "PING x\r\n".toList } (.handle 3 5 5)).executed = [] := by
  decide

end Ngircd
