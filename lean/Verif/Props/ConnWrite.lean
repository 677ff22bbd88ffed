import Verif.Model.ConnWrite

/-! # C06, C07: legal lines, output in order, bounded -/

namespace Ngircd

/-- C06: what is written for a message text is, for every text: the text itself if it has at
most 510 bytes, otherwise its first 505 bytes and the cut mark; followed by CR LF. -/
theorem C06_line_format (text : Str) :
    formatLine text =
      (if text.length ≤ 510 then text else text.take 505 ++ "[CUT]".toList) ++ ['\r', '\n'] := by
  have key : ∀ b : Str, b.length ≤ 510 → strlcat 513 b "\r\n".toList = b ++ ['\r', '\n'] := by
    intro b hb
    unfold strlcat
    rw [if_pos (by omega), if_neg (by simp; omega)]
    rfl
  unfold formatLine COMMAND_LEN
  by_cases h : text.length ≤ 510
  · have h1 : ¬ text.length ≥ 513 - 2 := by omega
    have h2 : text.take (513 - 3) = text := List.take_of_length_le (by omega)
    simp only [if_neg h1, if_pos h, h2]
    exact key text h
  · have h1 : text.length ≥ 513 - 2 := by omega
    simp only [if_pos h1, if_neg h]
    have h4 : List.take (513 - CUT_TXTSUFFIX.length - 2 - 1) (List.take (513 - 3) text) = List.take 505 text := by
      rw [List.take_take]; rfl
    rw [h4]
    exact key _ (by simp [CUT_TXTSUFFIX]; omega)

/-- C06: at most 512 bytes including CR LF, for every text. -/
theorem C06_line_bounded (text : Str) :
    (formatLine text).length ≤ 512 ∧ ∃ body, formatLine text = body ++ ['\r', '\n'] ∧ body.length ≤ 510 := by
  rw [C06_line_format]
  refine ⟨?_, _, rfl, ?_⟩
  · split
    · simp; omega
    · simp; omega
  · split
    · assumption
    · simp; omega

example : formatLine "PING :x".toList = "PING :x\r\n".toList := by decide
example : (formatLine (List.replicate 600 'a')).length = 512 := by
  rw [C06_line_format, if_neg (by rw [List.length_replicate]; decide), List.take_replicate,
    List.length_append, List.length_append, List.length_replicate]
  rfl

/-! ## C07 -/

/-- The limit of pending output of a connection. -/
def WConn.limit (c : WConn) : Nat := if c.isServer then 65536 else 32768

/-- Invariant of the output side. -/
structure WInv (c : WConn) : Prop where
  /-- nothing is lost, reordered or duplicated while open -/
  openEq : c.isOpen = true → c.sent ++ c.wbuf = c.accepted.flatten
  /-- and what was sent is always a prefix -/
  pre : c.sent <+: c.accepted.flatten
  bound : c.wbuf.length < c.limit
  legal : ∀ m ∈ c.accepted, ∃ text, m = formatLine text

theorem hwc_inv (e : WEnv) (c : WConn) (h : WInv c) : WInv (handleWriteClosing e c).1 := by
  unfold handleWriteClosing
  split
  · exact h
  · split
    · exact h
    · split
      · exact ⟨h.openEq, h.pre, h.bound, h.legal⟩
      · exact ⟨h.openEq, h.pre, h.bound, h.legal⟩
      · rename_i ho _ _ n _
        have ho : c.isOpen = true := by simpa using ho
        have e1 := h.openEq ho
        refine ⟨fun _ => by simpa using e1, ?_, ?_, h.legal⟩
        · refine ⟨c.wbuf.drop (min n c.wbuf.length), ?_⟩
          simp only [List.append_assoc, List.take_append_drop, e1]
        · have := h.bound
          simp only [List.length_drop, WConn.limit] at this ⊢
          omega

theorem cwc_inv (e : WEnv) (c : WConn) (t : Str) (h : WInv c) :
    WInv (connWriteClosing e c (formatLine t)) := by
  have push : ∀ c : WConn, WInv c → c.isOpen = true → ¬ c.wbuf.length + (formatLine t).length ≥ c.limit →
      WInv { c with allocs := c.allocs + 1, wbuf := c.wbuf ++ formatLine t,
                    accepted := c.accepted ++ [formatLine t] } := by
    intro c h ho hl
    have e1 := h.openEq ho
    refine ⟨fun _ => ?_, ?_, ?_, ?_⟩
    · simp only [List.flatten_append, List.flatten_cons, List.flatten_nil, List.append_nil]
      rw [← e1]; simp
    · refine List.IsPrefix.trans h.pre ?_
      simp
    · simp only [WConn.limit, List.length_append] at hl ⊢; omega
    · intro m hm
      rw [List.mem_append] at hm
      rcases hm with hm | hm
      · exact h.legal m hm
      · simp at hm; exact ⟨t, hm⟩
  unfold connWriteClosing
  split
  · exact h
  · rename_i ho
    have ho : c.isOpen = true := by simpa using ho
    simp only
    have hso : (handleWriteClosing e c).1.isOpen = c.isOpen ∧ (handleWriteClosing e c).1.isServer = c.isServer := by
      unfold handleWriteClosing; split; · exact ⟨rfl, rfl⟩
      split; · exact ⟨rfl, rfl⟩
      split <;> exact ⟨rfl, rfl⟩
    have h1 : ∀ p : WConn × Bool, p = (if c.wbuf.length + (formatLine t).length ≥ WRITEBUFFER_FLUSH_LEN then handleWriteClosing e c else (c, true)) →
        WInv p.1 ∧ p.1.isOpen = true ∧ p.1.isServer = c.isServer := by
      intro p hp
      subst hp
      split
      · exact ⟨hwc_inv e c h, by rw [hso.1]; exact ho, hso.2⟩
      · exact ⟨h, ho, rfl⟩
    have h1 := h1 _ rfl
    generalize (if c.wbuf.length + (formatLine t).length ≥ WRITEBUFFER_FLUSH_LEN then handleWriteClosing e c else (c, true)) = p at h1 ⊢
    obtain ⟨h1, h2, h3⟩ := h1
    split
    · exact h1
    · split
      · exact h1
      · rename_i hl
        split
        · exact ⟨h1.openEq, h1.pre, h1.bound, h1.legal⟩
        · refine push _ h1 h2 ?_
          intro hc
          apply hl
          simp only [WConn.limit, h3] at hc
          simpa [WConn.writeLimit, WRITEBUFFER_MAX_LEN, WRITEBUFFER_SLINK_LEN] using hc

theorem wclose_inv (e : WEnv) (c : WConn) (msgs : List Str) (h : WInv c) : WInv (wConnClose e c msgs) := by
  unfold wConnClose
  have : WInv (msgs.foldl (fun c m => connWriteClosing e c (formatLine m)) c) := by
    induction msgs generalizing c with
    | nil => exact h
    | cons m ms ih => exact ih _ (cwc_inv e c m h)
  have := hwc_inv e _ this
  refine ⟨fun h => by simp at h, this.pre, ?_, this.legal⟩
  simp only [WConn.limit, List.length_nil]
  split <;> omega

theorem hw_inv (e : WEnv) (c : WConn) (h : WInv c) : WInv (handleWrite e c).1 := by
  have hc := hwc_inv e c h
  unfold handleWrite
  unfold handleWriteClosing at hc
  split
  · exact h
  · rename_i ho
    rw [if_neg ho] at hc
    split
    · exact h
    · rename_i hw
      rw [if_neg hw] at hc
      split
      · exact ⟨h.openEq, h.pre, h.bound, h.legal⟩
      · exact wclose_inv e _ _ ⟨h.openEq, h.pre, h.bound, h.legal⟩
      · rename_i heq
        rw [heq] at hc
        exact hc

theorem connWrite_inv (e : WEnv) (c : WConn) (t : Str) (h : WInv c) :
    WInv (connWrite e c (formatLine t)).1 := by
  unfold connWrite
  split
  · exact h
  · rename_i ho
    have ho : c.isOpen = true := by simpa using ho
    have hso : (handleWrite e c).2 = true →
        (handleWrite e c).1.isOpen = true ∧ (handleWrite e c).1.isServer = c.isServer := by
      unfold handleWrite
      rw [if_neg (by simp [ho])]
      split
      · exact fun _ => ⟨ho, rfl⟩
      · split
        · exact fun _ => ⟨ho, rfl⟩
        · simp
        · exact fun _ => ⟨ho, rfl⟩
    have h1 : ∀ p : WConn × Bool, p = (if c.wbuf.length + (formatLine t).length ≥ WRITEBUFFER_FLUSH_LEN then handleWrite e c else (c, true)) →
        WInv p.1 ∧ (p.2 = true → p.1.isOpen = true ∧ p.1.isServer = c.isServer) := by
      intro p hp
      subst hp
      split
      · exact ⟨hw_inv e c h, hso⟩
      · exact ⟨h, fun _ => ⟨ho, rfl⟩⟩
    have h1 := h1 _ rfl
    simp only
    generalize (if c.wbuf.length + (formatLine t).length ≥ WRITEBUFFER_FLUSH_LEN then handleWrite e c else (c, true)) = p at h1 ⊢
    obtain ⟨h1, h2⟩ := h1
    split
    · exact h1
    · rename_i hok
      obtain ⟨h2, h3⟩ := h2 (by simpa using hok)
      split
      · exact wclose_inv e _ _ h1
      · rename_i hl
        split
        · exact ⟨h1.openEq, h1.pre, h1.bound, h1.legal⟩
        · have e1 := h1.openEq h2
          refine ⟨fun _ => ?_, ?_, ?_, ?_⟩
          · simp only [List.flatten_append, List.flatten_cons, List.flatten_nil, List.append_nil]
            rw [← e1]; simp
          · refine List.IsPrefix.trans h1.pre ?_
            simp
          · simp only [WConn.limit, h3, List.length_append]
            simp only [WConn.writeLimit, WRITEBUFFER_MAX_LEN, WRITEBUFFER_SLINK_LEN] at hl
            omega
          · intro m hm
            rw [List.mem_append] at hm
            rcases hm with hm | hm
            · exact h1.legal m hm
            · simp at hm; exact ⟨t, hm⟩

theorem wstep_inv (e : WEnv) (c : WConn) (ev : WEvent) (h : WInv c) : WInv (c.step e ev) := by
  cases ev with
  | send t => exact connWrite_inv e c t h
  | writable => exact hw_inv e c h
  | becomeServer =>
    refine ⟨h.openEq, h.pre, ?_, h.legal⟩
    have := h.bound
    simp only [WConn.step, WConn.limit] at this ⊢
    split at this <;> simp <;> omega
  | close msgs =>
    simp only [WConn.step]
    split
    · exact wclose_inv e c msgs h
    · exact h

theorem wrun_inv (e : WEnv) (evs : List WEvent) (c : WConn) (h : WInv c) : WInv (c.run e evs) := by
  unfold WConn.run
  induction evs generalizing c with
  | nil => exact h
  | cons ev evs ih => exact ih _ (wstep_inv e c ev h)

theorem winit_inv : WInv {} := ⟨fun _ => rfl, List.prefix_refl _, by simp [WConn.limit], by simp⟩

/-- C07: as long as the connection is open, the bytes sent followed by the bytes pending are
exactly the concatenation of the accepted messages - for every history and every behaviour of
write(2) (partial writes, EAGAIN, errors) and of the allocator. -/
theorem C07_output_in_order (e : WEnv) (evs : List WEvent)
    (ho : (WConn.run e {} evs).isOpen = true) :
    (WConn.run e {} evs).sent ++ (WConn.run e {} evs).wbuf = (WConn.run e {} evs).accepted.flatten :=
  (wrun_inv e evs {} winit_inv).openEq ho

/-- C07: in all cases, also after the connection was closed or failed, the bytes sent are a
prefix of the accepted messages, in order, and each of these is a legal IRC line. -/
theorem C07_sent_is_prefix (e : WEnv) (evs : List WEvent) :
    (WConn.run e {} evs).sent <+: (WConn.run e {} evs).accepted.flatten ∧
    ∀ m ∈ (WConn.run e {} evs).accepted, m.length ≤ 512 ∧ ∃ body, m = body ++ ['\r', '\n'] := by
  have h := wrun_inv e evs {} winit_inv
  refine ⟨h.pre, fun m hm => ?_⟩
  obtain ⟨t, rfl⟩ := h.legal m hm
  have := C06_line_bounded t
  exact ⟨this.1, this.2.choose, this.2.choose_spec.1⟩

/-- C07: pending output stays below 32 KiB, or 64 KiB for server links. -/
theorem C07_pending_bounded (e : WEnv) (evs : List WEvent) :
    (WConn.run e {} evs).wbuf.length <
      if (WConn.run e {} evs).isServer then 65536 else 32768 :=
  (wrun_inv e evs {} winit_inv).bound

/-- C07: a message for which `Conn_WriteStr` reports success is appended to the accepted
messages, one for which it reports failure is not: failures are never silent.  -/
theorem C07_accepted_iff_success (e : WEnv) (c : WConn) (text : Str) :
    ((connWriteStr e c text).2 = true → (connWriteStr e c text).1.accepted = c.accepted ++ [formatLine text]) ∧
    ((connWriteStr e c text).2 = false → (connWriteStr e c text).1.accepted = c.accepted) := by
  have hcl : ∀ c : WConn, (wConnClose e c []).accepted = c.accepted := by
    intro c
    have : (handleWriteClosing e c).1.accepted = c.accepted := by
      unfold handleWriteClosing
      split
      · rfl
      · split
        · rfl
        · split <;> rfl
    exact this
  have hw : (handleWrite e c).1.accepted = c.accepted := by
    unfold handleWrite
    split; · rfl
    split; · rfl
    split
    · rfl
    · exact hcl _
    · rfl
  have h1 : ∀ p : WConn × Bool, p = (if c.wbuf.length + (formatLine text).length ≥ WRITEBUFFER_FLUSH_LEN then handleWrite e c else (c, true)) → p.1.accepted = c.accepted := by
    intro p hp; subst hp; split
    · exact hw
    · rfl
  have h1 := h1 _ rfl
  unfold connWriteStr connWrite
  split
  · exact ⟨by simp, by simp⟩
  · simp only
    generalize (if c.wbuf.length + (formatLine text).length ≥ WRITEBUFFER_FLUSH_LEN then handleWrite e c else (c, true)) = p at h1 ⊢
    split
    · exact ⟨by simp, fun _ => h1⟩
    · split
      · exact ⟨by simp, fun _ => by rw [hcl]; exact h1⟩
      · split
        · exact ⟨by simp, fun _ => h1⟩
        · exact ⟨fun _ => by simp only [h1], by simp⟩

/-- C07: a message is refused on an open connection only together with closing the
connection, unless memory is exhausted. -/
theorem C07_refused_only_with_close (e : WEnv) (c : WConn) (text : Str)
    (ha : ∀ n, e.alloc n = true) (hf : (connWriteStr e c text).2 = false) :
    (connWriteStr e c text).1.isOpen = false := by
  have hcl : ∀ c : WConn, (wConnClose e c []).isOpen = false := fun c => rfl
  have hw : (handleWrite e c).2 = false → (handleWrite e c).1.isOpen = false := by
    unfold handleWrite
    split
    · rename_i h; exact fun _ => h
    split; · simp
    split
    · simp
    · exact fun _ => hcl _
    · simp
  have h1 : ∀ p : WConn × Bool, p = (if c.wbuf.length + (formatLine text).length ≥ WRITEBUFFER_FLUSH_LEN then handleWrite e c else (c, true)) → p.2 = false → p.1.isOpen = false := by
    intro p hp; subst hp; split
    · exact hw
    · simp
  have h1 := h1 _ rfl
  revert hf
  unfold connWriteStr connWrite
  split
  · rename_i h; exact fun _ => h
  · simp only
    generalize (if c.wbuf.length + (formatLine text).length ≥ WRITEBUFFER_FLUSH_LEN then handleWrite e c else (c, true)) = p at h1 ⊢
    split
    · rename_i h2; exact fun _ => h1 h2
    · split
      · exact fun _ => hcl _
      · split
        · rename_i h3; rw [ha] at h3; simp at h3
        · simp

/-- A slow network: one write in three takes five bytes, the others are refused. -/
def slowEnv : WEnv := { write := fun n => if n % 3 = 0 then .wrote 5 else .again, alloc := fun _ => true }

example : (WConn.run slowEnv {} [.send "PING :a".toList, .writable, .writable, .send "PONG b".toList, .writable, .writable]).sent
    = "PING :a\r\nP".toList := by decide

end Ngircd
