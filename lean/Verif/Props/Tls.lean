import Verif.Spec.Tls

/-!
# C99: TLS connections lose nothing and are watched for what they need
-/

namespace Ngircd
open Spec

theorem sslRead_all (kern : List Str) (held : Str) :
    (sslRead kern held).2.2.getD [] ++ ((sslRead kern held).2.1 ++ (sslRead kern held).1.flatten) = held ++ kern.flatten := by
  induction kern with
  | nil =>
    cases held with
    | nil => rfl
    | cons c h =>
      simp only [sslRead, Option.getD_some]
      rw [← List.append_assoc, List.take_append_drop]
  | cons r rs ih =>
    cases held with
    | nil =>
      simp only [sslRead]
      split
      · rename_i hr; subst hr; simpa using ih
      · simp only [Option.getD_some]
        rw [← List.append_assoc, List.take_append_drop]; rfl
    | cons c h =>
      simp only [sslRead, Option.getD_some]
      rw [← List.append_assoc, List.take_append_drop]

/-- What holds all the time. -/
structure TlsInv (x : Tls) : Prop where
  hp : x.handled <+: x.arrived
  sp : x.sent <+: x.written
  inp : x.isOpen = true → x.handled ++ pendingTls x = x.arrived
  out : x.isOpen = true → x.sent ++ x.wbuf = x.written
  one : x.wantRead = true → x.wantWrite = false
  again : x.isOpen = true → ∀ a d, x.blocked = some (a, d) → d <+: x.wbuf

theorem tlsInv_close {x : Tls} (h : TlsInv x) : TlsInv x.close :=
  ⟨h.hp, h.sp, fun e => (by cases e), fun e => (by cases e), h.one, fun e => (by cases e)⟩

theorem handled_append {a b c : Str} (k : Nat) (h : a ++ (b ++ c) = d) : (a ++ b.take k) ++ (b.drop k ++ c) = d := by
  rw [List.append_assoc, ← List.append_assoc (b.take k), List.take_append_drop, h]

theorem tlsInv_readRequest {x : Tls} (h : TlsInv x) (k : Nat) : TlsInv (tlsReadRequest x k) := by
  unfold tlsReadRequest
  split
  · exact h
  · rename_i ho
    have ho : x.isOpen = true := by simpa using ho
    split
    · exact tlsInv_close h
    · have hall := sslRead_all x.kern x.held
      have hin := h.inp ho
      unfold tlsRead
      generalize sslRead x.kern x.held = r at hall
      obtain ⟨kern, held, d⟩ := r
      cases d with
      | none =>
        simp only [Option.getD_none, List.nil_append] at hall
        refine ⟨h.hp, h.sp, fun _ => ?_, h.out, fun _ => rfl, h.again⟩
        unfold pendingTls at hin ⊢
        simp only [hall]
        exact hin
      | some d =>
        simp only [Option.getD_some] at hall
        have hin' : (x.handled ++ (x.rbuf ++ d).take k) ++ ((x.rbuf ++ d).drop k ++ (held ++ kern.flatten)) = x.arrived := by
          refine handled_append k ?_
          rw [← hin]
          unfold pendingTls
          rw [List.append_assoc, hall]
        refine ⟨⟨_, hin'⟩, h.sp, fun _ => ?_, h.out, fun e => (by cases e), h.again⟩
        unfold pendingTls
        exact hin'

theorem tlsInv_write {x : Tls} (h : TlsInv x) (ho : x.isOpen = true) (w : SslW) : TlsInv (tlsWrite x w) := by
  have hy : TlsInv { x with wantRead := false, wantWrite := false } :=
    ⟨h.hp, h.sp, h.inp, h.out, fun e => (by cases e), h.again⟩
  unfold tlsWrite
  simp only
  split
  · exact tlsInv_close hy
  · cases w with
    | failed => exact tlsInv_close hy
    | wantRead =>
      refine ⟨h.hp, h.sp, h.inp, h.out, fun _ => rfl, fun _ a d e => ?_⟩
      simp only [Option.some.injEq, Prod.mk.injEq] at e
      rw [← e.2]
      exact List.prefix_refl _
    | wantWrite =>
      refine ⟨h.hp, h.sp, h.inp, h.out, fun e => (by cases e), fun _ a d e => ?_⟩
      simp only [Option.some.injEq, Prod.mk.injEq] at e
      rw [← e.2]
      exact List.prefix_refl _
    | wrote n =>
      have hout := h.out ho
      have hout' : (x.sent ++ x.wbuf.take n) ++ x.wbuf.drop n = x.written := by
        rw [List.append_assoc, List.take_append_drop, hout]
      exact ⟨h.hp, ⟨_, hout'⟩, h.inp, fun _ => hout', fun e => (by cases e), fun _ a d e => by cases e⟩

theorem tlsInv_handleWrite {x : Tls} (h : TlsInv x) (w : SslW) : TlsInv (tlsHandleWrite x w) := by
  unfold tlsHandleWrite
  split
  · exact h
  · rename_i ho
    split
    · exact ⟨h.hp, h.sp, h.inp, h.out, h.one, h.again⟩
    · exact tlsInv_write h (by simpa using ho) w

theorem tlsInv_connWrite {x : Tls} (h : TlsInv x) (data : Str) (limit : Nat) (w : SslW) (moved : Nat) :
    TlsInv (tlsConnWrite x data limit w moved) := by
  unfold tlsConnWrite
  split
  · exact h
  · have hy : TlsInv (if x.wbuf.length + data.length ≥ WRITEBUFFER_FLUSH_LEN then tlsHandleWrite x w else x) := by
      split
      · exact tlsInv_handleWrite h w
      · exact h
    generalize (if x.wbuf.length + data.length ≥ WRITEBUFFER_FLUSH_LEN then tlsHandleWrite x w else x) = y at hy
    simp only
    split
    · exact hy
    · rename_i ho
      have ho : y.isOpen = true := by simpa using ho
      split
      · exact tlsInv_close hy
      · have hout := hy.out ho
        have hout' : y.sent ++ (y.wbuf ++ data) = y.written ++ data := by rw [← List.append_assoc, hout]
        have hag := hy.again ho
        split
        · exact ⟨hy.hp, ⟨_, hout'⟩, hy.inp, fun _ => hout', hy.one, fun _ a d e => (hag a d e).trans (List.prefix_append _ _)⟩
        · exact ⟨hy.hp, ⟨_, hout'⟩, hy.inp, fun _ => hout', hy.one, fun _ a d e => (hag a d e).trans (List.prefix_append _ _)⟩

theorem tlsInv_ready {x : Tls} (h : TlsInv x) (can : Bool) (w : SslW) (k : Nat) : TlsInv (tlsReady x can w k) := by
  unfold tlsReady
  split
  · exact h
  · simp only
    split
    · exact h
    · have hy : TlsInv (if (x.pollRead && !x.kern.isEmpty) || x.wantWrite then tlsReadRequest x k else x) := by
        split
        · exact tlsInv_readRequest h k
        · exact h
      split
      · exact tlsInv_handleWrite hy w
      · exact hy

/-- The buffers do not change with what the socket is watched for. -/
theorem tlsInv_poll {x : Tls} (h : TlsInv x) (p q : Bool) : TlsInv { x with pollRead := p, pollWrite := q } :=
  ⟨h.hp, h.sp, h.inp, h.out, h.one, h.again⟩

theorem tlsInv_handle {x : Tls} (h : TlsInv x) (ho : x.isOpen = true) (k : Nat) : TlsInv (tlsHandle x k) := by
  unfold tlsHandle
  split
  · exact h
  · have hin : (x.handled ++ x.rbuf.take k) ++ (x.rbuf.drop k ++ (x.held ++ x.kern.flatten)) = x.arrived :=
      handled_append k (h.inp ho)
    exact ⟨⟨_, hin⟩, h.sp, fun _ => hin, h.out, h.one, h.again⟩

theorem tlsInv_watchOut {x : Tls} (h : TlsInv x) : TlsInv (tlsWatchOut x) := by
  unfold tlsWatchOut
  split
  · exact h
  · split
    · exact tlsInv_poll h true x.pollWrite
    · exact tlsInv_poll h x.pollRead true

theorem tlsInv_watchIn {x : Tls} (h : TlsInv x) (penalty : Bool) : TlsInv (tlsWatchIn x penalty) := by
  unfold tlsWatchIn
  split
  · exact tlsInv_poll h x.pollRead true
  · split
    · exact tlsInv_poll h false x.pollWrite
    · split
      · exact tlsInv_poll h false x.pollWrite
      · exact tlsInv_poll h true x.pollWrite

theorem tlsInv_round {x : Tls} (h : TlsInv x) (penalty : Bool) (k : Nat) : TlsInv (tlsRound x penalty k) := by
  unfold tlsRound
  split
  · exact h
  · rename_i ho
    exact tlsInv_watchIn (tlsInv_watchOut (tlsInv_handle h (by simpa using ho) k)) penalty

theorem tlsInv_step {x : Tls} (h : TlsInv x) (e : TlsEvent) : TlsInv (x.step e) := by
  cases e with
  | arrive r =>
    refine ⟨h.hp.trans (List.prefix_append _ _), h.sp, fun ho => ?_, h.out, h.one, h.again⟩
    have := h.inp ho
    unfold pendingTls at this ⊢
    simp only [Tls.step]
    rw [← this]
    simp
  | write data limit w moved => exact tlsInv_connWrite h data limit w moved
  | ready can w k => exact tlsInv_ready h can w k
  | round p k => exact tlsInv_round h p k

theorem tlsInv_run (es : List TlsEvent) {x : Tls} (h : TlsInv x) : TlsInv (x.run es) := by
  induction es generalizing x with
  | nil => exact h
  | cons e es ih => exact ih (tlsInv_step h e)

theorem tlsInv_init : TlsInv Tls.init :=
  ⟨⟨[], rfl⟩, ⟨[], rfl⟩, fun _ => rfl, fun _ => rfl, fun e => (by cases e), fun _ a d e => by cases e⟩

/-- C99: whatever happens, what is handled is a beginning of what arrived, and what is sent is a beginning of
what was written; as long as the connection is open, all the rest is in the buffers, in order. -/
theorem C99_stream (es : List TlsEvent) :
    (Tls.init.run es).handled <+: (Tls.init.run es).arrived ∧
    (Tls.init.run es).sent <+: (Tls.init.run es).written ∧
    ((Tls.init.run es).isOpen = true →
      (Tls.init.run es).handled ++ pendingTls (Tls.init.run es) = (Tls.init.run es).arrived ∧
      (Tls.init.run es).sent ++ (Tls.init.run es).wbuf = (Tls.init.run es).written) := by
  have h := tlsInv_run es tlsInv_init
  exact ⟨h.hp, h.sp, fun ho => ⟨h.inp ho, h.out ho⟩⟩

/-- C99: when `SSL_write` has to be called again, the write buffer still begins with the data of the first call. -/
theorem C99_retry (es : List TlsEvent) (ho : (Tls.init.run es).isOpen = true) (a : Nat) (d : Str)
    (h : (Tls.init.run es).blocked = some (a, d)) : d <+: (Tls.init.run es).wbuf :=
  (tlsInv_run es tlsInv_init).again ho a d h

theorem run_step_tls (x : Tls) (es : List TlsEvent) (e : TlsEvent) : x.run (es ++ [e]) = (x.run es).step e := by
  simp [Tls.run]

/-- C99: after each turn of `Conn_Handler` an open connection is watched for output if the TLS library has asked
for it or if there is something to write (and the library has not asked for input), and for input, unless the
library has asked for output, there is a penalty or a command in the read buffer; the library never asks for
both. -/
theorem C99_watched (es : List TlsEvent) (penalty : Bool) (k : Nat)
    (ho : (Tls.init.run (es ++ [.round penalty k])).isOpen = true) :
    ((Tls.init.run (es ++ [.round penalty k])).wantWrite = true →
      (Tls.init.run (es ++ [.round penalty k])).pollWrite = true ∧
      (Tls.init.run (es ++ [.round penalty k])).wantRead = false) ∧
    ((Tls.init.run (es ++ [.round penalty k])).wbuf ≠ [] → (Tls.init.run (es ++ [.round penalty k])).wantRead = false →
      (Tls.init.run (es ++ [.round penalty k])).pollWrite = true) ∧
    ((Tls.init.run (es ++ [.round penalty k])).wantWrite = false → penalty = false →
      (Tls.init.run (es ++ [.round penalty k])).rbuf.length < COMMAND_LEN →
      (Tls.init.run (es ++ [.round penalty k])).pollRead = true) := by
  have hone := (tlsInv_run (es ++ [.round penalty k]) tlsInv_init).one
  have hw : (Tls.init.run (es ++ [.round penalty k])).wantWrite = true → (Tls.init.run (es ++ [.round penalty k])).wantRead = false := by
    intro h
    cases hr : (Tls.init.run (es ++ [.round penalty k])).wantRead with
    | false => rfl
    | true => rw [hone hr] at h; cases h
  suffices H : ∀ x : Tls, (tlsRound x penalty k).isOpen = true →
      ((tlsRound x penalty k).wantWrite = true → (tlsRound x penalty k).pollWrite = true) ∧
      ((tlsRound x penalty k).wbuf ≠ [] → (tlsRound x penalty k).wantRead = false → (tlsRound x penalty k).pollWrite = true) ∧
      ((tlsRound x penalty k).wantWrite = false → penalty = false → (tlsRound x penalty k).rbuf.length < COMMAND_LEN →
        (tlsRound x penalty k).pollRead = true) by
    rw [run_step_tls] at ho hw ⊢
    obtain ⟨h1, h2, h3⟩ := H _ ho
    exact ⟨fun h => ⟨h1 h, hw h⟩, h2, h3⟩
  intro x ho
  unfold tlsRound at ho ⊢
  split
  · rename_i hc; rw [if_pos hc, hc] at ho; cases ho
  · generalize tlsHandle x k = y
    have hz : (tlsWatchOut y).wbuf ≠ [] → (tlsWatchOut y).wantRead = false → (tlsWatchOut y).pollWrite = true := by
      unfold tlsWatchOut
      split
      · rename_i h; intro h'; exact absurd h h'
      · split
        · rename_i h; intro _ h'; simp only at h'; rw [h] at h'; cases h'
        · intro _ _; rfl
    generalize tlsWatchOut y = z at hz
    unfold tlsWatchIn
    split
    · rename_i h
      exact ⟨fun _ => rfl, fun _ _ => rfl, fun e => (by simp only at e; rw [h] at e; cases e)⟩
    · rename_i hww
      split
      · rename_i hp
        exact ⟨fun e => absurd e hww, hz, fun _ e => (by rw [hp] at e; cases e)⟩
      · split
        · rename_i hl
          exact ⟨fun e => absurd e hww, hz, fun _ _ e => absurd hl (Nat.not_le.mpr e)⟩
        · exact ⟨fun e => absurd e hww, hz, fun _ _ _ => rfl⟩

/-! ## What is watched for gets through -/

/-- C99, input: when the TLS library holds no text back, asks for nothing and has nothing to repeat, and there
is no penalty and no command in the read buffer, then the text of the next record (as far as it fits) is read,
in front of everything else, as soon as the socket is reported ready. -/
theorem C99_input_partial (x : Tls) (ho : x.isOpen = true) (r : Str) (rs : List Str) (hk : x.kern = r :: rs)
    (hr : r ≠ []) (hh : x.held = []) (hw : x.wantWrite = false) (k : Nat)
    (hl : (x.rbuf.drop k).length < COMMAND_LEN) (can : Bool) (n k' : Nat) (hb : x.blocked = none) :
    ((x.step (.round false k)).step (.ready can (.wrote n) k')).isOpen = true ∧
    ((x.step (.round false k)).step (.ready can (.wrote n) k')).handled ++
      ((x.step (.round false k)).step (.ready can (.wrote n) k')).rbuf =
      x.handled ++ (x.rbuf ++ r.take READBUFFER_LEN) ∧
    ((x.step (.round false k)).step (.ready can (.wrote n) k')).kern = rs ∧
    (r.length ≤ READBUFFER_LEN → ((x.step (.round false k)).step (.ready can (.wrote n) k')).held = []) := by
  have hR : READBUFFER_LEN = 2048 := rfl
  have hC : COMMAND_LEN = 513 := rfl
  -- after the round
  have hround : ∃ y : Tls, x.step (.round false k) = y ∧ y.isOpen = true ∧ y.kern = r :: rs ∧ y.held = [] ∧
      y.pollRead = true ∧ y.blocked = none ∧ y.rbuf.length < COMMAND_LEN ∧ y.handled ++ y.rbuf = x.handled ++ x.rbuf := by
    refine ⟨_, rfl, ?_⟩
    simp only [Tls.step, tlsRound, ho, Bool.true_eq_false, if_false]
    have h1 : (tlsHandle x k).isOpen = true ∧ (tlsHandle x k).kern = r :: rs ∧ (tlsHandle x k).held = [] ∧
        (tlsHandle x k).wantWrite = false ∧ (tlsHandle x k).blocked = none ∧ (tlsHandle x k).rbuf.length < COMMAND_LEN ∧
        (tlsHandle x k).handled ++ (tlsHandle x k).rbuf = x.handled ++ x.rbuf := by
      unfold tlsHandle
      split
      · rename_i he
        exact ⟨ho, hk, hh, hw, hb, by rw [he, hC]; decide, rfl⟩
      · exact ⟨ho, hk, hh, hw, hb, hl, by simp only; rw [List.append_assoc, List.take_append_drop]⟩
    generalize tlsHandle x k = y at h1
    have h2 : (tlsWatchOut y).isOpen = y.isOpen ∧ (tlsWatchOut y).kern = y.kern ∧ (tlsWatchOut y).held = y.held ∧
        (tlsWatchOut y).wantWrite = y.wantWrite ∧ (tlsWatchOut y).blocked = y.blocked ∧ (tlsWatchOut y).rbuf = y.rbuf ∧
        (tlsWatchOut y).handled = y.handled := by
      unfold tlsWatchOut
      split
      · exact ⟨rfl, rfl, rfl, rfl, rfl, rfl, rfl⟩
      · split <;> exact ⟨rfl, rfl, rfl, rfl, rfl, rfl, rfl⟩
    generalize tlsWatchOut y = z at h2
    obtain ⟨a1, a2, a3, a4, a5, a6, a7⟩ := h1
    obtain ⟨b1, b2, b3, b4, b5, b6, b7⟩ := h2
    unfold tlsWatchIn
    rw [b4, a4, b6]
    rw [if_neg (by simp), if_neg (by simp), if_neg (Nat.not_le.mpr a6)]
    exact ⟨b1.trans a1, b2.trans a2, b3.trans a3, rfl, b5.trans a5, a6, by
      simp only; rw [b7, a7]⟩
  obtain ⟨y, hy, c1, c2, c3, c4, c5, c6, c7⟩ := hround
  rw [hy]
  simp only [Tls.step, tlsReady, c1, Bool.true_eq_false, if_false, c2, c4, List.isEmpty_cons, Bool.not_false, Bool.and_true,
    Bool.true_or, if_true, false_and]
  have hread : (tlsReadRequest y k').isOpen = true ∧
      (tlsReadRequest y k').handled ++ (tlsReadRequest y k').rbuf = x.handled ++ (x.rbuf ++ r.take READBUFFER_LEN) ∧
      (tlsReadRequest y k').kern = rs ∧ (tlsReadRequest y k').held = r.drop READBUFFER_LEN ∧
      (tlsReadRequest y k').blocked = none := by
    unfold tlsReadRequest tlsRead
    rw [c1, c2, c3]
    rw [if_neg (by simp), if_neg (by omega)]
    simp only [sslRead, if_neg hr]
    refine ⟨trivial, ?_, trivial, trivial, c5⟩
    rw [List.append_assoc, List.take_append_drop, ← List.append_assoc, c7, List.append_assoc]
  generalize tlsReadRequest y k' = z at hread
  obtain ⟨d1, d2, d3, d4, d5⟩ := hread
  have hd4 : r.length ≤ READBUFFER_LEN → z.held = [] := fun h => by rw [d4]; exact List.drop_eq_nil_iff.mpr h
  split
  · unfold tlsHandleWrite
    rw [if_neg (by rw [d1]; simp)]
    split
    · exact ⟨d1, d2, d3, hd4⟩
    · unfold tlsWrite badRetry
      rw [d5]
      simp only [Bool.false_eq_true, if_false]
      exact ⟨d1, d2, d3, hd4⟩
  · exact ⟨d1, d2, d3, hd4⟩

/-- A record of text in front of an open connection with nothing to do. -/
def Sample.inputEvents : List TlsEvent := [.write "PING :a\r\n".toList 32768 .failed 100, .arrive "PONG :b\r\n".toList]

/-- The hypotheses of `C99_input_partial` are met. -/
example : (Tls.init.run Sample.inputEvents).isOpen = true ∧
    (Tls.init.run Sample.inputEvents).kern = ["PONG :b\r\n".toList] ∧
    (Tls.init.run Sample.inputEvents).held = [] ∧ (Tls.init.run Sample.inputEvents).wantWrite = false ∧
    ((Tls.init.run Sample.inputEvents).rbuf.drop 0).length < COMMAND_LEN ∧
    (Tls.init.run Sample.inputEvents).blocked = none := by decide +kernel

/-- C99, output: in every state that can come up, when something is to be written, the TLS library does not ask
for input and the buffer has not moved since a call that has to be repeated, and the read buffer has room, then
the socket is watched for output and what `SSL_write` takes, when it is possible, is sent. -/
theorem C99_output_partial (es : List TlsEvent) (ho : (Tls.init.run es).isOpen = true) (hw : (Tls.init.run es).wbuf ≠ [])
    (hn : (Tls.init.run es).wantRead = false) (hb : SameBuffer (Tls.init.run es)) (penalty : Bool) (k n k' : Nat)
    (hl : (Tls.init.run es).rbuf.length < READBUFFER_LEN) :
    (((Tls.init.run es).step (.round penalty k)).step (.ready true (.wrote n) k')).isOpen = true ∧
    (((Tls.init.run es).step (.round penalty k)).step (.ready true (.wrote n) k')).sent =
      (Tls.init.run es).sent ++ (Tls.init.run es).wbuf.take n := by
  have hinv := tlsInv_run es tlsInv_init
  generalize Tls.init.run es = x at ho hw hn hb hl hinv
  have hag := hinv.again ho
  have hround : ∃ y : Tls, x.step (.round penalty k) = y ∧ y.isOpen = true ∧ y.wbuf = x.wbuf ∧ y.sent = x.sent ∧
      y.addr = x.addr ∧ y.blocked = x.blocked ∧ y.rbuf.length < READBUFFER_LEN ∧ y.pollWrite = true := by
    refine ⟨_, rfl, ?_⟩
    simp only [Tls.step, tlsRound, ho, Bool.true_eq_false, if_false]
    have h1 : (tlsHandle x k).isOpen = true ∧ (tlsHandle x k).wbuf = x.wbuf ∧ (tlsHandle x k).sent = x.sent ∧
        (tlsHandle x k).addr = x.addr ∧ (tlsHandle x k).blocked = x.blocked ∧ (tlsHandle x k).rbuf.length < READBUFFER_LEN ∧
        (tlsHandle x k).wantRead = false := by
      unfold tlsHandle
      split
      · exact ⟨ho, rfl, rfl, rfl, rfl, hl, hn⟩
      · exact ⟨ho, rfl, rfl, rfl, rfl, by simp only [List.length_drop]; omega, hn⟩
    generalize tlsHandle x k = y at h1
    obtain ⟨a1, a2, a3, a4, a5, a6, a7⟩ := h1
    have h2 : tlsWatchOut y = { y with pollWrite := true } := by
      unfold tlsWatchOut
      rw [if_neg (by rw [a2]; exact hw), a7]
      simp
    rw [h2]
    unfold tlsWatchIn
    (repeat' split) <;> exact ⟨a1, a2, a3, a4, a5, a6, rfl⟩
  obtain ⟨y, hy, c1, c2, c3, c4, c5, c6, c7⟩ := hround
  rw [hy]
  simp only [Tls.step, tlsReady, c1, c7, Bool.true_eq_false, if_false, Bool.and_true, if_true, and_false]
  have hread : ∀ z : Tls, z = (if (y.pollRead && !y.kern.isEmpty) || y.wantWrite then tlsReadRequest y k' else y) →
      z.isOpen = true ∧ z.wbuf = x.wbuf ∧ z.sent = x.sent ∧ z.addr = x.addr ∧ z.blocked = x.blocked := by
    intro z e
    rw [e]
    split
    · unfold tlsReadRequest tlsRead
      rw [if_neg (by rw [c1]; simp), if_neg (by omega)]
      generalize sslRead y.kern y.held = r
      obtain ⟨a, b, d⟩ := r
      cases d <;> exact ⟨c1, c2, c3, c4, c5⟩
    · exact ⟨c1, c2, c3, c4, c5⟩
  generalize (if (y.pollRead && !y.kern.isEmpty) || y.wantWrite then tlsReadRequest y k' else y) = z at hread
  obtain ⟨d1, d2, d3, d4, d5⟩ := hread z rfl
  unfold tlsHandleWrite tlsWrite
  have hbad : badRetry z = false := by
    unfold badRetry
    rw [d5, d4, d2]
    cases hx : x.blocked with
    | none => rfl
    | some p =>
      obtain ⟨a, d⟩ := p
      have h1 := hb a d hx
      obtain ⟨w, h2⟩ := hag a d hx
      have h3 : d.length ≤ x.wbuf.length := by rw [← h2]; simp
      simp only [h1, bne_self_eq_false, Bool.false_or, decide_eq_false_iff_not]
      omega
  rw [if_neg (by rw [d1]; simp), if_neg (by rw [d2]; exact hw)]
  simp only [hbad, Bool.false_eq_true, if_false]
  exact ⟨d1, by rw [d2, d3]⟩

/-- Two lines, the first of which has blocked; the buffer was large enough for both. -/
def Sample.outputEvents : List TlsEvent :=
  [.write "PING :a\r\n".toList 32768 .failed 100, .write "PING :b\r\n".toList 32768 .failed 200, .round false 0,
    .ready true .wantWrite 0, .round false 0, .ready true .wantWrite 0]

/-- The hypotheses of `C99_retry` and `C99_output_partial` are met, by a write that has to be repeated. -/
example : (Tls.init.run Sample.outputEvents).isOpen = true ∧ (Tls.init.run Sample.outputEvents).wbuf ≠ [] ∧
    (Tls.init.run Sample.outputEvents).wantRead = false ∧
    (Tls.init.run Sample.outputEvents).blocked = some (200, "PING :a\r\nPING :b\r\n".toList) ∧
    (Tls.init.run Sample.outputEvents).addr = 200 ∧
    (Tls.init.run Sample.outputEvents).rbuf.length < READBUFFER_LEN := by decide +kernel

/-! ## Where the claim fails -/

/-- Four lines that fill a read, and one more. -/
def Sample.record : Str := (List.replicate 4 (List.replicate 510 'a' ++ ['\r', '\n'])).flatten ++ "QUIT\r\n".toList

def Sample.heldEvents : List TlsEvent := [.arrive Sample.record, .round false 0, .ready false .failed 2048]

theorem Sample.held_facts :
    (Tls.init.run Sample.heldEvents).isOpen = true ∧ (Tls.init.run Sample.heldEvents).kern = [] ∧
    (Tls.init.run Sample.heldEvents).wantWrite = false ∧ (Tls.init.run Sample.heldEvents).wbuf = [] ∧
    (Tls.init.run Sample.heldEvents).rbuf = [] ∧ (Tls.init.run Sample.heldEvents).held = "QUIT\r\n".toList := by
  decide +kernel

/-- C99: a record of more than `READBUFFER_LEN` bytes is not read to its end; nobody asks the TLS library for
the rest (there is no call of `SSL_pending`), and the socket is not ready: the last line, which has arrived
completely, is not handled, however long the peer waits. -/
theorem C99_violated_by_long_record : ∃ es : List TlsEvent, (Tls.init.run es).isOpen = true ∧
    ∀ fs, IdleTls fs → ((Tls.init.run es).run fs).held = "QUIT\r\n".toList := by
  obtain ⟨h1, h2, h3, h4, h5, h6⟩ := Sample.held_facts
  refine ⟨Sample.heldEvents, h1, ?_⟩
  generalize Tls.init.run Sample.heldEvents = x at h1 h2 h3 h4 h5 h6
  intro fs
  induction fs generalizing x with
  | nil => intro _; exact h6
  | cons e fs ih =>
    intro hi
    have hi' : IdleTls fs := fun e he => hi e (List.mem_cons_of_mem _ he)
    rcases hi e List.mem_cons_self with ⟨can, w, k, rfl⟩ | ⟨p, k, rfl⟩
    · have e : x.step (.ready can w k) = x ∨ x.step (.ready can w k) = { x with pollWrite := false } := by
        simp only [Tls.step, tlsReady, h1, h2, h3, tlsHandleWrite, h4, Bool.true_eq_false, if_false, List.isEmpty_nil,
          Bool.not_true, Bool.and_false, true_and, Bool.false_or, Bool.false_eq_true, if_true]
        (repeat' split)
        · exact .inl rfl
        · exact .inr rfl
        · exact .inl rfl
      rcases e with e | e <;> (simp only [Tls.run, List.foldl_cons]; rw [e]; exact ih _ h1 h2 h3 h4 h5 h6 hi')
    · have e : ∃ b, x.step (.round p k) = { x with pollRead := b } := by
        simp only [Tls.step, tlsRound, h1, tlsHandle, h5, tlsWatchOut, h4, tlsWatchIn, h3, Bool.true_eq_false, if_false, if_true,
          Bool.false_eq_true]
        (repeat' split)
        · exact ⟨_, rfl⟩
        · exact ⟨_, rfl⟩
        · exact ⟨_, rfl⟩
      obtain ⟨b, e⟩ := e
      simp only [Tls.run, List.foldl_cons]
      rw [e]
      exact ih _ h1 h2 h3 h4 h5 h6 hi'

def Sample.wantReadEvents : List TlsEvent :=
  [.arrive [], .round false 0, .ready false .failed 0, .write "PING :a\r\n".toList 32768 .failed 100]

theorem Sample.wantRead_facts :
    (Tls.init.run Sample.wantReadEvents).isOpen = true ∧ (Tls.init.run Sample.wantReadEvents).kern = [] ∧
    (Tls.init.run Sample.wantReadEvents).wantWrite = false ∧ (Tls.init.run Sample.wantReadEvents).wantRead = true ∧
    (Tls.init.run Sample.wantReadEvents).pollWrite = false ∧
    (Tls.init.run Sample.wantReadEvents).wbuf = "PING :a\r\n".toList ∧
    (Tls.init.run Sample.wantReadEvents).rbuf = [] ∧ (Tls.init.run Sample.wantReadEvents).sent = [] := by
  decide +kernel

/-- C99: after a read that gave no text (a part of a record, or one of the protocol itself), nothing is written
to the peer until it sends more, although `SSL_write` was not tried and the socket takes output: `SSL_read` has
asked for input, and `Conn_Handler` takes that for what `SSL_write` needs. -/
theorem C99_violated_by_want_read : ∃ es : List TlsEvent, (Tls.init.run es).isOpen = true ∧
    (Tls.init.run es).written = "PING :a\r\n".toList ∧ (Tls.init.run es).blocked = none ∧
    ∀ fs, IdleTls fs → ((Tls.init.run es).run fs).sent = [] := by
  obtain ⟨h1, h2, h3, h4, h5, h6, h7, h8⟩ := Sample.wantRead_facts
  refine ⟨Sample.wantReadEvents, h1, by decide +kernel, by decide +kernel, ?_⟩
  generalize Tls.init.run Sample.wantReadEvents = x at h1 h2 h3 h4 h5 h6 h7 h8
  intro fs
  induction fs generalizing x with
  | nil => intro _; exact h8
  | cons e fs ih =>
    intro hi
    have hi' : IdleTls fs := fun e he => hi e (List.mem_cons_of_mem _ he)
    rcases hi e List.mem_cons_self with ⟨can, w, k, rfl⟩ | ⟨p, k, rfl⟩
    · have e : x.step (.ready can w k) = x := by
        simp only [Tls.step, tlsReady, h1, h2, h5, Bool.true_eq_false, if_false, List.isEmpty_nil,
          Bool.not_true, Bool.and_false, Bool.false_and, and_self, if_true]
      simp only [Tls.run, List.foldl_cons]
      rw [e]
      exact ih _ h1 h2 h3 h4 h5 h6 h7 h8 hi'
    · have e : ∃ b, x.step (.round p k) = { x with pollRead := b } := by
        have hne : x.wbuf ≠ [] := by rw [h6]; decide
        simp only [Tls.step, tlsRound, h1, tlsHandle, h7, tlsWatchOut, if_neg hne, h4, tlsWatchIn, h3, Bool.true_eq_false, if_false,
          if_true, Bool.false_eq_true]
        (repeat' split)
        · exact ⟨_, rfl⟩
        · exact ⟨_, rfl⟩
        · exact ⟨_, rfl⟩
      obtain ⟨b, e⟩ := e
      simp only [Tls.run, List.foldl_cons]
      rw [e]
      exact ih _ h1 h2 h3 h4 h5 h6 h7 h8 hi'

/-- Five lines in the read buffer, during a penalty. -/
def Sample.fullEvents : List TlsEvent :=
  [.arrive (List.replicate 500 'a' ++ ['\r', '\n']), .round false 0, .ready false .failed 0,
    .arrive (List.replicate 4 (List.replicate 510 'a' ++ ['\r', '\n'])).flatten, .round false 0, .ready false .failed 0,
    .write "PING :a\r\n".toList 32768 .failed 100, .round true 0, .ready true .wantWrite 0, .round true 0]

/-- C99: when the TLS library has asked for output, `cb_clientserver` calls `Read_Request`, even if the read
buffer is full because of a penalty: the connection is closed ("Receive buffer space exhausted") before
anything is written. -/
theorem C99_violated_by_full_buffer : ∃ es : List TlsEvent, (Tls.init.run es).isOpen = true ∧
    (Tls.init.run es).wantWrite = true ∧ (Tls.init.run es).wbuf = "PING :a\r\n".toList ∧
    ∀ w k, ((Tls.init.run es).step (.ready true w k)).isOpen = false ∧
      ((Tls.init.run es).step (.ready true w k)).sent = [] := by
  have h : (Tls.init.run Sample.fullEvents).isOpen = true ∧ (Tls.init.run Sample.fullEvents).wantWrite = true ∧
      (Tls.init.run Sample.fullEvents).wbuf = "PING :a\r\n".toList ∧
      READBUFFER_LEN ≤ (Tls.init.run Sample.fullEvents).rbuf.length ∧
      (Tls.init.run Sample.fullEvents).pollWrite = true ∧ (Tls.init.run Sample.fullEvents).sent = [] := by decide +kernel
  obtain ⟨h1, h2, h3, h4, h5, h6⟩ := h
  refine ⟨Sample.fullEvents, h1, h2, h3, fun w k => ?_⟩
  generalize Tls.init.run Sample.fullEvents = x at h1 h2 h3 h4 h5 h6
  have e : x.step (.ready true w k) = x.close := by
    simp only [Tls.step, tlsReady, h1, h2, h5, Bool.true_eq_false, if_false, Bool.and_true, and_false, Bool.or_true, if_true,
      tlsReadRequest, if_pos h4]
    rfl
  rw [e]
  exact ⟨rfl, h6⟩

/-- A write that blocks, and one more line. -/
def Sample.movedEvents : List TlsEvent :=
  [.write "PING :a\r\n".toList 32768 .failed 100, .round false 0, .ready true .wantWrite 0,
    .write "PING :b\r\n".toList 32768 .failed 200, .round false 0]

/-- C99: when a write has blocked and `realloc()` moves the write buffer before it is repeated, the connection
is closed with an error of the TLS library, and nothing is sent. -/
theorem C99_violated_by_moved_buffer : ∃ es : List TlsEvent, (Tls.init.run es).isOpen = true ∧
    (Tls.init.run es).written = "PING :a\r\nPING :b\r\n".toList ∧
    ∀ w k, ((Tls.init.run es).step (.ready true w k)).isOpen = false ∧
      ((Tls.init.run es).step (.ready true w k)).sent = [] := by
  have h : (Tls.init.run Sample.movedEvents).isOpen = true ∧ (Tls.init.run Sample.movedEvents).wantWrite = true ∧
      (Tls.init.run Sample.movedEvents).written = "PING :a\r\nPING :b\r\n".toList ∧
      (Tls.init.run Sample.movedEvents).rbuf = [] ∧ (Tls.init.run Sample.movedEvents).kern = [] ∧
      (Tls.init.run Sample.movedEvents).held = [] ∧ badRetry (Tls.init.run Sample.movedEvents) = true ∧
      (Tls.init.run Sample.movedEvents).wbuf ≠ [] ∧
      (Tls.init.run Sample.movedEvents).pollWrite = true ∧ (Tls.init.run Sample.movedEvents).sent = [] := by decide +kernel
  obtain ⟨h1, h2, h3, h4, h5, h6, h7, h8, h9, h10⟩ := h
  refine ⟨Sample.movedEvents, h1, h3, fun w k => ?_⟩
  generalize Tls.init.run Sample.movedEvents = x at h1 h2 h3 h4 h5 h6 h7 h8 h9 h10
  have er : tlsReadRequest x k = { x with wantRead := true, wantWrite := false, kern := [], held := [], pollWrite := false } := by
    simp only [tlsReadRequest, tlsRead, h1, h4, h5, h6, sslRead, Bool.true_eq_false, if_false, List.length_nil]
    rfl
  have e : (x.step (.ready true w k)).isOpen = false ∧ (x.step (.ready true w k)).sent = x.sent := by
    simp only [Tls.step, tlsReady, h1, h2, h9, Bool.true_eq_false, if_false, Bool.and_true, and_false, Bool.or_true, if_true, er,
      tlsHandleWrite, if_neg h8, tlsWrite]
    have hb : badRetry { x with isOpen := true, wantRead := true, wantWrite := false, kern := [], held := [], pollWrite := false } = true := h7
    rw [hb]
    exact ⟨rfl, rfl⟩
  rw [e.1, e.2]
  exact ⟨rfl, h10⟩

end Ngircd
