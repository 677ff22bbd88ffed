import Verif.Model.Zip
import Verif.Spec.Zip
import Verif.Lemmas.ConnRead
import Verif.Props.ConnRead

/-!
# C98: compressed server links

The output side, the input side, and both together, for every zlib that keeps its promise (`Lawful`).
-/

namespace Ngircd
open Ngircd.Spec

/-! ## The output side -/

theorem packed_append (z : Zlib) (d : z.D) (cs : List Str) (c : Str) :
    packed z d (cs ++ [c]) = ((z.deflate (packed z d cs).1 c).1, (packed z d cs).2 ++ (z.deflate (packed z d cs).1 c).2) := by
  induction cs generalizing d with
  | nil => simp [packed]
  | cons a cs ih =>
    simp only [List.cons_append, packed]
    rw [ih]
    simp

/-- What holds of the output side: everything written is on the wire or in the buffer, in order, the text
after the start of the compression in pieces that were compressed one after the other. -/
def TxInv {z : Zlib} (x : Tx z) : Prop :=
  ∃ (css : List (List Str)) (rest : List Str),
    x.after = css.flatten ++ rest ∧
    (x.isOpen = true →
      x.sent ++ x.wbuf = x.before.flatten ++ (packed z z.d0 (css.map List.flatten)).2 ∧
      x.dfl = (packed z z.d0 (css.map List.flatten)).1 ∧ x.zwbuf = rest.flatten ∧
      (x.zip = false → css = [] ∧ rest = [])) ∧
    x.sent <+: x.before.flatten ++ (packed z z.d0 (css.map List.flatten)).2

theorem txInv_close {z : Zlib} {x : Tx z} (h : TxInv x) : TxInv x.close := by
  obtain ⟨css, rest, h1, _, h3⟩ := h
  exact ⟨css, rest, h1, (fun e => by cases e), h3⟩

theorem zipFlush_inv {z : Zlib} {x : Tx z} (ho : x.isOpen = true) (h : TxInv x) :
    TxInv (zipFlush x).1 ∧ ((zipFlush x).2 = true → (zipFlush x).1.isOpen = true ∧ (zipFlush x).1.zip = x.zip ∧
      (zipFlush x).1.before = x.before ∧ (zipFlush x).1.after = x.after) := by
  unfold zipFlush
  split
  · exact ⟨h, fun _ => ⟨ho, rfl, rfl, rfl⟩⟩
  · rename_i hne
    simp only
    split
    · exact ⟨txInv_close h, (fun e => by cases e)⟩
    · refine ⟨?_, fun _ => ⟨ho, rfl, rfl, rfl⟩⟩
      obtain ⟨css, rest, h1, h2, h3⟩ := h
      obtain ⟨h2, h4, h5, h6⟩ := h2 ho
      have hp : packed z z.d0 ((css ++ [rest]).map List.flatten) =
          ((z.deflate x.dfl x.zwbuf).1, (packed z z.d0 (css.map List.flatten)).2 ++ (z.deflate x.dfl x.zwbuf).2) := by
        rw [List.map_append, List.map_cons, List.map_nil, packed_append, ← h4, ← h5]
      refine ⟨css ++ [rest], [], by simp [h1], fun _ => ?_, ?_⟩
      · rw [hp]
        refine ⟨by simp only; rw [← List.append_assoc, h2, List.append_assoc], rfl, rfl, fun e => ?_⟩
        rw [(h6 e).2] at h5
        exact absurd h5 hne
      · rw [hp]
        simp only
        rw [← List.append_assoc]
        exact h3.trans (List.prefix_append _ _)

theorem zipBuffer_inv {z : Zlib} {x : Tx z} (data : Str) (ho : x.isOpen = true) (hz : x.zip = true) (h : TxInv x) :
    TxInv (zipBuffer x data).1 := by
  unfold zipBuffer
  have hr : TxInv (if x.zwbuf.length + data.length ≥ WRITEBUFFER_SLINK_LEN then zipFlush x else (x, true)).1 ∧
      ((if x.zwbuf.length + data.length ≥ WRITEBUFFER_SLINK_LEN then zipFlush x else (x, true)).2 = true →
        (if x.zwbuf.length + data.length ≥ WRITEBUFFER_SLINK_LEN then zipFlush x else (x, true)).1.isOpen = true ∧
        (if x.zwbuf.length + data.length ≥ WRITEBUFFER_SLINK_LEN then zipFlush x else (x, true)).1.zip = true) := by
    split
    · have := zipFlush_inv ho h
      exact ⟨this.1, fun e => ⟨(this.2 e).1, (this.2 e).2.1.trans hz⟩⟩
    · exact ⟨h, fun _ => ⟨ho, hz⟩⟩
  generalize (if x.zwbuf.length + data.length ≥ WRITEBUFFER_SLINK_LEN then zipFlush x else (x, true)) = r at hr
  obtain ⟨y, ok⟩ := r
  obtain ⟨hi, hok⟩ := hr
  simp only at hi hok ⊢
  split
  · exact hi
  · rename_i hb
    have hb : ok = true := by simpa using hb
    obtain ⟨hyo, hyz⟩ := hok hb
    split
    · exact txInv_close hi
    · obtain ⟨css, rest, h1, h2, h3⟩ := hi
      obtain ⟨h2, h4, h5, h6⟩ := h2 hyo
      refine ⟨css, rest ++ [data], by simp [h1], fun _ => ⟨h2, h4, by simp [h5], ?_⟩, h3⟩
      intro e
      simp only [hyz] at e
      cases e

theorem zipHandleWrite_inv {z : Zlib} {x : Tx z} (w : WRes) (h : TxInv x) :
    TxInv (zipHandleWrite x w).1 ∧ ((zipHandleWrite x w).2 = true →
      (zipHandleWrite x w).1.isOpen = true ∧ (zipHandleWrite x w).1.zip = x.zip ∧
      (zipHandleWrite x w).1.before = x.before ∧ (zipHandleWrite x w).1.after = x.after) := by
  unfold zipHandleWrite
  split
  · exact ⟨h, (fun e => by cases e)⟩
  · rename_i ho
    have ho : x.isOpen = true := by simpa using ho
    have hr : TxInv (if x.wbuf = [] then zipFlush x else (x, true)).1 ∧
        ((if x.wbuf = [] then zipFlush x else (x, true)).2 = true →
          (if x.wbuf = [] then zipFlush x else (x, true)).1.isOpen = true ∧
          (if x.wbuf = [] then zipFlush x else (x, true)).1.zip = x.zip ∧
          (if x.wbuf = [] then zipFlush x else (x, true)).1.before = x.before ∧
          (if x.wbuf = [] then zipFlush x else (x, true)).1.after = x.after) := by
      split
      · exact zipFlush_inv ho h
      · exact ⟨h, fun _ => ⟨ho, rfl, rfl, rfl⟩⟩
    generalize (if x.wbuf = [] then zipFlush x else (x, true)) = r at hr
    obtain ⟨y, ok⟩ := r
    obtain ⟨hi, hok⟩ := hr
    simp only at hi hok ⊢
    split
    · rename_i hb
      exact ⟨hi, (fun e => by cases e)⟩
    · rename_i hb
      have hok := hok (by simpa using hb)
      split
      · exact ⟨hi, fun _ => hok⟩
      · split
        · exact ⟨hi, fun _ => hok⟩
        · exact ⟨txInv_close hi, (fun e => by cases e)⟩
        · rename_i n
          refine ⟨?_, fun _ => hok⟩
          obtain ⟨css, rest, h1, h2, h3⟩ := hi
          obtain ⟨h2, h4, h5, h6⟩ := h2 hok.1
          refine ⟨css, rest, h1, fun _ => ⟨?_, h4, h5, h6⟩, ?_⟩
          · simp only
            rw [List.append_assoc, List.take_append_drop, h2]
          · refine ⟨y.wbuf.drop n, ?_⟩
            simp only
            rw [List.append_assoc, List.take_append_drop, h2]

theorem txInv_step {z : Zlib} {x : Tx z} (e : TxEvent) (h : TxInv x) : TxInv (x.step e) := by
  cases e with
  | writable w => exact (zipHandleWrite_inv w h).1
  | enable =>
    obtain ⟨css, rest, h1, h2, h3⟩ := h
    refine ⟨css, rest, h1, fun ho => ?_, h3⟩
    obtain ⟨h2, h4, h5, _⟩ := h2 ho
    exact ⟨h2, h4, h5, (fun e => by cases e)⟩
  | write data limit w =>
    simp only [Tx.step]
    unfold zipConnWrite
    split
    · exact h
    · rename_i ho
      have ho : x.isOpen = true := by simpa using ho
      split
      · rename_i hz
        exact zipBuffer_inv data ho hz h
      · rename_i hz
        have hz : x.zip = false := by simpa using hz
        have hr : TxInv (if x.wbuf.length + data.length ≥ WRITEBUFFER_FLUSH_LEN then zipHandleWrite x w else (x, true)).1 ∧
            ((if x.wbuf.length + data.length ≥ WRITEBUFFER_FLUSH_LEN then zipHandleWrite x w else (x, true)).2 = true →
              (if x.wbuf.length + data.length ≥ WRITEBUFFER_FLUSH_LEN then zipHandleWrite x w else (x, true)).1.isOpen = true ∧
              (if x.wbuf.length + data.length ≥ WRITEBUFFER_FLUSH_LEN then zipHandleWrite x w else (x, true)).1.zip = false) := by
          split
          · have := zipHandleWrite_inv w h
            exact ⟨this.1, fun e => ⟨(this.2 e).1, (this.2 e).2.1.trans hz⟩⟩
          · exact ⟨h, fun _ => ⟨ho, hz⟩⟩
        generalize (if x.wbuf.length + data.length ≥ WRITEBUFFER_FLUSH_LEN then zipHandleWrite x w else (x, true)) = r at hr
        obtain ⟨y, ok⟩ := r
        obtain ⟨hi, hok⟩ := hr
        simp only at hi hok ⊢
        split
        · exact hi
        · rename_i hb
          obtain ⟨hyo, hyz⟩ := hok (by simpa using hb)
          split
          · exact txInv_close hi
          · obtain ⟨css, rest, h1, h2, h3⟩ := hi
            have hh := h2 hyo
            clear h2
            obtain ⟨h2, h4, h5, h6⟩ := hh
            obtain ⟨rfl, rfl⟩ := h6 hyz
            refine ⟨[], [], h1, fun _ => ⟨?_, h4, h5, fun _ => ⟨rfl, rfl⟩⟩, ?_⟩
            · simp only [List.map_nil, packed, List.append_nil] at h2 ⊢
              rw [← List.append_assoc, h2, List.flatten_append]
              simp
            · simp only [List.map_nil, packed, List.append_nil] at h3 ⊢
              rw [List.flatten_append]
              exact h3.trans (List.prefix_append _ _)

theorem txInv_run {z : Zlib} (es : List TxEvent) {x : Tx z} (h : TxInv x) : TxInv (x.run es) := by
  induction es generalizing x with
  | nil => exact h
  | cons e es ih => exact ih (txInv_step e h)

theorem txInv_init (z : Zlib) : TxInv (Tx.init z) :=
  ⟨[], [], rfl, fun _ => ⟨rfl, rfl, rfl, fun _ => ⟨rfl, rfl⟩⟩, ⟨[], rfl⟩⟩

/-- C98, the sender: whatever the kernel takes and whenever the buffers are flushed, the bytes on the wire
are the lines from before the compression, as they are, and then lines that were compressed piece by piece,
all in order; and all that is not on the wire is still in the buffers, as long as the connection is open. -/
theorem C98_sender (z : Zlib) (es : List TxEvent) :
    ∃ (css : List (List Str)) (rest : List Str), ((Tx.init z).run es).after = css.flatten ++ rest ∧
      ((Tx.init z).run es).sent <+: ((Tx.init z).run es).before.flatten ++ (packed z z.d0 (css.map List.flatten)).2 ∧
      (((Tx.init z).run es).isOpen = true →
        ((Tx.init z).run es).sent ++ ((Tx.init z).run es).wbuf =
          ((Tx.init z).run es).before.flatten ++ (packed z z.d0 (css.map List.flatten)).2 ∧
        ((Tx.init z).run es).zwbuf = rest.flatten) := by
  obtain ⟨css, rest, h1, h2, h3⟩ := txInv_run es (txInv_init z)
  exact ⟨css, rest, h1, h3, fun ho => ⟨(h2 ho).1, (h2 ho).2.2.1⟩⟩

/-! ## Finding the end of a line -/

theorem takeWhile_line {l : Str} (h : '\x00' ∉ l) (r : Str) :
    (l ++ r).takeWhile (fun c => c != '\x00') = l ++ r.takeWhile (fun c => c != '\x00') := by
  induction l with
  | nil => rfl
  | cons c l ih =>
    simp only [List.mem_cons, not_or] at h
    have : (c != '\x00') = true := by simpa using fun e => h.1 e.symm
    simp [this, ih h.2]

theorem idx_line {l : Str} {x : Char} (h : x ∉ l) (r : Str) : idx (l ++ x :: r) x = some l.length := by
  induction l with
  | nil => simp [idx]
  | cons c l ih =>
    simp only [List.mem_cons, not_or] at h
    have : (c == x) = false := by simpa using fun e => h.1 e.symm
    simp [idx, this, ih h.2]

theorem idxCrLf_line {l : Str} (h : '\r' ∉ l) (r : Str) : idxCrLf (l ++ '\r' :: '\n' :: r) = some l.length := by
  induction l with
  | nil => simp [idxCrLf]
  | cons c l ih =>
    simp only [List.mem_cons, not_or] at h
    have hc : (c == '\r') = false := by simpa using fun e => h.1 e.symm
    have ih := ih h.2
    cases l with
    | nil => simp [idxCrLf, hc] at ih ⊢
    | cons d l =>
      simp only [List.cons_append] at ih ⊢
      rw [idxCrLf]
      simp only [hc, Bool.false_and, ih]
      simp

/-- A whole line. -/
theorem findEol_line {l : Str} (h : WireLine l) (r : Str) :
    findEol (l ++ ['\r', '\n'] ++ r) = some (l.length, 2) := by
  have e : (l ++ ['\r', '\n'] ++ r).takeWhile (fun c => c != '\x00') =
      l ++ '\r' :: '\n' :: r.takeWhile (fun c => c != '\x00') := by
    rw [List.append_assoc, takeWhile_line h.2.2.1]
    simp [List.takeWhile]
  have h2 : idx (l ++ '\r' :: '\n' :: r.takeWhile (fun c => c != '\x00')) '\n' = some (l.length + 1) := by
    have := idx_line (l := l ++ ['\r']) (x := '\n') (by simp [h.2.1]) (r.takeWhile (fun c => c != '\x00'))
    simpa using this
  unfold findEol
  rw [e]
  simp only [idxCrLf_line h.1, idx_line h.1, h2]
  have : ¬ l.length + 1 < l.length := by omega
  simp

theorem line_noEol {l : Str} (h : WireLine l) : NoEol l := by
  intro c hc
  unfold isEol
  cases hx : (c == '\r' || c == '\n') with
  | false => rfl
  | true =>
    simp only [Bool.or_eq_true, beq_iff_eq] at hx
    rcases hx with rfl | rfl
    · exact absurd hc h.1
    · exact absurd hc h.2.1

/-- A line whose LF has not come yet. -/
theorem findEol_cr {l : Str} (h : WireLine l) : findEol (l ++ ['\r']) = some (l.length, 1) := by
  obtain ⟨d, hf, hd⟩ := findEol_isSome (rbuf := l ++ ['\r']) (l := l) (c := '\r') (rest := []) rfl (line_noEol h) h.2.2.1 rfl
  rcases hd with rfl | rfl
  · exact hf
  · obtain ⟨l', c, rest, e, _, _, _, hp, hd⟩ := findEol_split hf
    rcases hd with hd | ⟨_, _, r', hr⟩
    · cases hd
    · exfalso
      have := congrArg List.length e
      rw [hr] at this
      simp at this
      omega

/-- The LF of a line that was taken already. -/
theorem findEol_lf (b : Str) : findEol ('\n' :: b) = some (0, 1) := by
  obtain ⟨d, hf, hd⟩ := findEol_isSome (rbuf := '\n' :: b) (l := []) (c := '\n') (rest := b) rfl
    (fun c hc => by cases hc) (by simp) rfl
  rcases hd with rfl | rfl
  · exact hf
  · obtain ⟨l', c, rest, e, _, _, _, hp, hd⟩ := findEol_split hf
    have : l' = [] := List.length_eq_zero_iff.mp hp.symm
    subst this
    simp only [List.nil_append, List.cons.injEq] at e
    rcases hd with hd | ⟨_, hc, _⟩
    · cases hd
    · rw [hc] at e
      exact absurd e.1 (by decide)

/-- The beginning of a line. -/
theorem findEol_part {l b : Str} (h : WireLine l) (hb : b <+: l) : findEol b = none := by
  refine findEol_eq_none (fun c hc => ?_)
  have hm := (List.takeWhile_sublist _).subset hc
  exact line_noEol h c (hb.subset hm)

/-! ## The input side -/

theorem onWire_cons (l : Str) (ls : List Str) : onWire (l :: ls) = l ++ ['\r', '\n'] ++ onWire ls := rfl

/-- How the buffer can begin when the rest of the text is `nl ++ onWire ls`. -/
theorem buf_cases {ls : List Str} {b v nl : Str} (hl : ∀ l ∈ ls, WireLine l) (hn : nl = [] ∨ nl = ['\n'])
    (more : Str) (h : b ++ v = nl ++ (onWire ls ++ more)) (hls : ls ≠ [] ∨ more = []) (hb : b ≠ []) :
    (∃ b', nl = ['\n'] ∧ b = '\n' :: b' ∧ b' ++ v = onWire ls ++ more) ∨
    (nl = [] ∧ ∃ l rest, ls = l :: rest ∧
      ((∃ b', b = l ++ ['\r', '\n'] ++ b' ∧ b' ++ v = onWire rest ++ more) ∨
       (b = l ++ ['\r'] ∧ v = '\n' :: (onWire rest ++ more)) ∨ b <+: l)) := by
  rcases hn with rfl | rfl
  · right
    refine ⟨rfl, ?_⟩
    cases ls with
    | nil =>
      exfalso
      rcases hls with h' | rfl
      · exact h' rfl
      · simp [onWire] at h
        exact hb h.1
    | cons l rest =>
      refine ⟨l, rest, rfl, ?_⟩
      rw [onWire_cons] at h
      simp only [List.nil_append, List.append_assoc] at h
      rcases List.append_eq_append_iff.mp h with ⟨u, h1, h2⟩ | ⟨u, h1, h2⟩
      · exact .inr (.inr ⟨u, h1.symm⟩)
      · cases u with
        | nil => exact .inr (.inr ⟨[], by rw [h1]; simp⟩)
        | cons c u =>
          simp only [List.cons_append, List.nil_append, List.cons.injEq] at h2
          obtain ⟨rfl, h2⟩ := h2
          cases u with
          | nil => exact .inr (.inl ⟨h1, h2.symm⟩)
          | cons c u =>
            simp only [List.cons_append, List.cons.injEq] at h2
            obtain ⟨rfl, h2⟩ := h2
            exact .inl ⟨u, by rw [h1]; simp, h2.symm⟩
  · left
    cases b with
    | nil => exact absurd rfl hb
    | cons c b =>
      simp only [List.cons_append, List.nil_append, List.cons.injEq] at h
      obtain ⟨rfl, h⟩ := h
      exact ⟨b, rfl, rfl, h⟩

theorem startsZip_iff {acts : Str → Bool} {A : List Str} (h : StartsZip acts A) {done rest : List Str} {l : Str}
    (e : A = done ++ l :: rest) : (acts l = true ↔ rest = []) := by
  obtain ⟨a0, a, rfl, ha, hn⟩ := h
  cases hr : rest.reverse with
  | nil =>
    have hr : rest = [] := List.reverse_eq_nil_iff.mp hr
    subst hr
    have := List.append_inj' e rfl
    simp only [List.cons.injEq] at this
    rw [← this.2.1, ha]
    simp
  | cons b r =>
    have hr : rest = r.reverse ++ [b] := by rw [← List.reverse_reverse rest, hr]; simp
    subst hr
    have e' : a0 ++ [a] = (done ++ l :: r.reverse) ++ [b] := by rw [e]; simp
    have := List.append_inj' e' rfl
    have hl := hn l (by rw [this.1]; simp)
    rw [hl]
    simp

/-- What holds of the input side: `got` was read so far of the lines `A`, as they are, and the stream `S`,
which is made of the lines `B`. -/
def RxInv {z : Zlib} (A B : List Str) (S got : Str) (x : Rx z) : Prop :=
  ∃ U, got ++ U = onWire A ++ S ∧
    ((x.zip = false ∧ x.zrbuf = [] ∧ x.inf = z.i0 ∧ ∃ done ls nl, A = done ++ ls ∧ ls ≠ [] ∧ x.executed = done ∧
        (nl = [] ∨ nl = ['\n']) ∧ x.rbuf ++ U = nl ++ (onWire ls ++ S)) ∨
     (x.zip = true ∧ ∃ done ls nl s t V, B = done ++ ls ∧ x.executed = A ++ done ∧ (nl = [] ∨ nl = ['\n']) ∧
        Unpacked z x.inf s t ∧ s ++ (x.zrbuf ++ U) = S ∧ t ++ V = onWire B ∧ x.rbuf ++ V = nl ++ (onWire ls ++ []) ∧
        (s = S → t = onWire B)))

theorem unzip_inv {z : Zlib} (hz : Lawful z) {A B cs : List Str} (hB : cs.flatten = onWire B) {got : Str} {x : Rx z}
    (ho : x.isOpen = true) (h : RxInv A B (packed z z.d0 cs).2 got x) :
    (if x.zip then unzipBuffer x else (x, true)).2 = true ∧
    (if x.zip then unzipBuffer x else (x, true)).1.isOpen = true ∧
    (if x.zip then unzipBuffer x else (x, true)).1.zip = x.zip ∧
    RxInv A B (packed z z.d0 cs).2 got (if x.zip then unzipBuffer x else (x, true)).1 := by
  split
  · rename_i hzip
    unfold unzipBuffer
    split
    · exact ⟨rfl, ho, rfl, h⟩
    · rename_i hne
      obtain ⟨U, hU, h⟩ := h
      rcases h with ⟨h1, _⟩ | ⟨_, done, ls, nl, s, t, V, h1, h2, h3, h4, h5, h6, h7, h8⟩
      · rw [hzip] at h1; cases h1
      · obtain ⟨g1, g2, g3, g4⟩ := hz.2 cs x.inf s t x.zrbuf READBUFFER_LEN h4 ⟨U, by rw [List.append_assoc]; exact h5⟩ hne (by decide)
        simp only [g1]
        refine ⟨rfl, ho, rfl, U, hU, .inr ⟨hzip, done, ls, nl,
          s ++ x.zrbuf.take (z.inflate x.inf x.zrbuf READBUFFER_LEN).used,
          t ++ (z.inflate x.inf x.zrbuf READBUFFER_LEN).out, ?_⟩⟩
        obtain ⟨V', hV'⟩ := g3
        have hV : V = (z.inflate x.inf x.zrbuf READBUFFER_LEN).out ++ V' := by
          rw [hB, ← h6, List.append_assoc] at hV'
          exact (List.append_cancel_left hV').symm
        refine ⟨V', h1, h2, h3, .step _ _ h4 g1, ?_, by rw [hV', hB], ?_, fun e => by rw [g4 e, hB]⟩
        · simp only [Bool.true_eq_false, if_false]
          rw [List.append_assoc, ← List.append_assoc (List.take _ _), List.take_append_drop, h5]
        · simp only [Bool.true_eq_false, if_false]
          rw [List.append_assoc, ← hV, h7]
  · exact ⟨rfl, ho, rfl, h⟩

theorem line_len {l : Str} (h : WireLine l) {d : Nat} (hd : d ≤ 2) : ¬ l.length + d > COMMAND_LEN - 1 := by
  have := h.2.2.2.2
  have hc : COMMAND_LEN = 513 := rfl
  omega

theorem line_ne {l : Str} (h : WireLine l) : ¬ l.length = 0 :=
  fun e => h.2.2.2.1 (List.length_eq_zero_iff.mp e)

/-- The loop of `Handle_Buffer` keeps this, and the connection open. -/
theorem zipLoop_inv {z : Zlib} (hz : Lawful z) {acts : Str → Bool} {A B cs : List Str} (ha : StartsZip acts A)
    (hA : ∀ l ∈ A, WireLine l) (hBl : ∀ l ∈ B, WireLine l) (hB : cs.flatten = onWire B) {got : Str}
    (hs : got.length + 1 ≠ (onWire A).length) (n : Nat) {x : Rx z} (ho : x.isOpen = true)
    (h : RxInv A B (packed z z.d0 cs).2 got x) :
    (zipLoop acts n x).isOpen = true ∧ RxInv A B (packed z z.d0 cs).2 got (zipLoop acts n x) := by
  induction n generalizing x with
  | zero => exact ⟨ho, h⟩
  | succ n ih =>
    unfold zipLoop
    obtain ⟨g1, g2, g3, g4⟩ := unzip_inv hz hB ho h
    generalize (if x.zip then unzipBuffer x else (x, true)) = r at g1 g2 g3 g4
    obtain ⟨y, ok⟩ := r
    simp only at g1 g2 g3 g4 ⊢
    subst g1
    simp only [Bool.true_eq_false, if_false]
    split
    · exact ⟨g2, g4⟩
    · rename_i hne
      have h := g4
      obtain ⟨U, hU, h⟩ := h
      rcases h with ⟨h1, h2, h3, done, ls, nl, h4, h5, h6, h7, h8⟩ | ⟨h1, done, ls, nl, s, t, V, h2, h3, h4, h5, h6, h7, h8, h9⟩
      · have hls : ∀ l ∈ ls, WireLine l := fun l hl => hA l (by rw [h4]; exact List.mem_append_right _ hl)
        rcases buf_cases hls h7 _ h8 (.inl h5) hne with ⟨b, rfl, hb, hv⟩ | ⟨rfl, l, rest, rfl, hc⟩
        · rw [hb, findEol_lf]
          simp only [List.drop_succ_cons, List.drop_zero]
          rw [if_neg (by decide), if_pos trivial]
          exact ih g2 ⟨U, hU, .inl ⟨h1, h2, h3, done, ls, [], h4, h5, h6, .inl rfl, hv⟩⟩
        · have hl := hls l List.mem_cons_self
          have hact := startsZip_iff ha h4
          rcases hc with ⟨b, hb, hv⟩ | ⟨hb, hv⟩ | hb
          · rw [hb, findEol_line hl]
            simp only
            rw [if_neg (line_len hl (Nat.le_refl _)), if_neg (line_ne hl)]
            have ht : (l ++ ['\r', '\n'] ++ b).take l.length = l := by simp
            have hd : y.rbuf.drop (l.length + 2) = b := by
              rw [hb]
              have : (l ++ ['\r', '\n']).length = l.length + 2 := by simp
              rw [← this, List.drop_left]
            rw [ht]
            unfold afterRequest
            simp only [hd, h1, true_and]
            split
            · rename_i hacts
              have hrest := hact.mp hacts
              subst hrest
              have hA' : A = done ++ [l] := h4
              have hz0 : ∀ w : Str, w ++ U = (packed z z.d0 cs).2 → ([] : Str) ++ (w ++ U) = (packed z z.d0 cs).2 := fun w e => e
              have hv' : b ++ U = (packed z z.d0 cs).2 := hv
              have hfin : ([] : Str) = (packed z z.d0 cs).2 → ([] : Str) = onWire B := fun e => by rw [← hB, hz.1 cs e.symm]
              split
              · rename_i hb0
                subst hb0
                exact ih g2 ⟨U, hU, .inr ⟨rfl, [], B, [], [], [], onWire B, rfl, by simp [h6, hA'], .inl rfl,
                  by simp only; rw [h3]; exact .init, by simp only [h2]; exact hz0 _ hv', rfl, by simp, hfin⟩⟩
              · exact ih g2 ⟨U, hU, .inr ⟨rfl, [], B, [], [], [], onWire B, rfl, by simp [h6, hA'], .inl rfl,
                  by simp only; rw [h3]; exact .init, hz0 _ hv', rfl, by simp, hfin⟩⟩
            · rename_i hacts
              refine ih g2 ⟨U, hU, .inl ⟨rfl, h2, h3, done ++ [l], rest, [], by simp [h4], fun e => hacts (hact.mpr e),
                by simp [h6], .inl rfl, hv⟩⟩
          · rw [hb, findEol_cr hl]
            simp only
            rw [if_neg (line_len hl (by decide)), if_neg (line_ne hl)]
            have ht : (l ++ ['\r']).take l.length = l := by simp
            have hd : y.rbuf.drop (l.length + 1) = [] := by rw [hb]; simp
            rw [ht]
            unfold afterRequest
            simp only [hd, h1, true_and]
            split
            · rename_i hacts
              exfalso
              have hrest := hact.mp hacts
              subst hrest
              apply hs
              have h0 := congrArg List.length hU
              have h00 := congrArg List.length hv
              simp only [List.length_append, List.length_cons, List.length_nil, onWire, List.map_nil, List.flatten_nil] at h0 h00
              simp only [onWire]
              omega
            · rename_i hacts
              refine ih g2 ⟨U, hU, .inl ⟨rfl, h2, h3, done ++ [l], rest, ['\n'], by simp [h4], fun e => hacts (hact.mpr e),
                by simp [h6], .inr rfl, by simpa using hv⟩⟩
          · rw [findEol_part hl hb]
            exact ⟨g2, g4⟩
      · have hls : ∀ l ∈ ls, WireLine l := fun l hl => hBl l (by rw [h2]; exact List.mem_append_right _ hl)
        rcases buf_cases hls h4 _ h8 (.inr rfl) hne with ⟨b, rfl, hb, hv⟩ | ⟨rfl, l, rest, rfl, hc⟩
        · rw [hb, findEol_lf]
          simp only [List.drop_succ_cons, List.drop_zero]
          rw [if_neg (by decide), if_pos trivial]
          exact ih g2 ⟨U, hU, .inr ⟨h1, done, ls, [], s, t, V, h2, h3, .inl rfl, h5, h6, h7, hv, h9⟩⟩
        · have hl := hls l List.mem_cons_self
          rcases hc with ⟨b, hb, hv⟩ | ⟨hb, hv⟩ | hb
          · rw [hb, findEol_line hl]
            simp only
            rw [if_neg (line_len hl (Nat.le_refl _)), if_neg (line_ne hl)]
            have ht : (l ++ ['\r', '\n'] ++ b).take l.length = l := by simp
            have hd : y.rbuf.drop (l.length + 2) = b := by
              rw [hb]
              have : (l ++ ['\r', '\n']).length = l.length + 2 := by simp
              rw [← this, List.drop_left]
            rw [ht]
            unfold afterRequest
            simp only [hd, h1]
            simp only [Bool.true_eq_false, false_and, if_false]
            exact ih g2 ⟨U, hU, .inr ⟨rfl, done ++ [l], rest, [], s, t, V, by simp [h2], by simp [h3], .inl rfl, h5, h6, h7, hv, h9⟩⟩
          · rw [hb, findEol_cr hl]
            simp only
            rw [if_neg (line_len hl (by decide)), if_neg (line_ne hl)]
            have ht : (l ++ ['\r']).take l.length = l := by simp
            have hd : y.rbuf.drop (l.length + 1) = [] := by rw [hb]; simp
            rw [ht]
            unfold afterRequest
            simp only [hd, h1]
            simp only [Bool.true_eq_false, false_and, if_false]
            exact ih g2 ⟨U, hU, .inr ⟨rfl, done ++ [l], rest, ['\n'], s, t, V, by simp [h2], by simp [h3], .inr rfl, h5, h6, h7,
              by simpa using hv, h9⟩⟩
          · rw [findEol_part hl hb]
            exact ⟨g2, g4⟩

theorem rx_step {z : Zlib} (hz : Lawful z) {acts : Str → Bool} {A B cs : List Str} (ha : StartsZip acts A)
    (hA : ∀ l ∈ A, WireLine l) (hBl : ∀ l ∈ B, WireLine l) (hB : cs.flatten = onWire B) {got : Str} (e : RxEvent)
    (hr : got ++ readOf [e] <+: onWire A ++ (packed z z.d0 cs).2)
    (hs : (got ++ readOf [e]).length + 1 ≠ (onWire A).length) {x : Rx z} (ho : x.isOpen = true)
    (hroom : ∀ data n, e = .read data n → x.rbuf.length < READBUFFER_LEN ∧ x.zrbuf.length < READBUFFER_LEN)
    (h : RxInv A B (packed z z.d0 cs).2 got x) :
    (x.step acts e).isOpen = true ∧ RxInv A B (packed z z.d0 cs).2 (got ++ readOf [e]) (x.step acts e) := by
  cases e with
  | round n =>
    have hg : got ++ readOf [.round n] = got := by simp [readOf]
    rw [hg] at hs ⊢
    simp only [Rx.step]
    split
    · exact zipLoop_inv hz ha hA hBl hB hs n ho h
    · exact ⟨ho, h⟩
  | read data n =>
    have hg : readOf [.read data n] = data := by simp [readOf]
    rw [hg] at hs hr ⊢
    simp only [Rx.step, ho, if_true]
    unfold zipRead
    have hroom := hroom data n rfl
    rw [if_neg (by omega)]
    obtain ⟨U', hU'⟩ := hr
    obtain ⟨U, hU, h⟩ := h
    have hUU : U = data ++ U' := by
      rw [← hU, List.append_assoc] at hU'
      exact (List.append_cancel_left hU').symm
    split
    · rename_i hzip
      refine zipLoop_inv hz ha hA hBl hB hs n ho ⟨U', hU', ?_⟩
      rcases h with ⟨h1, _⟩ | ⟨h1, done, ls, nl, s, t, V, h2, h3, h4, h5, h6, h7, h8, h9⟩
      · rw [hzip] at h1; cases h1
      · refine .inr ⟨hzip, done, ls, nl, s, t, V, h2, h3, h4, h5, ?_, h7, h8, h9⟩
        rw [← h6, hUU]
        simp
    · rename_i hzip
      refine zipLoop_inv hz ha hA hBl hB hs n ho ⟨U', hU', ?_⟩
      rcases h with ⟨h1, h2, h3, done, ls, nl, h4, h5, h6, h7, h8⟩ | ⟨h1, _⟩
      · refine .inl ⟨h1, h2, h3, done, ls, nl, h4, h5, h6, h7, ?_⟩
        rw [← h8, hUU]
        simp
      · exact absurd h1 hzip

theorem readOf_cons (e : RxEvent) (es : List RxEvent) : readOf (e :: es) = readOf [e] ++ readOf es := by
  simp [readOf]

theorem rx_run {z : Zlib} (hz : Lawful z) {acts : Str → Bool} {A B cs : List Str} (ha : StartsZip acts A)
    (hA : ∀ l ∈ A, WireLine l) (hBl : ∀ l ∈ B, WireLine l) (hB : cs.flatten = onWire B) (es : List RxEvent) {got : Str}
    {x : Rx z} (hr : got ++ readOf es <+: onWire A ++ (packed z z.d0 cs).2)
    (hs : ∀ j, (got ++ readOf (es.take j)).length + 1 ≠ (onWire A).length) (ho : x.isOpen = true)
    (hroom : ∀ j data n, es[j]? = some (.read data n) → (x.run acts (es.take j)).rbuf.length < READBUFFER_LEN ∧
      (x.run acts (es.take j)).zrbuf.length < READBUFFER_LEN)
    (h : RxInv A B (packed z z.d0 cs).2 got x) :
    (x.run acts es).isOpen = true ∧ RxInv A B (packed z z.d0 cs).2 (got ++ readOf es) (x.run acts es) := by
  induction es generalizing got x with
  | nil => simpa [readOf, Rx.run] using And.intro ho h
  | cons e es ih =>
    rw [readOf_cons, ← List.append_assoc] at hr ⊢
    have hs1 := hs 1
    simp only [List.take_succ_cons, List.take_zero] at hs1
    have hstep := rx_step hz ha hA hBl hB e ((List.prefix_append _ _).trans hr) hs1 ho
      (fun data n he => hroom 0 data n (by rw [he]; rfl)) h
    refine ih hr (fun j => ?_) hstep.1 (fun j data n hj => ?_) hstep.2
    · have := hs (j + 1)
      rw [List.take_succ_cons, readOf_cons, ← List.append_assoc] at this
      exact this
    · exact hroom (j + 1) data n (by simpa using hj)

/-! ### Room in the buffers, and progress -/

/-- The compressed buffer is empty whenever the other one is small, except when the request that has enabled
the compression was the last one allowed. -/
def Tight {z : Zlib} (x : Rx z) : Prop :=
  (x.zip = false → x.zrbuf = []) ∧ (x.zip = true → x.zrbuf = [] ∨ COMMAND_LEN ≤ x.rbuf.length ∨ x.rbuf = [])

/-- The same without the exception. -/
def Firm {z : Zlib} (x : Rx z) : Prop :=
  x.zip = true ∧ (x.zrbuf = [] ∨ COMMAND_LEN ≤ x.rbuf.length)

theorem unzip_fail {z : Zlib} (x : Rx z) (h : (unzipBuffer x).2 = false) : (unzipBuffer x).1 = x.close := by
  unfold unzipBuffer at h ⊢
  split
  · rename_i hh; rw [if_pos hh] at h; cases h
  · rename_i hh
    rw [if_neg hh] at h
    cases hr : (z.inflate x.inf x.zrbuf READBUFFER_LEN).ok with
    | false => simp only [hr, if_true]
    | true => simp [hr] at h

theorem unzip_full {z : Zlib} (he : Eager z) (x : Rx z) (hz : x.zip = true) (hok : (unzipBuffer x).2 = true) :
    (unzipBuffer x).1.zip = true ∧
    ((unzipBuffer x).1.zrbuf = [] ∨ READBUFFER_LEN ≤ (unzipBuffer x).1.rbuf.length) := by
  unfold unzipBuffer at hok ⊢
  split
  · rename_i h; exact ⟨hz, .inl h⟩
  · rename_i hne
    rw [if_neg hne] at hok
    cases hr : (z.inflate x.inf x.zrbuf READBUFFER_LEN).ok with
    | false => simp [hr] at hok
    | true =>
      simp only [hr, Bool.true_eq_false, if_false]
      refine ⟨hz, ?_⟩
      rcases he x.inf x.zrbuf READBUFFER_LEN hr with h | h
      · exact .inl (List.drop_eq_nil_iff.mpr h)
      · right
        rw [List.length_append]
        omega

theorem tight_close {z : Zlib} (x : Rx z) : Tight x.close := ⟨fun _ => rfl, fun _ => .inl rfl⟩

theorem zipLoop_tight {z : Zlib} (he : Eager z) (acts : Str → Bool) (n : Nat) (x : Rx z)
    (h0 : x.zip = false → x.zrbuf = []) (hn : 0 < n ∨ Tight x) : Tight (zipLoop acts n x) := by
  have hR : READBUFFER_LEN = 2048 := rfl
  have hC : COMMAND_LEN = 513 := rfl
  induction n generalizing x with
  | zero =>
    rcases hn with hn | hn
    · omega
    · exact hn
  | succ n ih =>
    unfold zipLoop
    have key : ∀ r : Rx z × Bool, r = (if x.zip then unzipBuffer x else (x, true)) → r.2 = true →
        (r.1.zip = false → r.1.zrbuf = []) ∧
        (r.1.zip = true → r.1.zrbuf = [] ∨ READBUFFER_LEN ≤ r.1.rbuf.length) := by
      intro r e hok
      cases hz : x.zip with
      | false =>
        rw [hz] at e
        simp only [Bool.false_eq_true, if_false] at e
        rw [e]
        exact ⟨h0, fun e => by rw [hz] at e; cases e⟩
      | true =>
        rw [hz] at e
        simp only [if_true] at e
        rw [e] at hok ⊢
        have := unzip_full he x hz hok
        exact ⟨fun e => (by rw [this.1] at e; cases e), fun _ => this.2⟩
    have kf : ∀ r : Rx z × Bool, r = (if x.zip then unzipBuffer x else (x, true)) → r.2 = false → Tight r.1 := by
      intro r e hok
      cases hz : x.zip with
      | false => rw [hz] at e; rw [e] at hok; cases hok
      | true =>
        rw [hz] at e
        simp only [if_true] at e
        rw [e] at hok ⊢
        rw [unzip_fail x hok]
        exact tight_close x
    generalize hr : (if x.zip then unzipBuffer x else (x, true)) = r at key kf
    obtain ⟨y, ok⟩ := r
    cases ok with
    | false => exact kf _ rfl rfl
    | true =>
      obtain ⟨k1, k2⟩ := key _ rfl rfl
      simp only [Bool.true_eq_false, if_false] at k1 k2 ⊢
      split
      · rename_i hb
        exact ⟨k1, fun _ => .inr (.inr hb)⟩
      · split
        · exact ⟨k1, fun e => (k2 e).imp id (fun h => .inl (by omega))⟩
        · rename_i p delta _
          split
          · exact tight_close y
          · rename_i hlen
            split
            · refine ih _ k1 (.inr ⟨k1, fun e => (k2 e).imp id (fun h => .inl ?_)⟩)
              rw [List.length_drop]; omega
            · unfold afterRequest
              split
              · rename_i hact
                by_cases hrest : y.rbuf.drop (p + delta) = []
                · rw [if_pos hrest]
                  exact ih _ (fun e => by cases e) (.inr ⟨fun e => (by cases e), fun _ => .inr (.inr rfl)⟩)
                · rw [if_neg hrest]
                  exact ih _ (fun e => by cases e) (.inr ⟨fun e => (by cases e), fun _ => .inr (.inr rfl)⟩)
              · refine ih _ k1 (.inr ⟨k1, fun e => (k2 e).imp id (fun h => .inl ?_)⟩)
                simp only [List.length_drop]; omega

theorem rx_tight {z : Zlib} (he : Eager z) (acts : Str → Bool) (es : List RxEvent) (x : Rx z) (hn : TwoAllowed es)
    (h : Tight x) : Tight (x.run acts es) := by
  induction es generalizing x with
  | nil => exact h
  | cons e es ih =>
    refine ih _ (fun e' he' => hn e' (List.mem_cons_of_mem _ he')) ?_
    have hne := hn e List.mem_cons_self
    cases e with
    | round n =>
      simp only [allowed] at hne
      simp only [Rx.step]
      split
      · exact zipLoop_tight he acts n x h.1 (.inl (by omega))
      · exact h
    | read data n =>
      simp only [allowed] at hne
      simp only [Rx.step]
      split
      · unfold zipRead
        split
        · exact tight_close x
        · refine zipLoop_tight he acts n _ ?_ (.inl (by omega))
          split
          · rename_i hz; intro e; rw [hz] at e; cases e
          · exact h.1
      · exact h

/-- With `ReadsInTime` there is room whenever something is read. -/
theorem room_of_tight {z : Zlib} {acts : Str → Bool} (he : Eager z) (es : List RxEvent) (hn : TwoAllowed es)
    (ht : ReadsInTime acts (Rx.init z) es) (j : Nat) (data : Str) (n : Nat) (hj : es[j]? = some (.read data n)) :
    ((Rx.init z).run acts (es.take j)).rbuf.length < READBUFFER_LEN ∧
    ((Rx.init z).run acts (es.take j)).zrbuf.length < READBUFFER_LEN := by
  have hR : READBUFFER_LEN = 2048 := rfl
  have hC : COMMAND_LEN = 513 := rfl
  obtain ⟨h1, h2⟩ := ht j data n hj
  have h3 := rx_tight he acts (es.take j) (Rx.init z) (fun e h => hn e (List.mem_of_mem_take h))
    ⟨fun _ => rfl, fun e => by cases e⟩
  refine ⟨by omega, ?_⟩
  cases hz : ((Rx.init z).run acts (es.take j)).zip with
  | false => rw [h3.1 hz, hR]; decide
  | true =>
    rcases h3.2 hz with h | h | h
    · rw [h, hR]; decide
    · omega
    · exact h2 h

theorem zipLoop_firm {z : Zlib} (he : Eager z) (acts : Str → Bool) (n : Nat) (x : Rx z) (h : Firm x) :
    Firm (zipLoop acts n x) ∨ (zipLoop acts n x).isOpen = false := by
  have hR : READBUFFER_LEN = 2048 := rfl
  have hC : COMMAND_LEN = 513 := rfl
  induction n generalizing x with
  | zero => exact .inl h
  | succ n ih =>
    unfold zipLoop
    rw [if_pos h.1]
    have kf := unzip_fail x
    have kt := unzip_full he x h.1
    generalize unzipBuffer x = r at kf kt
    obtain ⟨y, ok⟩ := r
    cases ok with
    | false =>
      right
      have := kf rfl
      simp only at this
      simp only [if_true, this]
      rfl
    | true =>
      obtain ⟨k1, k2⟩ := kt rfl
      simp only at k1 k2
      have k3 : y.zrbuf = [] ∨ COMMAND_LEN ≤ y.rbuf.length := k2.imp id (fun h => by omega)
      simp only [Bool.true_eq_false, if_false]
      split
      · exact .inl ⟨k1, k3⟩
      · split
        · exact .inl ⟨k1, k3⟩
        · rename_i p delta _
          split
          · exact .inr rfl
          · rename_i hlen
            split
            · refine ih _ ⟨k1, k2.imp id (fun h => ?_)⟩
              rw [List.length_drop]; omega
            · unfold afterRequest
              rw [if_neg (fun e => by rw [k1] at e; cases e.1)]
              refine ih _ ⟨k1, k2.imp id (fun h => ?_)⟩
              simp only [List.length_drop]; omega

/-- The rest of the text is `nl ++ onWire ls`, everything was read, the compression is enabled. -/
def Late {z : Zlib} (A B : List Str) (S nl : Str) (ls : List Str) (x : Rx z) : Prop :=
  ∃ done s t V, B = done ++ ls ∧ x.executed = A ++ done ∧ Unpacked z x.inf s t ∧ s ++ x.zrbuf = S ∧
    t ++ V = onWire B ∧ x.rbuf ++ V = nl ++ (onWire ls ++ []) ∧ (s = S → t = onWire B)

theorem late_of_inv {z : Zlib} {A B : List Str} {S got : Str} {x : Rx z} (hg : got = onWire A ++ S) (hz : x.zip = true)
    (h : RxInv A B S got x) : ∃ nl ls, (nl = [] ∨ nl = ['\n']) ∧ Late A B S nl ls x := by
  obtain ⟨U, hU, h⟩ := h
  rw [hg] at hU
  have hU0 : U = [] := by simpa using hU
  rcases h with ⟨h1, _⟩ | ⟨_, done, ls, nl, s, t, V, h2, h3, h4, h5, h6, h7, h8, h9⟩
  · rw [hz] at h1; cases h1
  · rw [hU0, List.append_nil] at h6
    exact ⟨nl, ls, h4, done, s, t, V, h2, h3, h5, h6, h7, h8, h9⟩

theorem onWire_nil {ls : List Str} (h : onWire ls = []) : ls = [] := by
  cases ls with
  | nil => rfl
  | cons l ls => rw [onWire_cons] at h; simp at h

/-- One turn of the loop: the next line is executed, or the LF of the last one removed. -/
theorem late_turn {z : Zlib} (hz : Lawful z) (he : Eager z) {acts : Str → Bool} {A B cs : List Str}
    (hBl : ∀ l ∈ B, WireLine l) (hB : cs.flatten = onWire B) {nl l : Str} {rest : List Str} (hn : nl = [] ∨ nl = ['\n'])
    {x : Rx z} (ho : x.isOpen = true) (hzip : x.zip = true) (h : Late A B (packed z z.d0 cs).2 nl (l :: rest) x) (n : Nat) :
    ∃ x', zipLoop acts (n + 1) x = zipLoop acts n x' ∧ x'.isOpen = true ∧ x'.zip = true ∧
      ((nl = ['\n'] ∧ x'.executed = x.executed ∧ Late A B (packed z z.d0 cs).2 [] (l :: rest) x') ∨
        x'.executed.length = x.executed.length + 1) := by
  have hR : READBUFFER_LEN = 2048 := rfl
  have hinv : RxInv A B (packed z z.d0 cs).2 (onWire A ++ (packed z z.d0 cs).2) x := by
    obtain ⟨done, s, t, V, h2, h3, h5, h6, h7, h8, h9⟩ := h
    exact ⟨[], by simp, .inr ⟨hzip, done, l :: rest, nl, s, t, V, h2, h3, hn, h5, by simpa using h6, h7, h8, h9⟩⟩
  -- the state after unpacking
  have hu : (unzipBuffer x).2 = true ∧ (unzipBuffer x).1.isOpen = true ∧ (unzipBuffer x).1.executed = x.executed ∧
      Late A B (packed z z.d0 cs).2 nl (l :: rest) (unzipBuffer x).1 := by
    obtain ⟨done, s, t, V, h1, h2, h4, h5, h6, h7, h8⟩ := h
    unfold unzipBuffer
    split
    · exact ⟨rfl, ho, rfl, done, s, t, V, h1, h2, h4, h5, h6, h7, h8⟩
    · rename_i hne
      obtain ⟨g1, g2, g3, g4⟩ := hz.2 cs x.inf s t x.zrbuf READBUFFER_LEN h4 ⟨[], by rw [List.append_nil]; exact h5⟩ hne (by decide)
      simp only [g1, Bool.true_eq_false, if_false]
      obtain ⟨V', hV'⟩ := g3
      have hV : V = (z.inflate x.inf x.zrbuf READBUFFER_LEN).out ++ V' := by
        rw [hB, ← h6, List.append_assoc] at hV'
        exact (List.append_cancel_left hV').symm
      refine ⟨trivial, ho, trivial, done, s ++ x.zrbuf.take (z.inflate x.inf x.zrbuf READBUFFER_LEN).used,
        t ++ (z.inflate x.inf x.zrbuf READBUFFER_LEN).out, V', h1, h2, .step _ _ h4 g1, ?_, by rw [hV', hB], ?_,
        fun e => by rw [g4 e, hB]⟩
      · rw [List.append_assoc, List.take_append_drop, h5]
      · rw [List.append_assoc, ← hV, h7]
  obtain ⟨u1, u2, u3, u4⟩ := hu
  obtain ⟨k1, k2⟩ := unzip_full he x hzip u1
  rw [zipLoop]
  rw [if_pos hzip]
  generalize unzipBuffer x = r at u1 u2 u3 u4 k1 k2
  obtain ⟨y, ok⟩ := r
  simp only at u1 u2 u3 u4 k1 k2
  subst u1
  simp only [Bool.true_eq_false, if_false]
  obtain ⟨done, s, t, V, h1, h2, h4, h5, h6, h7, h8⟩ := u4
  have hls : ∀ l' ∈ l :: rest, WireLine l' := fun l' hl => hBl l' (by rw [h1]; exact List.mem_append_right _ hl)
  have hl := hls l List.mem_cons_self
  have hlen : y.rbuf.length ≤ 510 → V = [] := by
    intro hle
    rcases k2 with k2 | k2
    · rw [k2, List.append_nil] at h5
      rw [h8 h5] at h6
      simpa using h6
    · omega
  have hne : y.rbuf ≠ [] := by
    intro e
    have hV := hlen (by rw [e]; decide)
    rw [e, hV] at h7
    have := List.append_eq_nil_iff.mp h7.symm
    have := List.append_eq_nil_iff.mp this.2
    exact absurd (onWire_nil this.1) (by simp)
  rw [if_neg hne]
  rcases buf_cases hls hn _ h7 (.inr rfl) hne with ⟨b, rfl, hb, hv⟩ | ⟨rfl, l', rest', hll, hc⟩
  · rw [hb, findEol_lf]
    simp only [List.drop_succ_cons, List.drop_zero]
    rw [if_neg (by decide), if_pos trivial]
    exact ⟨_, rfl, u2, k1, .inl ⟨trivial, u3, done, s, t, V, h1, h2, h4, h5, h6, hv, h8⟩⟩
  · simp only [List.cons.injEq] at hll
    obtain ⟨rfl, rfl⟩ := hll
    rcases hc with ⟨b, hb, hv⟩ | ⟨hb, hv⟩ | hb
    · rw [hb, findEol_line hl]
      simp only
      rw [if_neg (line_len hl (Nat.le_refl _)), if_neg (line_ne hl)]
      refine ⟨_, rfl, ?_⟩
      unfold afterRequest
      rw [if_neg (fun e => by rw [k1] at e; cases e.1)]
      refine ⟨u2, k1, .inr ?_⟩
      simp only [List.length_append, List.length_cons, List.length_nil, u3]
    · rw [hb, findEol_cr hl]
      simp only
      rw [if_neg (line_len hl (by decide)), if_neg (line_ne hl)]
      refine ⟨_, rfl, ?_⟩
      unfold afterRequest
      rw [if_neg (fun e => by rw [k1] at e; cases e.1)]
      refine ⟨u2, k1, .inr ?_⟩
      simp only [List.length_append, List.length_cons, List.length_nil, u3]
    · exfalso
      obtain ⟨w, hw⟩ := hb
      have hle : y.rbuf.length ≤ l.length := by rw [← hw]; simp
      have hV := hlen (Nat.le_trans hle hl.2.2.2.2)
      rw [hV, onWire_cons] at h7
      have := congrArg List.length h7
      simp at this
      omega

theorem zipLoop_executed {z : Zlib} (acts : Str → Bool) (n : Nat) (x : Rx z) :
    x.executed.length ≤ (zipLoop acts n x).executed.length := by
  induction n generalizing x with
  | zero => exact Nat.le_refl _
  | succ n ih =>
    unfold zipLoop
    have e : (if x.zip then unzipBuffer x else (x, true)).1.executed = x.executed := by
      split
      · unfold unzipBuffer
        split
        · rfl
        · dsimp only
          split <;> rfl
      · rfl
    generalize (if x.zip then unzipBuffer x else (x, true)) = r at e
    rw [← e]
    simp only
    have ha : ∀ (y : Rx z) (line : Str) (len : Nat), y.executed.length ≤ (afterRequest acts y line len).executed.length := by
      intro y line len
      unfold afterRequest
      simp only
      (repeat' split) <;> simp
    repeat' split
    all_goals first
      | exact Nat.le_refl _
      | (refine Nat.le_trans ?_ (ih _); exact Nat.le_refl _)
      | exact Nat.le_trans (ha _ _ _) (ih _)

theorem late_length {z : Zlib} {A B : List Str} {S nl : Str} {ls : List Str} {x : Rx z} (h : Late A B S nl ls x) :
    x.executed.length + ls.length = A.length + B.length := by
  obtain ⟨done, s, t, V, h1, h2, _⟩ := h
  rw [h1, h2]
  simp only [List.length_append]
  omega

/-- A loop that allows two commands executes one, if one is left. -/
theorem late_progress {z : Zlib} (hz : Lawful z) (he : Eager z) {acts : Str → Bool} {A B cs : List Str}
    (hBl : ∀ l ∈ B, WireLine l) (hB : cs.flatten = onWire B) {x : Rx z} (ho : x.isOpen = true) (hzip : x.zip = true)
    (h : RxInv A B (packed z z.d0 cs).2 (onWire A ++ (packed z z.d0 cs).2) x) (n : Nat) (hn : 2 ≤ n)
    (hl : x.executed.length < A.length + B.length) :
    x.executed.length < (zipLoop acts n x).executed.length := by
  obtain ⟨m, rfl⟩ : ∃ m, n = m + 2 := ⟨n - 2, by omega⟩
  obtain ⟨nl, ls, hnl, hlate⟩ := late_of_inv rfl hzip h
  have := late_length hlate
  cases ls with
  | nil => simp at this; omega
  | cons l rest =>
    obtain ⟨x1, e1, o1, z1, h1⟩ := late_turn (acts := acts) hz he hBl hB hnl ho hzip hlate (m + 1)
    rw [e1]
    rcases h1 with ⟨_, g1, g2⟩ | g1
    · obtain ⟨x2, e2, o2, z2, h2⟩ := late_turn (acts := acts) hz he hBl hB (.inl rfl) o1 z1 g2 m
      rw [e2]
      rcases h2 with ⟨g3, _⟩ | g3
      · cases g3
      · have := zipLoop_executed acts m x2
        rw [g1] at g3
        omega
    · have := zipLoop_executed acts (m + 1) x1
      omega

/-- Rounds, after everything was read. -/
theorem late_rounds {z : Zlib} (hz : Lawful z) (he : Eager z) {acts : Str → Bool} {A B cs : List Str} (ha : StartsZip acts A)
    (hA : ∀ l ∈ A, WireLine l) (hBl : ∀ l ∈ B, WireLine l) (hB : cs.flatten = onWire B) (ms : List Nat)
    (hm : ∀ m ∈ ms, 2 ≤ m) {x : Rx z} (ho : x.isOpen = true) (hf : Firm x)
    (h : RxInv A B (packed z z.d0 cs).2 (onWire A ++ (packed z z.d0 cs).2) x) :
    RxInv A B (packed z z.d0 cs).2 (onWire A ++ (packed z z.d0 cs).2) (x.run acts (ms.map .round)) ∧
    (x.run acts (ms.map .round)).isOpen = true ∧ (x.run acts (ms.map .round)).zip = true ∧
    min (A.length + B.length) (x.executed.length + ms.length) ≤ (x.run acts (ms.map .round)).executed.length := by
  have hs : (onWire A ++ (packed z z.d0 cs).2).length + 1 ≠ (onWire A).length := by
    rw [List.length_append]; omega
  induction ms generalizing x with
  | nil =>
    refine ⟨h, ho, hf.1, ?_⟩
    exact Nat.min_le_right _ _
  | cons m ms ih =>
    have hm2 := hm m List.mem_cons_self
    simp only [List.map_cons, Rx.run, List.foldl_cons]
    have hstep : (x.step acts (.round m)).isOpen = true ∧ Firm (x.step acts (.round m)) ∧
        RxInv A B (packed z z.d0 cs).2 (onWire A ++ (packed z z.d0 cs).2) (x.step acts (.round m)) ∧
        min (A.length + B.length) (x.executed.length + 1) ≤ (x.step acts (.round m)).executed.length := by
      simp only [Rx.step]
      split
      · obtain ⟨g1, g2⟩ := zipLoop_inv hz ha hA hBl hB hs m ho h
        refine ⟨g1, ?_, g2, ?_⟩
        · rcases zipLoop_firm he acts m x hf with g | g
          · exact g
          · rw [g] at g1; cases g1
        · by_cases hl : x.executed.length < A.length + B.length
          · have := late_progress (acts := acts) hz he hBl hB ho hf.1 h m hm2 hl
            omega
          · have := zipLoop_executed acts m x
            omega
      · rename_i hno
        refine ⟨ho, hf, h, ?_⟩
        have hb : x.rbuf = [] := by
          cases hb : x.rbuf with
          | nil => rfl
          | cons c r => exact absurd ⟨ho, by rw [hb]; simp⟩ hno
        have hzb : x.zrbuf = [] := by
          rcases hf.2 with g | g
          · exact g
          · rw [hb] at g
            exact absurd g (by decide)
        obtain ⟨nl, ls, _, hlate⟩ := late_of_inv rfl hf.1 h
        have hlen := late_length hlate
        obtain ⟨done, s, t, V, h1, h2, h4, h5, h6, h7, h8⟩ := hlate
        rw [hzb, List.append_nil] at h5
        rw [h8 h5] at h6
        have hV : V = [] := by simpa using h6
        rw [hb, hV] at h7
        have := List.append_eq_nil_iff.mp h7.symm
        have := List.append_eq_nil_iff.mp this.2
        rw [onWire_nil this.1] at hlen
        simp at hlen
        omega
    obtain ⟨g1, g2, g3, g4⟩ := hstep
    obtain ⟨r1, r2, r3, r4⟩ := ih (fun m' h' => hm m' (List.mem_cons_of_mem _ h')) g1 g2 g3
    refine ⟨r1, r2, r3, Nat.le_trans ?_ r4⟩
    simp only [List.length_cons]
    omega

theorem rx_run_append {z : Zlib} (acts : Str → Bool) (x : Rx z) (es fs : List RxEvent) :
    x.run acts (es ++ fs) = (x.run acts es).run acts fs := by
  simp [Rx.run]

/-- C98, the receiver: the lines `A` come as they are, the last of them enables the compression, and what
follows is a compressed stream of the lines `B`.  However the stream is cut by the network — except right
between the CR and the LF of the last uncompressed line — and however many requests (at least two) are handled
at a time, the connection stays open, the requests executed are the lines sent, in order; and when everything
was read, `A` was executed and there is something to handle in the read buffer or nothing at all, then after as
many rounds of `Conn_Handler` as there are lines all of them were executed. -/
theorem C98_receiver_partial (z : Zlib) (hz : Lawful z) (he : Eager z) (acts : Str → Bool) (A B cs : List Str)
    (ha : StartsZip acts A) (hA : ∀ l ∈ A, WireLine l) (hBl : ∀ l ∈ B, WireLine l) (hB : cs.flatten = onWire B)
    (es : List RxEvent) (hr : readOf es <+: onWire A ++ (packed z z.d0 cs).2)
    (hcut : ∀ j, (readOf (es.take j)).length + 1 ≠ (onWire A).length)
    (hn : TwoAllowed es) (hread : ReadsInTime acts (Rx.init z) es) :
    ((Rx.init z).run acts es).isOpen = true ∧
    ((Rx.init z).run acts es).executed <+: A ++ B ∧
    (readOf es = onWire A ++ (packed z z.d0 cs).2 → A.length ≤ ((Rx.init z).run acts es).executed.length →
      (((Rx.init z).run acts es).rbuf = [] → ((Rx.init z).run acts es).zrbuf = []) →
      ∀ ms : List Nat, (∀ m ∈ ms, 2 ≤ m) → A.length + B.length ≤ ms.length →
        ((Rx.init z).run acts (es ++ ms.map .round)).executed = A ++ B) := by
  have hne : A ≠ [] := by
    obtain ⟨a0, a, rfl, _⟩ := ha
    simp
  have h0 : RxInv A B (packed z z.d0 cs).2 [] (Rx.init z) :=
    ⟨onWire A ++ (packed z z.d0 cs).2, rfl, .inl ⟨rfl, rfl, rfl, [], A, [], rfl, hne, rfl, .inl rfl, rfl⟩⟩
  obtain ⟨h1, h2⟩ := rx_run hz ha hA hBl hB es (got := []) (x := Rx.init z) (by simpa using hr)
    (fun j => by simpa using hcut j) rfl (room_of_tight he es hn hread) h0
  have h3 := rx_tight he acts es (Rx.init z) hn ⟨fun _ => rfl, fun e => by cases e⟩
  rw [List.nil_append] at h2
  have pre : ∀ (got : Str) (y : Rx z), RxInv A B (packed z z.d0 cs).2 got y → y.executed <+: A ++ B := by
    intro got y h
    obtain ⟨U, hU, h⟩ := h
    rcases h with ⟨_, _, _, done, ls, nl, h4, h5, h6, _, h8⟩ | ⟨_, done, ls, nl, s, t, V, h2, h3, _⟩
    · rw [h4, h6, List.append_assoc]; exact List.prefix_append _ _
    · rw [h3, h2, ← List.append_assoc]; exact List.prefix_append _ _
  refine ⟨h1, pre _ _ h2, ?_⟩
  intro hall hAex hstall ms hm hlen
  rw [rx_run_append]
  generalize (Rx.init z).run acts es = y at h1 h2 h3 hAex hstall
  rw [hall] at h2
  have hzip : y.zip = true := by
    obtain ⟨U, hU, h⟩ := h2
    rcases h with ⟨_, _, _, done, ls, nl, h4, h5, h6, _⟩ | ⟨h1, _⟩
    · exfalso
      rw [h6, h4, List.length_append] at hAex
      have : ls.length = 0 := by omega
      exact h5 (List.length_eq_zero_iff.mp this)
    · exact h1
  have hf : Firm y := by
    refine ⟨hzip, ?_⟩
    rcases h3.2 hzip with g | g | g
    · exact .inl g
    · exact .inr g
    · exact .inl (hstall g)
  obtain ⟨r1, r2, r3, r4⟩ := late_rounds hz he ha hA hBl hB ms hm h1 hf h2
  refine (pre _ _ r1).eq_of_length_le ?_
  rw [List.length_append]
  omega

theorem onWire_append (a b : List Str) : onWire (a ++ b) = onWire a ++ onWire b := by
  simp [onWire]

/-- C98, both ends: the sender writes whole lines `A` before and `B` after it enables the compression; the
receiver, under the conditions above, executes a beginning of them; once all is flushed, sent and read, all of
them are executed within as many rounds as there are lines. -/
theorem C98_link_partial (z : Zlib) (hz : Lawful z) (he : Eager z) (acts : Str → Bool) (ts : List TxEvent)
    (A B : List Str) (ha : StartsZip acts A) (hA : ∀ l ∈ A, WireLine l) (hBl : ∀ l ∈ B, WireLine l)
    (hbefore : ((Tx.init z).run ts).before = A.map (fun l => l ++ ['\r', '\n']))
    (hafter : ((Tx.init z).run ts).after = B.map (fun l => l ++ ['\r', '\n']))
    (es : List RxEvent) (hr : readOf es <+: ((Tx.init z).run ts).sent)
    (hcut : ∀ j, (readOf (es.take j)).length + 1 ≠ (onWire A).length)
    (hn : TwoAllowed es) (hread : ReadsInTime acts (Rx.init z) es) :
    ((Rx.init z).run acts es).isOpen = true ∧
    ((Rx.init z).run acts es).executed <+: A ++ B ∧
    (((Tx.init z).run ts).isOpen = true → ((Tx.init z).run ts).wbuf = [] → ((Tx.init z).run ts).zwbuf = [] →
      readOf es = ((Tx.init z).run ts).sent → A.length ≤ ((Rx.init z).run acts es).executed.length →
      (((Rx.init z).run acts es).rbuf = [] → ((Rx.init z).run acts es).zrbuf = []) →
      ∀ ms : List Nat, (∀ m ∈ ms, 2 ≤ m) → A.length + B.length ≤ ms.length →
        ((Rx.init z).run acts (es ++ ms.map .round)).executed = A ++ B) := by
  obtain ⟨css, rest, h1, h2, h3⟩ := C98_sender z ts
  generalize (Tx.init z).run ts = y at hbefore hafter hr h1 h2 h3
  rw [hafter] at h1
  obtain ⟨B1, B2, rfl, e1, e2⟩ := List.map_eq_append_iff.mp h1
  have hfl : (css.map List.flatten).flatten = onWire B1 := by
    unfold onWire; rw [e1, List.flatten_flatten]
  have hpre : y.before.flatten = onWire A := by rw [hbefore]; rfl
  rw [hpre] at h2 h3
  obtain ⟨g1, g2, g3⟩ := C98_receiver_partial z hz he acts A B1 (css.map List.flatten) ha hA
    (fun l hl => hBl l (List.mem_append_left _ hl)) hfl es (hr.trans h2) hcut hn hread
  refine ⟨g1, g2.trans (by rw [← List.append_assoc]; exact List.prefix_append _ _), ?_⟩
  intro ho hw hzw hall hAex hstall
  obtain ⟨h3, h4⟩ := h3 ho
  rw [hw, List.append_nil] at h3
  rw [hzw, ← e2] at h4
  have hB2 : B2 = [] := onWire_nil h4.symm
  rw [hB2, List.append_nil]
  exact g3 (by rw [hall, h3]) hAex hstall

/-! ## A lawful zlib

The compressor writes a header before the first text, the decompressor refuses a stream without it. -/

/-- A stream format with a header and no compression. -/
def Sample.zlib : Zlib where
  D := Bool
  I := Bool
  d0 := false
  i0 := false
  deflate := fun d s => (true, if d then s else 'x' :: s)
  inflate := fun i inp n =>
    if i then ⟨true, true, min inp.length n, inp.take n⟩
    else match inp with
      | 'x' :: r => ⟨true, true, min r.length n + 1, r.take n⟩
      | _ => ⟨false, false, 0, []⟩

theorem Sample.packed_true (cs : List Str) : packed Sample.zlib true cs = (true, cs.flatten) := by
  induction cs with
  | nil => rfl
  | cons c cs ih =>
    have hd : Sample.zlib.deflate true c = (true, c) := rfl
    simp only [packed, hd, ih, List.flatten_cons]
    rfl

theorem Sample.packed_eq (cs : List Str) (h : cs ≠ []) :
    packed Sample.zlib Sample.zlib.d0 cs = (true, 'x' :: cs.flatten) := by
  cases cs with
  | nil => exact absurd rfl h
  | cons c cs =>
    have hd : Sample.zlib.deflate Sample.zlib.d0 c = (true, 'x' :: c) := rfl
    simp only [packed, hd, Sample.packed_true, List.flatten_cons]
    rfl

theorem Sample.unpacked {i : Sample.zlib.I} {s t : Str} (h : Unpacked Sample.zlib i s t) :
    (@Eq Bool i false ∧ s = [] ∧ t = []) ∨ (@Eq Bool i true ∧ s = 'x' :: t) := by
  induction h with
  | init => exact .inl ⟨rfl, rfl, rfl⟩
  | @step i s t inp n _ hok ih =>
    right
    have tk : ∀ r : Str, r.take (min r.length n) = r.take n := by
      intro r
      rcases Nat.le_total r.length n with h | h
      · rw [Nat.min_eq_left h, List.take_of_length_le h, List.take_length]
      · rw [Nat.min_eq_right h]
    rcases ih with ⟨rfl, rfl, rfl⟩ | ⟨rfl, rfl⟩
    · revert hok
      simp only [Sample.zlib, Bool.false_eq_true, if_false]
      split
      · rename_i r
        intro _
        exact ⟨rfl, by simp [tk]⟩
      · intro h; cases h
    · refine ⟨rfl, ?_⟩
      simp only [Sample.zlib, if_true, tk, List.cons_append]

theorem Sample.zlib_lawful : Lawful Sample.zlib := by
  constructor
  · intro cs h
    cases cs with
    | nil => rfl
    | cons c cs => rw [Sample.packed_eq _ (by simp)] at h; cases h
  · intro cs i s t inp n hu hp hne hn
    cases cs with
    | nil =>
      exfalso
      have := List.prefix_nil.mp hp
      simp at this
      exact hne this.2
    | cons c cs =>
      rw [Sample.packed_eq _ (by simp)] at hp ⊢
      generalize (c :: cs).flatten = w at hp ⊢
      have tk : ∀ r : Str, r.take (min r.length n) = r.take n := by
        intro r
        rcases Nat.le_total r.length n with h | h
        · rw [Nat.min_eq_left h, List.take_of_length_le h, List.take_length]
        · rw [Nat.min_eq_right h]
      rcases Sample.unpacked hu with ⟨rfl, rfl, rfl⟩ | ⟨rfl, rfl⟩
      · cases inp with
        | nil => exact absurd rfl hne
        | cons a r =>
          obtain ⟨u, hu'⟩ := hp
          simp only [List.nil_append, List.cons_append, List.cons.injEq] at hu'
          obtain ⟨rfl, hu'⟩ := hu'
          have e : Sample.zlib.inflate false ('x' :: r) n = ⟨true, true, min r.length n + 1, r.take n⟩ := rfl
          rw [e]
          refine ⟨rfl, by simp; omega, ?_, ?_⟩
          · simp only [List.nil_append]
            rw [← hu']
            exact (List.take_prefix n r).trans (List.prefix_append _ _)
          · simp [tk]
      · have e : Sample.zlib.inflate true inp n = ⟨true, true, min inp.length n, inp.take n⟩ := rfl
        rw [e]
        obtain ⟨u, hu'⟩ := hp
        simp only [List.cons_append, List.cons.injEq, true_and] at hu'
        refine ⟨rfl, Nat.min_le_left _ _, ?_, ?_⟩
        · simp only
          rw [← hu', List.append_assoc]
          exact (List.prefix_append_right_inj t).mpr ((List.take_prefix n inp).trans (List.prefix_append _ _))
        · simp [tk]

theorem Sample.zlib_eager : Eager Sample.zlib := by
  intro i inp n
  cases hi : (i : Bool) with
  | true =>
    intro _
    have e : Sample.zlib.inflate true inp n = ⟨true, true, min inp.length n, inp.take n⟩ := rfl
    rw [e]
    simp only [List.length_take]
    omega
  | false =>
    cases inp with
    | nil => intro h; cases h
    | cons c r =>
      by_cases hc : c = 'x'
      · subst hc
        intro _
        have e : Sample.zlib.inflate false ('x' :: r) n = ⟨true, true, min r.length n + 1, r.take n⟩ := rfl
        rw [e]
        simp only [List.length_take, List.length_cons]
        omega
      · intro h
        exfalso
        revert h
        simp only [Sample.zlib, Bool.false_eq_true, if_false]
        split
        · rename_i heq
          simp only [List.cons.injEq] at heq
          exact absurd heq.1 hc
        · intro h; cases h

/-! ## A concrete link -/

/-- The request SERVER enables the compression. -/
def Sample.acts (l : Str) : Bool := l.take 6 == "SERVER".toList

/-- The sender: two lines, then compression, three lines, flushed in two pieces. -/
def Sample.tx : List TxEvent :=
  [.write "PASS x\r\n".toList 100 .again, .write "SERVER a\r\n".toList 100 .again, .writable (.wrote 5), .enable,
    .write "NICK b\r\n".toList 100 .again, .writable (.wrote 100), .writable (.wrote 3),
    .write "NICK c\r\n".toList 100 .again, .write "NICK d\r\n".toList 100 .again, .writable (.wrote 100), .writable (.wrote 100)]

/-- The receiver: the first read ends in the compressed stream, between CR and LF of the second line of it. -/
def Sample.rx : List RxEvent :=
  [.read "PASS x\r".toList 3, .read "\nSERVER a\r\nxNICK b\r".toList 3, .round 3,
    .read "\nNICK c\r\nNICK d\r\n".toList 2]

theorem Sample.zip_facts :
    ((Tx.init Sample.zlib).run Sample.tx).sent = "PASS x\r\nSERVER a\r\nxNICK b\r\nNICK c\r\nNICK d\r\n".toList ∧
    ((Tx.init Sample.zlib).run Sample.tx).before = ["PASS x\r\n".toList, "SERVER a\r\n".toList] ∧
    ((Tx.init Sample.zlib).run Sample.tx).after = ["NICK b\r\n".toList, "NICK c\r\n".toList, "NICK d\r\n".toList] ∧
    ((Tx.init Sample.zlib).run Sample.tx).isOpen = true ∧
    ((Tx.init Sample.zlib).run Sample.tx).wbuf = [] ∧ ((Tx.init Sample.zlib).run Sample.tx).zwbuf = [] ∧
    readOf Sample.rx = ((Tx.init Sample.zlib).run Sample.tx).sent ∧
    ((Rx.init Sample.zlib).run Sample.acts Sample.rx).executed.length = 4 ∧
    ((Rx.init Sample.zlib).run Sample.acts Sample.rx).rbuf ≠ [] ∧ TwoAllowed Sample.rx ∧
    (∀ j < 5, (readOf (Sample.rx.take j)).length + 1 ≠ (onWire ["PASS x".toList, "SERVER a".toList]).length) ∧
    (∀ j < 5, ((Rx.init Sample.zlib).run Sample.acts (Sample.rx.take j)).rbuf.length < COMMAND_LEN ∧
      ((Rx.init Sample.zlib).run Sample.acts (Sample.rx.take j)).zrbuf.length < READBUFFER_LEN) := by
  decide +kernel

theorem take_min (j : Nat) : Sample.rx.take j = Sample.rx.take (min j 4) := by
  rcases Nat.le_total j 4 with h | h
  · rw [Nat.min_eq_left h]
  · rw [Nat.min_eq_right h, List.take_of_length_le (by exact h), List.take_of_length_le (by decide)]

/-- The hypotheses of C98_link_partial meet: the fifth line is executed in a round after the last read. -/
example : ((Rx.init Sample.zlib).run Sample.acts (Sample.rx ++ [2, 2, 2, 2, 2].map .round)).executed =
    ["PASS x".toList, "SERVER a".toList] ++ ["NICK b".toList, "NICK c".toList, "NICK d".toList] := by
  obtain ⟨h1, h2, h3, h4, h5, h6, h7, h8, h9, h10, h11, h12⟩ := Sample.zip_facts
  refine (C98_link_partial Sample.zlib Sample.zlib_lawful Sample.zlib_eager Sample.acts Sample.tx
    ["PASS x".toList, "SERVER a".toList] ["NICK b".toList, "NICK c".toList, "NICK d".toList]
    ⟨["PASS x".toList], "SERVER a".toList, rfl, by decide, by decide⟩ (by decide)
    (by decide) h2 h3 Sample.rx ⟨[], by rw [h7]; simp⟩ (fun j => ?_) h10 (fun j _ _ _ => ?_)).2.2 h4 h5 h6 h7
    (by rw [h8]; decide) (fun e => absurd e h9) [2, 2, 2, 2, 2] (by decide) (by decide)
  · rw [take_min]; exact h11 _ (by omega)
  · rw [take_min]
    have := h12 (min j 4) (by omega)
    exact ⟨this.1, fun _ => this.2⟩

/-! ## Where the claim fails -/

/-- C98: when a read ends between the CR and the LF of the line that enables the compression, the line is
handled without its LF, the LF is taken for the beginning of the compressed stream, and the link is closed
with a decompression error; nothing of the stream is executed. -/
theorem C98_violated_by_split_crlf : ∃ es : List RxEvent,
    readOf es = onWire ["PASS x".toList, "SERVER a".toList] ++ (packed Sample.zlib Sample.zlib.d0 ["NICK b\r\n".toList]).2 ∧
    ((Rx.init Sample.zlib).run Sample.acts es).isOpen = false ∧
    ((Rx.init Sample.zlib).run Sample.acts es).executed = ["PASS x".toList, "SERVER a".toList] :=
  ⟨[.read "PASS x\r\nSERVER a\r".toList 3, .read "\nxNICK b\r\n".toList 3], by decide +kernel⟩

/-- C98: when the request that enables the compression is the last one the command limit allows, what was
read behind it stays in the compressed buffer, and `Conn_Handler`, which looks at the other buffer only,
never handles it, until the peer sends more. -/
theorem C98_violated_by_stall : ∃ es : List RxEvent,
    readOf es = onWire ["NOTICE x".toList, "PASS x".toList, "SERVER a".toList] ++
      (packed Sample.zlib Sample.zlib.d0 ["NICK b\r\n".toList]).2 ∧
    ∀ ns : List Nat, ((Rx.init Sample.zlib).run Sample.acts (es ++ ns.map .round)).executed =
      ["NOTICE x".toList, "PASS x".toList, "SERVER a".toList] := by
  refine ⟨[.read "NOTICE x\r\nPASS x\r\nSERVER a\r\nxNICK b\r\n".toList 3], by decide +kernel, ?_⟩
  have h : ((Rx.init Sample.zlib).run Sample.acts
      [.read "NOTICE x\r\nPASS x\r\nSERVER a\r\nxNICK b\r\n".toList 3]).rbuf = [] ∧
      ((Rx.init Sample.zlib).run Sample.acts
        [.read "NOTICE x\r\nPASS x\r\nSERVER a\r\nxNICK b\r\n".toList 3]).executed =
      ["NOTICE x".toList, "PASS x".toList, "SERVER a".toList] := by decide +kernel
  intro ns
  unfold Rx.run at h ⊢
  rw [List.foldl_append]
  generalize List.foldl (Rx.step Sample.acts) (Rx.init Sample.zlib) _ = y at h ⊢
  induction ns with
  | nil => exact h.2
  | cons n ns ih =>
    have : Rx.step Sample.acts y (.round n) = y := by simp [Rx.step, h.1]
    rw [List.map_cons, List.foldl_cons, this]
    exact ih

/-- No compression at all. -/
def Sample.stored : Zlib where
  D := Unit
  I := Unit
  d0 := ()
  i0 := ()
  deflate := fun _ s => ((), s)
  inflate := fun _ inp n => ⟨true, (), min inp.length n, inp.take n⟩

theorem grow_step {x : Tx Sample.stored} (ho : x.isOpen = true) (hz : x.zip = true) (hl : x.zwbuf.length < WRITEBUFFER_SLINK_LEN)
    (data : Str) (hd : data.length < WRITEBUFFER_SLINK_LEN) :
    (x.step (.write data 0 .again)).isOpen = true ∧ (x.step (.write data 0 .again)).zip = true ∧
    (x.step (.write data 0 .again)).zwbuf.length < WRITEBUFFER_SLINK_LEN ∧
    (x.step (.write data 0 .again)).wbuf.length + (x.step (.write data 0 .again)).zwbuf.length =
      x.wbuf.length + x.zwbuf.length + data.length := by
  simp only [Tx.step, zipConnWrite, ho, hz, Bool.true_eq_false, if_false, if_true]
  unfold zipBuffer zipFlush
  by_cases h1 : x.zwbuf.length + data.length ≥ WRITEBUFFER_SLINK_LEN
  · have hne : x.zwbuf ≠ [] := by
      intro e
      rw [e] at h1
      simp at h1
      omega
    have hdf : (Sample.stored.deflate x.dfl x.zwbuf).2 = x.zwbuf := rfl
    have hdd : ¬ ([] : Str).length + data.length ≥ WRITEBUFFER_SLINK_LEN := by
      rw [List.length_nil, Nat.zero_add]; exact Nat.not_le.mpr hd
    simp only [if_pos h1, if_neg hne, hdf, if_neg (Nat.not_le.mpr hl), if_neg hdd, Bool.true_eq_false, if_false,
      List.nil_append, List.length_append]
    exact ⟨ho, hz, hd, trivial⟩
  · simp only [if_neg h1, Bool.true_eq_false, if_false, List.length_append]
    exact ⟨ho, hz, by omega, by omega⟩

/-- C98: the write buffer of a compressed link has no limit: as long as the peer takes no data, it grows
beyond every size, by ordinary lines of 512 bytes, and the link stays open. -/
theorem C98_violated_by_write_buffer (n : Nat) : ∃ es : List TxEvent,
    (∀ e ∈ es, e = .enable ∨ ∃ data, e = .write data 0 .again ∧ data.length = 512) ∧
    ((Tx.init Sample.stored).run es).isOpen = true ∧ n < ((Tx.init Sample.stored).run es).wbuf.length := by
  have key : ∀ k : Nat,
      ((Tx.init Sample.stored).run (.enable :: List.replicate k (.write (List.replicate 512 'a') 0 .again))).isOpen = true ∧
      ((Tx.init Sample.stored).run (.enable :: List.replicate k (.write (List.replicate 512 'a') 0 .again))).zip = true ∧
      ((Tx.init Sample.stored).run (.enable :: List.replicate k (.write (List.replicate 512 'a') 0 .again))).zwbuf.length
        < WRITEBUFFER_SLINK_LEN ∧
      ((Tx.init Sample.stored).run (.enable :: List.replicate k (.write (List.replicate 512 'a') 0 .again))).wbuf.length +
        ((Tx.init Sample.stored).run (.enable :: List.replicate k (.write (List.replicate 512 'a') 0 .again))).zwbuf.length
        = 512 * k := by
    intro k
    induction k with
    | zero => exact ⟨rfl, rfl, by decide, rfl⟩
    | succ k ih =>
      obtain ⟨h1, h2, h3, h4⟩ := ih
      have := grow_step h1 h2 h3 (List.replicate 512 'a') (by rw [List.length_replicate]; decide)
      have e : (Tx.init Sample.stored).run (.enable :: List.replicate (k + 1) (.write (List.replicate 512 'a') 0 .again)) =
          ((Tx.init Sample.stored).run (.enable :: List.replicate k (.write (List.replicate 512 'a') 0 .again))).step
            (.write (List.replicate 512 'a') 0 .again) := by
        rw [List.replicate_succ', ← List.cons_append]
        unfold Tx.run
        rw [List.foldl_append]
        rfl
      rw [e]
      refine ⟨this.1, this.2.1, this.2.2.1, ?_⟩
      rw [this.2.2.2, h4, List.length_replicate]
      omega
  refine ⟨.enable :: List.replicate (n + 129) (.write (List.replicate 512 'a') 0 .again), ?_, (key _).1, ?_⟩
  · intro e he
    rcases List.mem_cons.mp he with rfl | he
    · exact .inl rfl
    · exact .inr ⟨_, List.eq_of_mem_replicate he, List.length_replicate⟩
  · have h := key (n + 129)
    have hc : WRITEBUFFER_SLINK_LEN = 65536 := rfl
    omega

end Ngircd
