import Verif.Lemmas.Array
import Verif.Spec.Buf

/-! # C34: the dynamic byte buffer -/

namespace Ngircd
open Spec

theorem Arr.step_spec (a : Arr) (op : ArrOp) (o : Option Char) (h : a.Inv) (hop : ArrOpOk op) :
    ∃ a' ok, a.step op o = .ok (a', ok) ∧ a'.Inv ∧ BufStep a.content op ok a'.content := by
  cases op with
  | alloc s p =>
    obtain ⟨h1, h2, h3⟩ := hop
    rcases Arr.alloc_spec a s p o h h1 h2 h3 with ⟨off, e, hoff⟩ | ⟨blk, hlt, hlt2, ho, e, hblk⟩
    · refine ⟨a, off.isSome, by simp [Arr.step, e], h, ?_⟩
      rcases hoff with ⟨rfl, _⟩ | ⟨rfl, _⟩
      · exact Or.inl ⟨rfl, rfl⟩
      · exact Or.inr ⟨rfl, 0, by simp⟩
    · subst hblk
      refine ⟨_, true, by simp [Arr.step, e], Arr.grown_inv h hlt hlt2, Or.inr ⟨rfl, _, Arr.grown_content h hlt⟩⟩
  | catb s =>
    rcases Arr.catb_spec a s o h hop with ⟨e, _, _⟩ | ⟨a', e, hi, hc, _, _⟩
    · exact ⟨a, false, e, h, Or.inr ⟨rfl, rfl⟩⟩
    · exact ⟨a', true, e, hi, Or.inl ⟨rfl, hc⟩⟩
  | copyb s =>
    rcases Arr.catb_spec a.trunc s o (Arr.trunc_inv h) hop with ⟨e, _, _⟩ | ⟨a', e, hi, hc, _, _⟩
    · exact ⟨a.trunc, false, e, Arr.trunc_inv h, Or.inr ⟨rfl, Arr.trunc_content a⟩⟩
    · exact ⟨a', true, e, hi, Or.inl ⟨rfl, by rw [hc, Arr.trunc_content]; rfl⟩⟩
  | cat0 =>
    rcases Arr.catb_spec a ['\x00'] o h (by decide) with ⟨e, _, _⟩ | ⟨a', e, hi, hc, _, _⟩
    · exact ⟨a, false, e, h, Or.inr ⟨rfl, rfl⟩⟩
    · exact ⟨a', true, e, hi, Or.inl ⟨rfl, hc⟩⟩
  | cat0Temporary =>
    rcases Arr.cat0Temporary_spec a o h with ⟨e, _⟩ | ⟨a', e, hi, _, hc, _⟩
    · exact ⟨a, false, e, h, Or.inl rfl⟩
    · refine ⟨a', true, e, hi, ?_⟩
      rcases hc with ⟨_, hc, _⟩ | ⟨_, hc⟩
      · exact Or.inl hc
      · exact Or.inr ⟨rfl, hc⟩
  | trunc => exact ⟨_, _, rfl, Arr.trunc_inv h, Arr.trunc_content a⟩
  | truncate m n =>
    refine ⟨_, _, rfl, Arr.truncate_inv a m n h, ?_⟩
    intro hle
    have hcl := Arr.content_length h
    have hub := h.used
    have hbd := h.bound
    unfold Arr.truncate
    rw [Arr.safemult_eq _ _ hop.1 hop.2, if_pos (by omega)]
    simp only
    rw [if_pos (by omega)]
    simp only [Arr.content, List.take_take]
    congr 1; omega
  | moveleft m n =>
    obtain ⟨a', e, hi, hc, _, _⟩ := Arr.moveleft_spec a m n h hop.1 hop.2.1 hop.2.2
    exact ⟨a', true, by simp [Arr.step, e], hi, hc⟩
  | free => exact ⟨_, _, rfl, Arr.init_inv, by simp [BufStep, Arr.content, Arr.init]⟩

theorem Arr.run_inv (ops : List (ArrOp × Option Char)) (hops : ∀ x ∈ ops, ArrOpOk x.1) (a : Arr)
    (h : a.Inv) : ∃ a', a.run ops = .ok a' ∧ a'.Inv := by
  induction ops generalizing a with
  | nil => exact ⟨a, rfl, h⟩
  | cons x ops ih =>
    obtain ⟨op, o⟩ := x
    obtain ⟨a1, ok, e, hi, _⟩ := Arr.step_spec a op o h (hops (op, o) (by simp))
    obtain ⟨a2, e2, hi2⟩ := ih (fun y hy => hops y (by simp [hy])) a1 hi
    exact ⟨a2, by simp [Arr.run, e, e2], hi2⟩

/-- C34 (safety): no history of operations, whatever sizes are asked for and whenever
`realloc` fails, reads or writes outside the block or trips an assertion; the used part
always lies inside the block, whose real size is the recorded one. -/
theorem C34_no_fault (ops : List (ArrOp × Option Char)) (hops : ∀ x ∈ ops, ArrOpOk x.1) :
    ∃ a, Arr.init.run ops = .ok a ∧ a.used ≤ a.allocated ∧
      (a.cells.getD []).length = a.allocated ∧ a.allocated < SZ := by
  obtain ⟨a, e, h⟩ := Arr.run_inv ops hops Arr.init Arr.init_inv
  exact ⟨a, e, h.used, h.len, h.bound⟩

/-- C34 (refinement): in every reachable state every operation acts on the content
(`readAll`) as the byte-string specification says. -/
theorem C34_refines_bytestring (ops : List (ArrOp × Option Char)) (hops : ∀ x ∈ ops, ArrOpOk x.1)
    (a : Arr) (hrun : Arr.init.run ops = .ok a) (op : ArrOp) (o : Option Char) (hop : ArrOpOk op) :
    ∃ s a' ok s', a.readAll = .ok s ∧ a.step op o = .ok (a', ok) ∧ a'.readAll = .ok s' ∧
      BufStep s op ok s' := by
  obtain ⟨a0, e, h⟩ := Arr.run_inv ops hops Arr.init Arr.init_inv
  rw [hrun] at e; cases e
  obtain ⟨a', ok, e, hi, hb⟩ := Arr.step_spec a op o h hop
  have hread : ∀ b : Arr, b.Inv → b.readAll = .ok b.content := by
    intro b hb
    have h1 := hb.len; have h2 := hb.used
    unfold Arr.readAll Arr.content
    cases hc : b.cells with
    | none =>
      rw [hc] at h1; simp at h1
      have : b.used = 0 := by omega
      simp [this]
    | some blk => rw [hc] at h1; simp at h1; simp; omega
  exact ⟨_, a', ok, _, hread a h, e, hread a' hi, hb⟩

/-- C34: appending fails only when `realloc` fails or the size would not fit `size_t`, and
then the buffer is left exactly as it was. -/
theorem C34_append_failure (ops : List (ArrOp × Option Char)) (hops : ∀ x ∈ ops, ArrOpOk x.1)
    (a a' : Arr) (hrun : Arr.init.run ops = .ok a) (s : Str) (hs : s.length < SZ) (o : Option Char)
    (hf : a.catb s o = .ok (a', false)) :
    a' = a ∧ (o = none ∨ SZ ≤ a.used + s.length + 1) := by
  obtain ⟨a0, e, h⟩ := Arr.run_inv ops hops Arr.init Arr.init_inv
  rw [hrun] at e; cases e
  rcases Arr.catb_spec a s o h hs with ⟨e, _, hw⟩ | ⟨a1, e, _⟩
  · rw [hf] at e; simp at e; exact ⟨e, hw⟩
  · rw [hf] at e; simp at e

/-- C34: an element pointer handed out by `array_get` always denotes memory inside the block. -/
theorem C34_get_in_bounds (ops : List (ArrOp × Option Char)) (hops : ∀ x ∈ ops, ArrOpOk x.1)
    (a : Arr) (hrun : Arr.init.run ops = .ok a) (m pos off : Nat) (hm : 0 < m) (hm' : m < SZ)
    (hp : pos < SZ) (hg : a.get m pos = .ok (some off)) :
    off = pos * m ∧ off + m ≤ (a.cells.getD []).length := by
  obtain ⟨a0, e, h⟩ := Arr.run_inv ops hops Arr.init Arr.init_inv
  rw [hrun] at e; cases e
  have hbd := h.bound
  unfold Arr.get at hg
  rw [if_neg (by omega)] at hg
  by_cases hp1 : pos + 1 = SZ
  · simp [hp1] at hg
  · have hmp : (pos + 1) % SZ = pos + 1 := Nat.mod_eq_of_lt (by omega)
    simp only [hmp] at hg
    split at hg
    · simp at hg
    · rw [Arr.safemult_eq _ _ (by omega) hm'] at hg
      split at hg
      · simp at hg
      · rename_i n hn
        split at hn
        · simp at hn
          have e1 : (pos + 1) * m = pos * m + m := by rw [Nat.add_mul]; simp
          split at hg
          · simp at hg
          · rw [Nat.mod_eq_of_lt (by omega)] at hg
            simp at hg
            rw [h.len]
            omega
        · simp at hn

/-- C34: the temporary NUL terminator is not counted, as long as the buffer has a spare
byte, which it always has behind appended data (second part), also after `moveleft`. -/
theorem C34_temporary_nul (a : Arr) (o : Option Char) (h : a.Inv) (hsp : a.used < a.allocated) :
    ∃ a' blk, a.cat0Temporary o = .ok (a', true) ∧ a'.content = a.content ∧
      a'.used = a.used ∧ a'.used < a'.allocated ∧ a'.Inv ∧
      a'.cells = some blk ∧ blk[a.used]? = some '\x00' := by
  rcases Arr.cat0Temporary_spec a o h with ⟨_, e⟩ | ⟨a', e, hi, hal, hc, blk, hb, hb'⟩
  · omega
  · rcases hc with ⟨_, hc, hu⟩ | ⟨h1, _⟩
    · exact ⟨a', blk, e, hc, hu, by omega, hi, hb, hb'⟩
    · omega

theorem C34_append_leaves_room (a a' : Arr) (s : Str) (o : Option Char) (h : a.Inv)
    (hs : s.length < SZ) (hne : s ≠ []) (e : a.catb s o = .ok (a', true)) :
    a'.used < a'.allocated := by
  rcases Arr.catb_spec a s o h hs with ⟨e', _⟩ | ⟨a1, e', _, _, hr, _⟩
  · rw [e] at e'; simp at e'
  · rw [e] at e'; simp at e'; subst e'; exact hr hne

/-- Disagreement with the comment "do not count it" (array.c:198): on a completely filled
buffer the temporary NUL *is* counted. -/
theorem C34_temporary_nul_counted_when_full :
    ∃ a a' : Arr, Arr.init.run [(.alloc 4 0, some 'x')] = .ok a ∧
      a.cat0Temporary (some 'x') = .ok (a', true) ∧ a'.used = a.used + 1 :=
  ⟨_, _, rfl, rfl, rfl⟩

/-- Disagreement with the comment of `array_get` (array.c:221-223): it hands out elements
beyond the stored ones (stale data) after truncation. -/
theorem C34_get_beyond_length :
    ∃ a : Arr, Arr.init.run [(.catb "abcd".toList, some 'x'), (.trunc, none)] = .ok a ∧
      a.length 1 = .ok 0 ∧ a.get 1 3 = .ok (some 3) :=
  ⟨_, rfl, rfl, rfl⟩

example : ∃ a, Arr.init.run [(.catb "PING\r\nPO".toList, some 'x'), (.cat0Temporary, none),
    (.moveleft 1 6, none), (.catb "NG".toList, none)] = .ok a ∧ a.readAll = .ok "PONG".toList := by
  exact ⟨_, rfl, rfl⟩

end Ngircd
