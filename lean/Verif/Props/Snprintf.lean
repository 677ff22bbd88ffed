import Verif.Spec.Snprintf

/-!
# C100: the replacement of `snprintf()`
-/

namespace Ngircd
open Spec

/-! ## The buffer -/

theorem POut.putc_inv {full : Str} {o : POut} (h : o.len = full.length ∧ o.stored = full.take o.size) (c : Char) :
    (o.putc c).len = (full ++ [c]).length ∧ (o.putc c).stored = (full ++ [c]).take (o.putc c).size := by
  obtain ⟨h1, h2⟩ := h
  refine ⟨by simp [POut.putc, h1], ?_⟩
  unfold POut.putc
  dsimp only
  split
  · rename_i hl
    rw [h2, List.take_of_length_le (by omega), List.take_of_length_le (by simp; omega)]
  · rename_i hl
    rw [h2, List.take_append_of_le_length (by omega)]

theorem POut.puts_size (o : POut) (s : Str) : (o.puts s).size = o.size := by
  unfold POut.puts
  induction s generalizing o with
  | nil => rfl
  | cons c s ih => rw [List.foldl_cons, ih]; rfl

theorem POut.puts_inv (s : Str) {full : Str} {o : POut} (h : o.len = full.length ∧ o.stored = full.take o.size) :
    (o.puts s).len = (full ++ s).length ∧ (o.puts s).stored = (full ++ s).take (o.puts s).size := by
  unfold POut.puts
  induction s generalizing o full with
  | nil => simpa using h
  | cons c s ih =>
    have := ih (POut.putc_inv h c)
    rw [List.append_assoc] at this
    exact this

theorem POut.puts_append (o : POut) (s t : Str) : o.puts (s ++ t) = (o.puts s).puts t := List.foldl_append ..

/-- What was stored is the beginning, of at most `size` bytes, of the output. -/
def OutOk (size : Nat) (o : POut) : Prop := o.size = size ∧ ∃ full : Str, o.len = full.length ∧ o.stored = full.take o.size

theorem OutOk.puts {size : Nat} {o : POut} (h : OutOk size o) (s : Str) : OutOk size (o.puts s) := by
  obtain ⟨h1, full, h2⟩ := h
  exact ⟨(POut.puts_size o s).trans h1, _, POut.puts_inv s h2⟩

theorem OutOk.putc {size : Nat} {o : POut} (h : OutOk size o) (c : Char) : OutOk size (o.putc c) := h.puts [c]

theorem onConv_out {size : Nat} {d : Dp} (h : OutOk size d.out) (c : Char) : OutOk size (d.onConv c).out := by
  have hn : ∀ f b, OutOk size (d.num f b).out := by
    intro f b
    unfold Dp.num
    split
    · exact h.puts _
    · exact h
  have hs : OutOk size d.str.out := by
    unfold Dp.str
    split
    · exact h.puts _
    · exact h
  have hc : OutOk size d.chr.out := by
    unfold Dp.chr
    split
    · exact h.putc _
    · exact h
  unfold Dp.onConv
  split; · exact hn _ _
  split; · exact hn _ _
  split; · exact hn _ _
  split; · exact hn _ _
  split; · exact hn _ _
  split; · exact hc
  split; · exact hs
  split; · exact h.putc _
  split; · exact h
  exact h

theorem onMod_out {size : Nat} {d : Dp} (h : OutOk size d.out) (c : Char) : OutOk size (d.onMod c).out := by
  unfold Dp.onMod
  split; · exact h
  split; · exact h
  exact onConv_out h c

theorem onDot_out {size : Nat} {d : Dp} (h : OutOk size d.out) (c : Char) : OutOk size (d.onDot c).out := by
  unfold Dp.onDot
  split; · exact h
  exact onMod_out h c

theorem onMin_out {size : Nat} {d : Dp} (h : OutOk size d.out) (c : Char) : OutOk size (d.onMin c).out := by
  unfold Dp.onMin
  split; · exact h
  exact onDot_out h c

theorem feed_out {size : Nat} {d : Dp} (h : OutOk size d.out) (c : Char) : OutOk size (d.feed c).out := by
  unfold Dp.feed
  split
  · split
    · exact h
    · exact h.putc _
  · unfold Dp.onFlags
    split; · exact h
    split; · exact h
    split; · exact h
    split; · exact h
    split; · exact h
    exact onMin_out h c
  · exact onMin_out h c
  · exact onDot_out h c
  · unfold Dp.onMax
    split; · exact h
    exact onMod_out h c
  · exact onMod_out h c
  · split
    · exact h
    · exact onConv_out h c
  · exact onConv_out h c
  · exact h

theorem dopr_out (size : Nat) (format : Str) (args : List PArg) : OutOk size (dopr size format args).out := by
  have h : ∀ (s : Str) (d : Dp), OutOk size d.out → OutOk size (s.foldl Dp.feed d).out := by
    intro s
    induction s with
    | nil => exact fun d h => h
    | cons c s ih => exact fun d h => ih _ (feed_out h c)
  exact h format _ ⟨rfl, [], rfl, by simp [Dp.init]⟩

/-- C100: whatever the format and the arguments are, `snprintf` stores nothing behind the end of the buffer: of
the output, whose length it returns, it stores as much as has room, and a NUL byte behind it. -/
theorem C100_bound (size : Nat) (format : Str) (args : List PArg) :
    (dopr size format args).out.stored.length ≤ size ∧
    ∃ full : Str, (snprintf size format args).2 = full.length ∧
      (size = 0 → (snprintf size format args).1 = none) ∧
      (0 < size → (snprintf size format args).1 = some (full.take (size - 1))) := by
  obtain ⟨h1, full, h2, h3⟩ := dopr_out size format args
  refine ⟨by rw [h3, h1]; simp; omega, full, h2, fun h => by simp [snprintf, h], fun h => ?_⟩
  unfold snprintf
  dsimp only
  rw [if_neg (by omega), h3, h2, h1]
  split
  · rw [List.take_of_length_le (by omega), List.take_of_length_le (by omega)]
  · rw [List.take_take, Nat.min_eq_left (by omega)]

/-! ## Numbers -/

/-- Upper case digits, or not. -/
def caseOf (up : Bool) : Char → Char := if up then Char.toUpper else id

theorem pDigit_eq (up : Bool) (d : Nat) (h : d < 16) : pDigit up d = caseOf up (Nat.digitChar d) := by
  have : ∀ up : Bool, ∀ d : Fin 16, pDigit up d.val = caseOf up (Nat.digitChar d.val) := by decide
  exact this up ⟨d, h⟩

theorem pConvert_eq (up : Bool) (b : Nat) (hb : 1 < b) (hb' : b ≤ 16) (room u : Nat) (h : u < b ^ (room + 1)) :
    (pConvert up b (room + 1) u).reverse = (Nat.toDigits b u).map (caseOf up) := by
  induction room generalizing u with
  | zero =>
    have hu : u < b := by simpa using h
    rw [pConvert, if_pos (Nat.div_eq_of_lt hu), Nat.mod_eq_of_lt hu, Nat.toDigits_of_lt_base hu, pDigit_eq up u (by omega)]
    rfl
  | succ room ih =>
    have hm : u % b < b := Nat.mod_lt _ (by omega)
    by_cases hu : u < b
    · rw [pConvert, if_pos (Nat.div_eq_of_lt hu), Nat.mod_eq_of_lt hu, Nat.toDigits_of_lt_base hu, pDigit_eq up u (by omega)]
      rfl
    · have h0 : u / b ≠ 0 := by
        have := Nat.div_pos (Nat.le_of_not_lt hu) (by omega : 0 < b)
        omega
      have h1 : u / b < b ^ (room + 1) := Nat.div_lt_of_lt_mul (by rw [Nat.pow_succ, Nat.mul_comm] at h; exact h)
      rw [pConvert, if_neg h0, List.reverse_cons, ih _ h1, Nat.toDigits_of_base_le hb (Nat.le_of_not_lt hu), List.map_append,
        pDigit_eq up _ (by omega)]
      rfl

theorem pDigits_eq (up : Bool) (b : Nat) (hb : 1 < b) (hb' : b ≤ 16) (u : Nat) (h : u < b ^ 19) :
    pDigits up b u = (Nat.toDigits b u).map (caseOf up) := by
  have h20 : u < b ^ (19 + 1) := Nat.lt_of_lt_of_le h (Nat.pow_le_pow_right (by omega) (by omega))
  have he := pConvert_eq up b hb hb' 19 u h20
  have hl : (pConvert up b (19 + 1) u).length ≤ 19 := by
    have := (Nat.length_toDigits_le_iff (n := u) hb (by omega : 0 < 19)).mpr h
    have e := congrArg List.length he
    simp only [List.length_reverse, List.length_map] at e
    omega
  unfold pDigits
  rw [List.take_of_length_le hl, he]

/-- The text of a conversion of a number, put in order. -/
theorem fmtint_eq (v : Int) (b w : Nat) (p : Option Nat) (f : PFlags) (g : Flags) (sign digits : Str)
    (hs : pSign f v = sign) (hd : pDigits f.up b v.natAbs = digits) (hd0 : 0 < digits.length)
    (hm : g.minus = f.minus) (hz : f.zero = true → f.minus = false ∧ p = none) (hz' : g.zero = f.zero)
    (hp : p = some 0 → v ≠ 0) :
    fmtint v b w (p.getD 0) f = padTo g w (g.zero && p.isNone) sign (withPrec p v.natAbs digits) := by
  have hw : withPrec p v.natAbs digits = List.replicate (p.getD 1 - digits.length) '0' ++ digits := by
    unfold withPrec
    rw [if_neg]
    rintro ⟨e, h0⟩
    exact hp e (by omega)
  have hpd : p.getD 1 - digits.length = p.getD 0 - digits.length := by
    cases p with
    | none => simp; omega
    | some n => rfl
  unfold fmtint
  dsimp only
  rw [hs, hd, hw, hpd, hz']
  have hmx : Nat.max (p.getD 0) digits.length = (p.getD 0 - digits.length) + digits.length := by
    show max _ _ = _
    omega
  rw [hmx]
  generalize hk : p.getD 0 - digits.length = k
  unfold padTo
  dsimp only
  have hpad : w - (sign ++ (List.replicate k '0' ++ digits)).length = w - (k + digits.length) - sign.length := by
    simp only [List.length_append, List.length_replicate]
    omega
  rw [hpad, hm]
  cases hzz : f.zero with
  | false =>
    cases f.minus <;> simp [List.append_assoc]
  | true =>
    obtain ⟨h1, h2⟩ := hz hzz
    subst h2
    have hk0 : k = 0 := by rw [← hk]; simp
    subst hk0
    rw [h1]
    simp

theorem fmtstr_eq (s : Str) (g : Flags) (w : Nat) (p : Option Nat) (h : ∀ n, p = some n → w ≤ n ∨ s.length ≤ n) :
    fmtstr s g.minus w (if w > 0 ∧ w > p.getD s.length then w else p.getD s.length) =
      (Piece.conv g w p false (.string s)).print := by
  have key : ∀ m : Nat, ∀ t : Str, t = s.take m → w ≤ m ∨ s.length ≤ m →
      fmtstr s g.minus w (if w > 0 ∧ w > m then w else m) = padTo g w false [] t := by
    intro m t ht hm
    generalize hx : (if w > 0 ∧ w > m then w else m) = x
    have hx1 : w ≤ x ∧ s.take x = t := by
      subst ht
      split at hx
      · subst hx
        have : s.length ≤ m := by omega
        exact ⟨Nat.le_refl _, by rw [List.take_of_length_le (by omega), List.take_of_length_le this]⟩
      · subst hx
        exact ⟨by omega, rfl⟩
    have hlen : t.length = Nat.min x s.length := by rw [← hx1.2, List.length_take]
    have hlen' : t.length = min x s.length := hlen
    have hpad : w - s.length = w - t.length := by omega
    unfold fmtstr padTo
    dsimp only
    rw [hx1.2]
    cases g.minus with
    | true =>
      have : Nat.min (w - s.length) (x - t.length) = w - t.length := by
        show min _ _ = _
        omega
      simp [this]
    | false =>
      have h1 : Nat.min (w - s.length) x = w - t.length := by
        show min _ _ = _
        omega
      have h2 : s.take (x - (w - t.length)) = t := by
        by_cases hws : w ≤ t.length
        · rw [Nat.sub_eq_zero_of_le hws, Nat.sub_zero, hx1.2]
        · have h3 : s.length ≤ x - (w - t.length) := by omega
          rw [List.take_of_length_le h3, ← hx1.2, List.take_of_length_le (by omega)]
      simp [h1, h2]
  cases p with
  | none => exact key s.length s (by simp) (Or.inr (Nat.le_refl _))
  | some n => exact key n _ rfl (h n rfl)

/-! ## The format -/

theorem feed_min (ds : Str) (hd : ∀ c ∈ ds, c.isDigit = true) (fl : PFlags) (mn : Nat) (mx : Option Nat) (a : List PArg)
    (o : POut) (k : Bool) :
    ds.foldl Dp.feed ⟨.min, fl, mn, mx, a, o, k⟩ = ⟨.min, fl, Nat.ofDigitChars 10 ds mn, mx, a, o, k⟩ := by
  induction ds generalizing mn with
  | nil => simp
  | cons c ds ih =>
    have hc := hd c (List.mem_cons_self ..)
    have : Dp.feed ⟨.min, fl, mn, mx, a, o, k⟩ c = ⟨.min, fl, 10 * mn + (c.toNat - '0'.toNat), mx, a, o, k⟩ := by
      simp only [Dp.feed, Dp.onMin, hc, if_true]
    rw [List.foldl_cons, this, ih (fun x h => hd x (List.mem_cons_of_mem _ h)), Nat.ofDigitChars_cons]

theorem feed_max (ds : Str) (hd : ∀ c ∈ ds, c.isDigit = true) (hne : ds ≠ []) (fl : PFlags) (mn : Nat) (mx : Option Nat)
    (a : List PArg) (o : POut) (k : Bool) :
    ds.foldl Dp.feed ⟨.max, fl, mn, mx, a, o, k⟩ = ⟨.max, fl, mn, some (Nat.ofDigitChars 10 ds (mx.getD 0)), a, o, k⟩ := by
  induction ds generalizing mx with
  | nil => exact absurd rfl hne
  | cons c ds ih =>
    have hc := hd c (List.mem_cons_self ..)
    have : Dp.feed ⟨.max, fl, mn, mx, a, o, k⟩ c =
        ⟨.max, fl, mn, some (10 * mx.getD 0 + (c.toNat - '0'.toNat)), a, o, k⟩ := by
      simp only [Dp.feed, Dp.onMax, hc, if_true]
    rw [List.foldl_cons, this]
    cases ds with
    | nil => simp [Nat.ofDigitChars_cons]
    | cons e es =>
      rw [ih (fun x h => hd x (List.mem_cons_of_mem _ h)) (by simp), Nat.ofDigitChars_cons (c := c)]
      rfl

theorem digits10 (n : Nat) : ∀ c ∈ Nat.toDigits 10 n, c.isDigit = true :=
  fun _ h => Nat.isDigit_of_mem_toDigits (by decide) (by decide) h

/-- A number does not begin with 0. -/
theorem toDigits_head (w : Nat) (h : 0 < w) : ∃ c cs, Nat.toDigits 10 w = c :: cs ∧ c ≠ '0' := by
  induction w using Nat.strongRecOn with
  | ind w ih =>
    rw [Nat.toDigits_eq_if (by decide)]
    split
    · rename_i hw
      refine ⟨_, [], rfl, ?_⟩
      have : ∀ x : Fin 10, 0 < x.val → Nat.digitChar x.val ≠ '0' := by decide
      exact this ⟨w, hw⟩ h
    · obtain ⟨c, cs, e, hc⟩ := ih (w / 10) (by omega) (by omega)
      exact ⟨c, cs ++ [Nat.digitChar (w % 10)], by rw [e]; rfl, hc⟩

theorem feed_width (w : Nat) (fl : PFlags) (mx : Option Nat) (a : List PArg) (o : POut) (k : Bool) :
    ∃ st, (st = .flags ∨ st = .min) ∧
      (if w = 0 then [] else Nat.toDigits 10 w).foldl Dp.feed ⟨.flags, fl, 0, mx, a, o, k⟩ = ⟨st, fl, w, mx, a, o, k⟩ := by
  split
  · rename_i h
    exact ⟨.flags, Or.inl rfl, by rw [h]; rfl⟩
  · rename_i h
    refine ⟨.min, Or.inr rfl, ?_⟩
    obtain ⟨c, cs, e, hc⟩ := toDigits_head w (by omega)
    have hall := digits10 w
    have hv := Nat.ofDigitChars_toDigits (b := 10) (n := w) (by decide) (by decide)
    rw [e] at hall hv
    have hcd := hall c (List.mem_cons_self ..)
    have h1 : c ≠ '-' := by rintro rfl; exact absurd hcd (by decide)
    have h2 : c ≠ '+' := by rintro rfl; exact absurd hcd (by decide)
    have h3 : c ≠ ' ' := by rintro rfl; exact absurd hcd (by decide)
    have h4 : c ≠ '#' := by rintro rfl; exact absurd hcd (by decide)
    have : Dp.feed ⟨.flags, fl, 0, mx, a, o, k⟩ c = ⟨.min, fl, 10 * 0 + (c.toNat - '0'.toNat), mx, a, o, k⟩ := by
      simp only [Dp.feed, Dp.onFlags, Dp.onMin, hcd, h1, h2, h3, h4, hc, if_true, if_false]
    rw [e, List.foldl_cons, this, feed_min cs (fun x h => hall x (List.mem_cons_of_mem _ h)), ← Nat.ofDigitChars_cons, hv]

/-- The flags of the directive, as bits. -/
def bitsOfFlags (f : Flags) : PFlags := ⟨f.minus, f.plus, f.space, f.zero, false, false⟩

theorem feed_flags (f : Flags) (mx : Option Nat) (a : List PArg) (o : POut) (k : Bool) :
    f.text.foldl Dp.feed ⟨.flags, PFlags.none, 0, mx, a, o, k⟩ = ⟨.flags, bitsOfFlags f, 0, mx, a, o, k⟩ := by
  obtain ⟨a1, a2, a3, a4⟩ := f
  cases a1 <;> cases a2 <;> cases a3 <;> cases a4 <;> rfl

theorem feed_dot {st : PState} (hst : st = .flags ∨ st = .min) (fl : PFlags) (mn : Nat) (mx : Option Nat) (a : List PArg)
    (o : POut) (k : Bool) (c : Char) (hc : c = '.' ∨ c.isAlpha = true) :
    Dp.feed ⟨st, fl, mn, mx, a, o, k⟩ c = Dp.onDot ⟨st, fl, mn, mx, a, o, k⟩ c := by
  have hd : c.isDigit = false := by
    rcases hc with rfl | hc
    · rfl
    · cases h : c.isDigit with
      | false => rfl
      | true =>
        simp only [Char.isAlpha, Char.isUpper, Char.isLower, Char.isDigit, Bool.or_eq_true, Bool.and_eq_true, decide_eq_true_eq,
          UInt32.le_iff_toNat_le] at h hc
        simp at h hc
        omega
  have hf : c ≠ '-' ∧ c ≠ '+' ∧ c ≠ ' ' ∧ c ≠ '#' ∧ c ≠ '0' := by
    refine ⟨?_, ?_, ?_, ?_, ?_⟩ <;> (rintro rfl; revert hc; decide)
  obtain ⟨h1, h2, h3, h4, h5⟩ := hf
  rcases hst with rfl | rfl
  · simp only [Dp.feed, Dp.onFlags, Dp.onMin, hd, h1, h2, h3, h4, h5, if_false, Bool.false_eq_true]
  · simp only [Dp.feed, Dp.onMin, hd, if_false, Bool.false_eq_true]

/-- The conversion characters are letters, and none is a length. -/
theorem letter_facts (v : Value) : v.letter.isAlpha = true ∧ v.letter.isDigit = false ∧ v.letter ≠ '.' ∧ v.letter ≠ 'l' ∧
    v.letter ≠ 'h' ∧ v.letter ≠ 'L' := by
  have h : ∀ c ∈ ['d', 'u', 'o', 'x', 'X', 's'], c.isAlpha = true ∧ c.isDigit = false ∧ c ≠ '.' ∧ c ≠ 'l' ∧ c ≠ 'h' ∧ c ≠ 'L' := by
    decide
  apply h
  cases v with
  | signed v => simp [Value.letter]
  | unsigned r n => cases r <;> simp [Value.letter, Radix.letter]
  | string s => simp [Value.letter]

/-- What the conversion character does. -/
theorem onConv_eq (st : PState) (f : Flags) (w : Nat) (p : Option Nat) (l : Bool) (v : Value) (rest : List PArg) (o : POut)
    (hv : (Piece.conv f w p l v).Plain) :
    Dp.onConv ⟨st, bitsOfFlags f, w, p, (Piece.conv f w p l v).args ++ rest, o, true⟩ v.letter =
      ⟨.deflt, PFlags.none, 0, none, rest, o.puts (Piece.conv f w p l v).print, true⟩ := by
  cases v with
  | signed v =>
    obtain ⟨h1, h2, h3⟩ := hv
    have e := fmtint_eq v 10 w p (bitsOfFlags f) f (signOf f v) (Nat.toDigits 10 v.natAbs) rfl
      (by rw [pDigits_eq _ 10 (by decide) (by decide) _ h1]; exact List.map_id _) Nat.length_toDigits_pos rfl h2 rfl h3
    show Dp.reset { (⟨st, bitsOfFlags f, w, p, .num v :: rest, o, true⟩ : Dp) with
      args := rest, out := o.puts (fmtint v 10 w (p.getD 0) (bitsOfFlags f)) } = _
    rw [e]
    rfl
  | unsigned r n =>
    obtain ⟨h1, h2, h3⟩ := hv
    have hp : p = some 0 → (n : Int) ≠ 0 := fun e h => h3 e (by omega)
    cases r with
    | u =>
      have e := fmtint_eq n 10 w p { bitsOfFlags f with uns := true } f [] (Nat.toDigits 10 n) rfl
        (by rw [Int.natAbs_natCast, pDigits_eq _ 10 (by decide) (by decide) _ h1]; exact List.map_id _) Nat.length_toDigits_pos rfl h2 rfl hp
      show Dp.reset { (⟨st, bitsOfFlags f, w, p, .num n :: rest, o, true⟩ : Dp) with
        args := rest, out := o.puts (fmtint n 10 w (p.getD 0) { bitsOfFlags f with uns := true }) } = _
      rw [e]
      rfl
    | o =>
      have e := fmtint_eq n 8 w p { bitsOfFlags f with uns := true } f [] (Nat.toDigits 8 n) rfl
        (by rw [Int.natAbs_natCast, pDigits_eq _ 8 (by decide) (by decide) _ h1]; exact List.map_id _) Nat.length_toDigits_pos rfl h2 rfl hp
      show Dp.reset { (⟨st, bitsOfFlags f, w, p, .num n :: rest, o, true⟩ : Dp) with
        args := rest, out := o.puts (fmtint n 8 w (p.getD 0) { bitsOfFlags f with uns := true }) } = _
      rw [e]
      rfl
    | x =>
      have e := fmtint_eq n 16 w p { bitsOfFlags f with uns := true } f [] (Nat.toDigits 16 n) rfl
        (by rw [Int.natAbs_natCast, pDigits_eq _ 16 (by decide) (by decide) _ h1]; exact List.map_id _) Nat.length_toDigits_pos rfl h2 rfl hp
      show Dp.reset { (⟨st, bitsOfFlags f, w, p, .num n :: rest, o, true⟩ : Dp) with
        args := rest, out := o.puts (fmtint n 16 w (p.getD 0) { bitsOfFlags f with uns := true }) } = _
      rw [e]
      rfl
    | X =>
      have e := fmtint_eq n 16 w p { bitsOfFlags f with uns := true, up := true } f [] ((Nat.toDigits 16 n).map Char.toUpper) rfl
        (by rw [Int.natAbs_natCast, pDigits_eq _ 16 (by decide) (by decide) _ h1]; rfl) (by rw [List.length_map]; exact Nat.length_toDigits_pos)
        rfl h2 rfl hp
      show Dp.reset { (⟨st, bitsOfFlags f, w, p, .num n :: rest, o, true⟩ : Dp) with
        args := rest, out := o.puts (fmtint n 16 w (p.getD 0) { bitsOfFlags f with uns := true, up := true }) } = _
      rw [e]
      rfl
  | string s =>
    have e := fmtstr_eq s f w p hv.2
    show Dp.reset { (⟨st, bitsOfFlags f, w, p, .str s :: rest, o, true⟩ : Dp) with
      args := rest, out := o.puts (fmtstr s f.minus w (if w > 0 ∧ w > p.getD s.length then w else p.getD s.length)) } = _
    rw [e]
    rfl

/-- One piece. -/
theorem feed_piece (p : Piece) (hp : p.Plain) (rest : List PArg) (o : POut) :
    p.text.foldl Dp.feed ⟨.deflt, PFlags.none, 0, none, p.args ++ rest, o, true⟩ =
      ⟨.deflt, PFlags.none, 0, none, rest, o.puts p.print, true⟩ := by
  cases p with
  | lit c =>
    show Dp.feed ⟨.deflt, PFlags.none, 0, none, rest, o, true⟩ c = _
    simp only [Dp.feed, if_neg (show c ≠ '%' from hp)]
    rfl
  | percent => rfl
  | char c => rfl
  | conv f w p l v =>
    obtain ⟨l1, l2, l3, l4, l5, l6⟩ := letter_facts v
    have hcv := fun st => onConv_eq st f w p l v rest o hp
    generalize (Piece.conv f w p l v).print = out at hcv
    generalize (Piece.conv f w p l v).args ++ rest = as at hcv
    simp only [Piece.text, List.foldl_append]
    have h1 : ['%'].foldl Dp.feed ⟨.deflt, PFlags.none, 0, none, as, o, true⟩ = ⟨.flags, PFlags.none, 0, none, as, o, true⟩ := rfl
    rw [h1, feed_flags]
    obtain ⟨st, hst, hw⟩ := feed_width w (bitsOfFlags f) none as o true
    rw [hw]
    cases p with
    | none =>
      cases l with
      | false =>
        simp only [List.foldl_nil, List.foldl_cons, Bool.false_eq_true, if_false]
        rw [feed_dot hst _ _ _ _ _ _ _ (Or.inr l1)]
        simp only [Dp.onDot, Dp.onMod, if_neg l3, if_neg l4, if_neg (show ¬(v.letter = 'h' ∨ v.letter = 'L') from by simp [l5, l6])]
        exact hcv st
      | true =>
        simp only [List.foldl_nil, List.foldl_cons, if_true]
        rw [feed_dot hst _ _ _ _ _ _ _ (Or.inr (by decide))]
        have : Dp.onDot ⟨st, bitsOfFlags f, w, none, as, o, true⟩ 'l' = ⟨.modL, bitsOfFlags f, w, none, as, o, true⟩ := rfl
        rw [this]
        simp only [Dp.feed, if_neg l4]
        exact hcv .modL
    | some n =>
      simp only [List.foldl_cons]
      rw [feed_dot hst _ _ _ _ _ _ _ (Or.inl rfl)]
      have : Dp.onDot ⟨st, bitsOfFlags f, w, none, as, o, true⟩ '.' = ⟨.max, bitsOfFlags f, w, none, as, o, true⟩ := rfl
      rw [this, feed_max _ (digits10 n) Nat.toDigits_ne_nil]
      have hn : Nat.ofDigitChars 10 (Nat.toDigits 10 n) ((none : Option Nat).getD 0) = n :=
        Nat.ofDigitChars_toDigits (by decide) (by decide)
      rw [hn]
      cases l with
      | false =>
        simp only [List.foldl_nil, List.foldl_cons, Bool.false_eq_true, if_false, Dp.feed, Dp.onMax, l2, Dp.onMod, if_neg l4,
          if_neg (show ¬(v.letter = 'h' ∨ v.letter = 'L') from by simp [l5, l6])]
        exact hcv .max
      | true =>
        have : Dp.feed ⟨.max, bitsOfFlags f, w, some n, as, o, true⟩ 'l' = ⟨.modL, bitsOfFlags f, w, some n, as, o, true⟩ := rfl
        simp only [List.foldl_nil, List.foldl_cons, if_true, this]
        simp only [Dp.feed, if_neg l4]
        exact hcv .modL

theorem feed_pieces (ps : List Piece) (hp : ∀ p ∈ ps, p.Plain) (o : POut) :
    (formatOf ps).foldl Dp.feed ⟨.deflt, PFlags.none, 0, none, argsOf ps, o, true⟩ =
      ⟨.deflt, PFlags.none, 0, none, [], o.puts (printed ps), true⟩ := by
  induction ps generalizing o with
  | nil => rfl
  | cons p ps ih =>
    have h1 : formatOf (p :: ps) = p.text ++ formatOf ps := rfl
    have h2 : argsOf (p :: ps) = p.args ++ argsOf ps := rfl
    have h3 : printed (p :: ps) = p.print ++ printed ps := rfl
    rw [h1, h2, h3, List.foldl_append, feed_piece p (hp p (List.mem_cons_self ..)), ih (fun q h => hp q (List.mem_cons_of_mem _ h)),
      POut.puts_append]

/-- C100: for every format of plain pieces, with arguments of the right types, `snprintf` stores the output the C
standard describes, as far as it has room, and returns its length. -/
theorem C100_output_partial (ps : List Piece) (hp : ∀ p ∈ ps, p.Plain) (size : Nat) :
    (dopr size (formatOf ps) (argsOf ps)).ok = true ∧ (dopr size (formatOf ps) (argsOf ps)).args = [] ∧
    (snprintf size (formatOf ps) (argsOf ps)).2 = (printed ps).length ∧
    (0 < size → (snprintf size (formatOf ps) (argsOf ps)).1 = some ((printed ps).take (size - 1))) := by
  have h := feed_pieces ps hp ⟨size, [], 0⟩
  have hd : dopr size (formatOf ps) (argsOf ps) = ⟨.deflt, PFlags.none, 0, none, [], (⟨size, [], 0⟩ : POut).puts (printed ps), true⟩ := h
  have hi := POut.puts_inv (printed ps) (full := []) (o := ⟨size, [], 0⟩) ⟨rfl, by simp⟩
  have hsz := POut.puts_size ⟨size, [], 0⟩ (printed ps)
  rw [List.nil_append] at hi
  unfold snprintf
  rw [hd]
  dsimp only
  rw [hi.1, hi.2, hsz]
  refine ⟨rfl, rfl, rfl, fun h0 => ?_⟩
  dsimp only
  rw [if_neg (by omega)]
  split
  · rw [List.take_of_length_le (by omega), List.take_of_length_le (by omega)]
  · rw [List.take_take, Nat.min_eq_left (by omega)]

/-- A format as the log uses it. -/
def Sample.pieces : List Piece :=
  [.lit '[', .conv ⟨false, false, false, true⟩ 2 none false (.signed 7), .lit ':', .conv ⟨false, false, false, true⟩ 2 none true (.signed 42),
    .lit ']', .conv ⟨true, false, false, false⟩ 8 none false (.string "nick".toList), .conv ⟨false, false, false, false⟩ 0 (some 3) false (.string "abcdef".toList),
    .percent, .char 'c', .conv ⟨false, true, false, false⟩ 6 none false (.signed (-12)), .conv ⟨false, false, false, false⟩ 0 none true (.unsigned .X 48879)]

/-- The hypothesis of `C100_output_partial` is met. -/
example : (∀ p ∈ Sample.pieces, p.Plain) ∧ formatOf Sample.pieces = "[%02d:%02ld]%-8s%.3s%%%c%+6d%lX".toList ∧
    printed Sample.pieces = "[07:42]nick    abc%c   -12BEEF".toList := by
  refine ⟨?_, by decide, by decide⟩
  intro p hp
  simp only [Sample.pieces, List.mem_cons, List.not_mem_nil, or_false] at hp
  rcases hp with rfl | rfl | rfl | rfl | rfl | rfl | rfl | rfl | rfl | rfl | rfl <;>
    simp [Piece.Plain, Radix.base]

/-! ## Where the claim fails -/

/-- C100: a precision smaller than the width is ignored. -/
theorem C100_violated_by_precision : snprintf 100 "%5.3s".toList [.str "abcdef".toList] = (some "abcde".toList, 5) ∧
    printed [.conv ⟨false, false, false, false⟩ 5 (some 3) false (.string "abcdef".toList)] = "  abc".toList := by decide

/-- C100: the first digit of the greatest numbers of 64 bits is lost. -/
theorem C100_violated_by_digits :
    snprintf 100 "%lu".toList [.num 18446744073709551615] = (some "8446744073709551615".toList, 19) ∧
    printed [.conv ⟨false, false, false, false⟩ 0 none true (.unsigned .u 18446744073709551615)] =
      "18446744073709551615".toList := by decide

/-- C100: the flag `0` is not switched off by the flag `-`. -/
theorem C100_violated_by_zeros : snprintf 100 "%-05d".toList [.num 42] = (some "00042".toList, 5) ∧
    printed [.conv ⟨true, false, false, true⟩ 5 none false (.signed 42)] = "42   ".toList := by decide

/-- C100: the flag `0` is not switched off by a precision, and the width is not reached. -/
theorem C100_violated_by_zero_flag : snprintf 100 "%05.3d".toList [.num 42] = (some "0042".toList, 4) ∧
    printed [.conv ⟨false, false, false, true⟩ 5 (some 3) false (.signed 42)] = "  042".toList := by decide

/-- C100: with precision 0 the number 0 should have no digit. -/
theorem C100_violated_by_zero : snprintf 100 "%.0d".toList [.num 0] = (some "0".toList, 1) ∧
    printed [.conv ⟨false, false, false, false⟩ 0 (some 0) false (.signed 0)] = [] := by decide

end Ngircd
