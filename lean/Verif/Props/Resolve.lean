import Verif.Spec.Resolve
import Verif.Lemmas.HLogin3
import Verif.Props.Lists

/-!
# C92: the names clients get from their addresses, and the addresses servers are looked for at
-/

namespace Ngircd
open Spec

theorem af_layout (x : Addr) (b : Beside) : ipAf (layout x b) = family x := by
  cases x <;> simp [ipAf, layout, family]

theorem addrSearch_spec {x : Addr} {b : Beside} (hx : x.ok) (hb : b.flow.length = 4) :
    ∀ l : List IpMem, (∀ m ∈ l, ∃ y, Stores m y) →
      ∃ r, addrSearch (layout x b) l = .ok r ∧ (r = true ↔ ∃ m ∈ l, Stores m x)
  | [], _ => ⟨false, rfl, by simp⟩
  | m :: l, h => by
    obtain ⟨y, hy, c, hc, rfl⟩ := h m (List.mem_cons_self ..)
    obtain ⟨r, h1, h2⟩ := addrSearch_spec hx hb l (fun m hm => h m (List.mem_cons_of_mem _ hm))
    simp only [addrSearch, C46_equal x y b c hx hy hb hc, Res.bind]
    by_cases e : x = y
    · subst e
      refine ⟨true, by simp, by simp only [true_iff]; exact ⟨_, List.mem_cons_self .., hy, c, hc, rfl⟩⟩
    · refine ⟨r, by simp [e, h1], ?_⟩
      rw [h2]
      constructor
      · rintro ⟨m, hm, hs⟩
        exact ⟨m, List.mem_cons_of_mem _ hm, hs⟩
      · rintro ⟨m, hm, hs⟩
        rcases List.mem_cons.1 hm with rfl | hm
        · obtain ⟨-, c', hc', e'⟩ := hs
          have h3 := C46_equal y x c c' hy hx hc hc'
          rw [← e'] at h3
          have h4 := C46_equal y y c c hy hy hc hc
          rw [h4] at h3
          simp only [decide_true, Res.ok.injEq] at h3
          exact absurd (of_decide_eq_true h3.symm).symm e
        · exact ⟨m, hm, hs⟩

theorem text_spec {d : Dns} {x : Addr} {b : Beside} (hl : Library d (layout x b)) :
    ∃ u, ipToStr d.numeric (layout x b) = .ok u ∧ TextOf d (layout x b) u ∧ u ≠ [] ∧ u.length < 46 ∧ '\n' ∉ u ∧ '\x00' ∉ u := by
  obtain ⟨t, h1, h2, h3, h4, h5⟩ := hl.text
  obtain ⟨u, k1, k2, k3, k4⟩ := C46_text d.numeric x b t h1 (by omega)
  refine ⟨u, k1, ⟨t, h1, ?_⟩, ?_⟩
  · rcases k4 with rfl | ⟨k4, rfl⟩
    · rw [if_neg k2]
    · rw [if_pos k4]
  · rcases k4 with rfl | ⟨k4, rfl⟩
    · exact ⟨h2, k3, h4, h5⟩
    · refine ⟨by simp, k3, ?_, ?_⟩
      · simp only [List.mem_cons, not_or]; exact ⟨by decide, h4⟩
      · simp only [List.mem_cons, not_or]; exact ⟨by decide, h5⟩

theorem strlcpy_short {n : Nat} {u : Str} (h : u.length < n) : strlcpy n u = u := by
  simp only [strlcpy]
  exact List.take_of_length_le (by omega)

theorem resolvedName_on {d : Dns} {x : Addr} {b : Beside} (hx : x.ok) (hb : b.flow.length = 4) (hl : Library d (layout x b)) {u : Str}
    (k1 : ipToStr d.numeric (layout x b) = .ok u) (k4 : u.length < 46) :
    ∃ n, resolvedName d true (layout x b) = .ok n ∧
      (Confirmed d x (layout x b) n ∨ ((¬ ∃ m, Confirmed d x (layout x b) m) ∧ n = u)) := by
  have hu : strlcpy RESOLVE_LEN u = u := strlcpy_short (by have : RESOLVE_LEN = 64 := rfl; omega)
  have e64 : ∀ n : Str, n.length < RESOLVE_LEN ↔ n.length < 64 := fun n => Iff.rfl
  cases hr : d.reverse (layout x b) with
  | none =>
    refine ⟨u, ?_, .inr ⟨?_, rfl⟩⟩
    · simp only [resolvedName, k1, Res.bind, reverseLookup, hr, hu, Bool.not_true, Bool.false_eq_true, if_false, Bool.not_false, if_true]
    · rintro ⟨m, hm, -⟩; rw [hr] at hm; cases hm
  | some n =>
    by_cases hlen : n.length < 64
    · have hlen' := (e64 n).2 hlen
      cases hf : d.forward n (family x) with
      | none =>
        refine ⟨u, ?_, .inr ⟨?_, rfl⟩⟩
        · simp only [resolvedName, k1, Res.bind, reverseLookup, hr, hu, Bool.not_true, Bool.false_eq_true, if_false, hlen', if_true, af_layout, hf]
        · rintro ⟨m, hm, -, l, h2, -⟩
          rw [hr] at hm; cases hm
          rw [hf] at h2; cases h2
      | some l =>
        obtain ⟨l1, l2⟩ := hl.found n _ l hf
        obtain ⟨r, h1, h2⟩ := addrSearch_spec hx hb l l2
        have hle : l.isEmpty = false := by cases l with
          | nil => exact absurd rfl l1
          | cons => rfl
        have hres : resolvedName d true (layout x b) = .ok (if r then n else u) := by
          simp only [resolvedName, k1, Res.bind, reverseLookup, hr, hu, Bool.not_true, Bool.false_eq_true, if_false, hlen', if_true, af_layout, hf, addrInList, hle, h1]
        refine ⟨_, hres, ?_⟩
        cases r with
        | true => exact .inl ⟨hr, hlen, l, hf, h2.1 rfl⟩
        | false =>
          refine .inr ⟨?_, rfl⟩
          rintro ⟨m, hm, -, l', h3, h4⟩
          rw [hr] at hm; cases hm
          rw [hf] at h3; cases h3
          exact absurd (h2.2 h4) (by simp)
    · have hlen' : ¬ n.length < RESOLVE_LEN := hlen
      refine ⟨u, ?_, .inr ⟨?_, rfl⟩⟩
      · simp only [resolvedName, k1, Res.bind, reverseLookup, hr, hu, Bool.not_true, Bool.false_eq_true, if_false, hlen', Bool.not_false, if_true]
      · rintro ⟨m, hm, h2, -⟩
        rw [hr] at hm; cases hm
        exact hlen h2

/-- What the child finds. -/
theorem resolvedName_spec {d : Dns} {x : Addr} {b : Beside} (hx : x.ok) (hb : b.flow.length = 4) (hl : Library d (layout x b)) (dns : Bool) :
    ∃ n, resolvedName d dns (layout x b) = .ok n ∧ n.length < 64 ∧ '\n' ∉ n ∧ '\x00' ∉ n ∧ (dns = false → n = []) ∧
      (dns = true → n ≠ [] ∧ (Confirmed d x (layout x b) n ∨ ((¬ ∃ m, Confirmed d x (layout x b) m) ∧ TextOf d (layout x b) n))) := by
  obtain ⟨u, k1, k2, k3, k4, k5, k6⟩ := text_spec hl
  cases dns with
  | false =>
    refine ⟨[], ?_, by simp, by simp, by simp, fun _ => rfl, fun h => by cases h⟩
    simp only [resolvedName, k1, Res.bind, Bool.not_false, if_true]
  | true =>
    obtain ⟨n, h1, h2 | ⟨h2, rfl⟩⟩ := resolvedName_on hx hb hl k1 k4
    · obtain ⟨n1, n2, n3⟩ := hl.name n h2.1
      exact ⟨n, h1, h2.2.1, n2, n3, (fun h => by cases h), fun _ => ⟨n1, .inl h2⟩⟩
    · exact ⟨n, h1, by omega, k5, k6, (fun h => by cases h), fun _ => ⟨k3, .inr ⟨h2, k2⟩⟩⟩

/-- What the parent reads from what the child wrote. -/
theorem readResult_spec {n w : Str} (h1 : n.length < 64) (h2 : '\n' ∉ n) (h3 : '\x00' ∉ n) (h4 : '\x00' ∉ w) :
    readResult (n ++ '\n' :: w) = .ok ⟨if n.isEmpty then none else some n,
      if !(w.take (276 - n.length)).isEmpty && (w.take (276 - n.length)).all identChar then some (w.take (276 - n.length)) else none⟩ := by
  have e : (n ++ '\n' :: w).take RESULT_LEN = n ++ '\n' :: w.take (276 - n.length) := by
    have : RESULT_LEN = 277 := rfl
    rw [this, List.take_append, List.take_of_length_le (by omega)]
    have : 277 - n.length = (276 - n.length) + 1 := by omega
    rw [this, List.take_succ_cons]
  have hz : '\x00' ∉ n ++ '\n' :: w.take (276 - n.length) := by
    simp only [List.mem_append, List.mem_cons, not_or]
    exact ⟨h3, by decide, fun h => h4 (List.mem_of_mem_take h)⟩
  have hne : (n ++ '\n' :: w.take (276 - n.length)).isEmpty = false := by
    cases n <;> rfl
  simp only [readResult, e, hne, Bool.false_eq_true, if_false, cutAt_of_not_mem hz, cutAt_at h2]
  rw [if_neg (by simp)]
  have hd : (n ++ '\n' :: w.take (276 - n.length)).drop (n.length + 1) = w.take (276 - n.length) := by
    rw [List.drop_append]
    simp
  rw [hd]

theorem lookup_spec {d : Dns} {x : Addr} {b : Beside} (hx : x.ok) (hb : b.flow.length = 4) (hl : Library d (layout x b)) (dns sock room2 : Bool) :
    ∃ n w, resolvedName d dns (layout x b) = .ok n ∧ n.length < 64 ∧ w = (if sock && room2 then d.ident.getD [] else []) ∧
      lookupAddr d dns sock true room2 (layout x b) = .ok ⟨if n.isEmpty then none else some n,
        if !(w.take (276 - n.length)).isEmpty && (w.take (276 - n.length)).all identChar then some (w.take (276 - n.length)) else none⟩ := by
  obtain ⟨n, h1, h2, h3, h4, -⟩ := resolvedName_spec hx hb hl dns
  refine ⟨n, _, h1, h2, rfl, ?_⟩
  have e64 : RESOLVE_LEN = 64 := rfl
  simp only [lookupAddr, resolveAddr, h1, Res.bind]
  rw [if_neg (by omega)]
  simp only [Bool.not_true, Bool.false_eq_true, if_false]
  refine readResult_spec h2 h3 h4 ?_
  split
  · cases hi : d.ident with
    | none => simp
    | some w => exact hl.user w hi
  · simp

/-- **C92** The host name of a client is a name the client's address has and that has the client's
address; if there is none, it is the text of the address; and none is set if lookups are switched
off.  The resolver never fails. -/
theorem C92_host {d : Dns} {x : Addr} {b : Beside} (hx : x.ok) (hb : b.flow.length = 4) (hl : Library d (layout x b)) (dns sock room2 : Bool) :
    ∃ f, lookupAddr d dns sock true room2 (layout x b) = .ok f ∧
      (dns = false → f.host = none) ∧
      (dns = true → ∃ n, f.host = some n ∧
        (Confirmed d x (layout x b) n ∨ ((¬ ∃ m, Confirmed d x (layout x b) m) ∧ TextOf d (layout x b) n))) := by
  obtain ⟨n, w, h1, -, -, h2⟩ := lookup_spec hx hb hl dns sock room2
  obtain ⟨n', k1, -, -, -, k2, k3⟩ := resolvedName_spec hx hb hl dns
  rw [h1] at k1
  cases k1
  refine ⟨_, h2, fun e => by simp [k2 e], fun e => ⟨n, ?_, (k3 e).2⟩⟩
  have := (k3 e).1
  cases n with
  | nil => exact absurd rfl this
  | cons => rfl

theorem identChar_iff (c : Char) : identChar c = true ↔ IdentChar c := by
  simp only [identChar, IdentChar, Bool.or_eq_true, Bool.and_eq_true, decide_eq_true_eq, or_assoc]

/-- **C92** A user name is taken from an IDENT reply only: one was asked for, and the name is the
reply if that consists of letters and digits (of a reply longer than any that fits, its beginning). -/
theorem C92_user {d : Dns} {x : Addr} {b : Beside} (hx : x.ok) (hb : b.flow.length = 4) (hl : Library d (layout x b)) (dns sock room2 : Bool)
    {f : Found} (hf : lookupAddr d dns sock true room2 (layout x b) = .ok f) :
    (∀ u, f.user = some u → sock = true ∧ u ≠ [] ∧ (∀ c ∈ u, IdentChar c) ∧ ∃ w, d.ident = some w ∧ u <+: w) ∧
    (∀ w, sock = true → room2 = true → d.ident = some w → w.length ≤ 212 → w ≠ [] → (∀ c ∈ w, IdentChar c) → f.user = some w) ∧
    (∀ w, d.ident = some w → w.length ≤ 212 → (∃ c ∈ w, ¬ IdentChar c) → f.user = none) := by
  obtain ⟨n, w, -, hn, hw, h2⟩ := lookup_spec hx hb hl dns sock room2
  rw [hf] at h2
  cases h2
  refine ⟨?_, ?_, ?_⟩
  · intro u hu
    simp only at hu
    split at hu
    · rename_i hc
      cases hu
      simp only [Bool.and_eq_true, Bool.not_eq_true', List.all_eq_true] at hc
      have hne : w.take (276 - n.length) ≠ [] := by
        intro e
        rw [e] at hc
        exact absurd hc.1 (by simp)
      have hw' : w ≠ [] := by rintro rfl; simp at hne
      rw [hw] at hw'
      refine ⟨?_, hne, fun c h => (identChar_iff c).1 (hc.2 c h), ?_⟩
      · cases sock with
        | true => rfl
        | false => simp at hw'
      · cases hs : (sock && room2) with
        | false => rw [hs] at hw'; simp at hw'
        | true =>
          rw [hs] at hw hw'
          simp only [if_true] at hw hw'
          cases hi : d.ident with
          | none => rw [hi] at hw'; exact absurd rfl hw'
          | some w' =>
            rw [hi] at hw
            simp only [Option.getD_some] at hw
            exact ⟨w', rfl, hw ▸ List.take_prefix _ _⟩
    · cases hu
  · rintro w' rfl rfl hi hlen hne hal
    rw [hi] at hw
    simp only [Bool.and_true, if_true, Option.getD_some] at hw
    subst hw
    simp only
    rw [List.take_of_length_le (by omega), if_pos]
    rw [Bool.and_eq_true, List.all_eq_true]
    refine ⟨?_, fun c h => (identChar_iff c).2 (hal c h)⟩
    cases w with
    | nil => exact absurd rfl hne
    | cons => rfl
  · rintro w' hi hlen ⟨c, hc, hna⟩
    simp only
    cases hs : (sock && room2) with
    | false => rw [hs] at hw; simp only [Bool.false_eq_true, if_false] at hw; subst hw; simp
    | true =>
      rw [hs, hi] at hw
      simp only [if_true, Option.getD_some] at hw
      subst hw
      rw [List.take_of_length_le (by omega), if_neg]
      rw [Bool.and_eq_true, List.all_eq_true]
      rintro ⟨-, h⟩
      exact hna ((identChar_iff c).1 (h c hc))

/-- **C92** Without memory for the result, nothing is set. -/
theorem C92_no_memory {d : Dns} {x : Addr} {b : Beside} (hx : x.ok) (hb : b.flow.length = 4) (hl : Library d (layout x b)) (dns sock room2 : Bool) :
    lookupAddr d dns sock false room2 (layout x b) = .ok {} := by
  obtain ⟨n, h1, h2, -⟩ := resolvedName_spec hx hb hl dns
  have e64 : RESOLVE_LEN = 64 := rfl
  simp only [lookupAddr, resolveAddr, h1, Res.bind]
  rw [if_neg (by omega)]
  rfl

/-! ## Servers -/

theorem take_flatten {k : Nat} : ∀ (j : Nat) (l : List IpMem), (∀ m ∈ l, m.length = k) → l.flatten.take (j * k) = (l.take j).flatten
  | 0, l, _ => by simp
  | j + 1, [], _ => by simp
  | j + 1, m :: l, h => by
    have hm := h m (List.mem_cons_self ..)
    have ih := take_flatten j l (fun m hm => h m (List.mem_cons_of_mem _ hm))
    rw [List.take_succ_cons, List.flatten_cons, List.flatten_cons, List.take_append, List.take_of_length_le (by rw [hm, Nat.succ_mul]; omega)]
    have : (j + 1) * k - m.length = j * k := by rw [hm, Nat.succ_mul]; omega
    rw [this, ih]

theorem noAddr_af : ipAf noAddr = 0 := rfl

theorem connectTo_of {bytes a r : List Nat} (h : bytes.take (4 * ADDR_LEN) = a ++ r) (ha : a.length = 28) (hr : r.length % 28 = 0) :
    connectTo bytes = .ok (some (a, ⟨(r.take 56 ++ List.replicate (56 - (r.take 56).length) 0).take 28, (r.take 56 ++ List.replicate (56 - (r.take 56).length) 0).drop 28⟩)) := by
  have e : ADDR_LEN = 28 := rfl
  have h1 : (a ++ r).isEmpty = false := by cases a with
    | nil => cases ha
    | cons => rfl
  have h2 : (a ++ r).length = 28 + r.length := by rw [List.length_append, ha]
  unfold connectTo
  rw [h]
  simp only [h1, h2, e, Bool.false_eq_true, if_false]
  rw [if_neg (by omega), List.take_left' ha, List.drop_left' ha]
  by_cases hl : r.length = 0
  · cases List.length_eq_zero_iff.1 hl
    rfl
  · rw [if_pos (by omega)]

/-- What the parent tries. -/
theorem tried_spec {l : List IpMem} (hne : l ≠ []) (hk : ∀ m ∈ l, m.length = 28) (ha : ∀ m ∈ l, ipAf m ≠ 0) (fails : Nat) :
    triedAddrs fails l.flatten = .ok (l.take (min (fails + 1) 3)) := by
  have h4 : l.flatten.take (4 * ADDR_LEN) = (l.take 4).flatten := take_flatten 4 l hk
  have hz := noAddr_af
  match l, hne with
  | [a], _ =>
    have l1 := hk a (by simp)
    have h0 : ipAf ((List.replicate 56 0).take 28) = 0 := rfl
    simp only [triedAddrs, connectTo_of (r := []) (h4.trans (by simp)) l1 rfl, Res.bind, List.take_nil, List.nil_append, List.length_nil, Nat.sub_zero]
    cases fails with
    | zero => rfl
    | succ k => simp only [triedNext, h0, ne_eq, not_true, if_false]; rw [List.take_of_length_le (by simp; omega)]
  | [a, b], _ =>
    have l1 := hk a (by simp)
    have l2 := hk b (by simp)
    have a2 := ha b (by simp)
    have h0 : ipAf (List.replicate (56 - 28) 0) = 0 := rfl
    simp only [triedAddrs, connectTo_of (r := b) (h4.trans (by simp)) l1 (by rw [l2]), Res.bind,
      List.take_of_length_le (show b.length ≤ 56 by omega), l2, List.take_left' l2, List.drop_left' l2]
    match fails with
    | 0 => rfl
    | 1 => simp only [triedNext, a2, ne_eq, not_false_eq_true, if_true]; rfl
    | k + 2 => simp only [triedNext, a2, h0, ne_eq, not_false_eq_true, not_true, if_true, if_false]; rw [List.take_of_length_le (by simp only [List.length_cons, List.length_nil]; omega)]
  | a :: b :: c :: r, _ =>
    have l1 := hk a (by simp)
    have l2 := hk b (by simp)
    have l3 := hk c (by simp)
    have a2 := ha b (by simp)
    have a3 := ha c (by simp)
    have hr : (r.take 1).flatten.length % 28 = 0 := by
      cases r with
      | nil => simp
      | cons x r => have := hk x (by simp); simp [this]
    have hmore : (b ++ (c ++ (r.take 1).flatten)).take 56 = b ++ c := by
      rw [← List.append_assoc]; exact List.take_left' (by rw [List.length_append]; omega)
    have hl2 : (b ++ c).length = 56 := by rw [List.length_append]; omega
    simp only [triedAddrs, connectTo_of (r := b ++ (c ++ (r.take 1).flatten)) (h4.trans (by simp)) l1 (by simp only [List.length_append]; omega), Res.bind,
      hmore, hl2, Nat.sub_self, List.replicate_zero, List.append_nil, List.take_left' l2, List.drop_left' l2]
    match fails with
    | 0 => rfl
    | 1 => simp only [triedNext, a2, ne_eq, not_false_eq_true, if_true]; rfl
    | 2 => simp only [triedNext, a2, a3, ne_eq, not_false_eq_true, if_true]; rfl
    | k + 3 =>
      have : min (k + 3 + 1) 3 = 3 := by omega
      simp only [triedNext, a2, a3, hz, ne_eq, not_false_eq_true, not_true, if_true, if_false, this]; rfl

/-- **C92** To reach a configured server, the addresses of its host name are tried, in the order the
C library returns them, each after the one before has failed, at most three, and no others; of the
families that are configured. -/
theorem C92_addresses {d : Dns} {v4 v6 : Bool} {host : Str} {l : List IpMem} (hv : v4 = true ∨ v6 = true)
    (hl : d.forward host (if v4 && v6 then 0 else if v4 then 2 else 10) = some l) (hne : l ≠ [])
    (hs : ∀ m ∈ l, m.length = 28 ∧ ∃ y, Stores m y) (fails : Nat) :
    ∃ bytes, resolveName d v4 v6 host = .ok bytes ∧ triedAddrs fails bytes = .ok (l.take (min (fails + 1) 3)) := by
  have hle : l.isEmpty = false := by cases l with
    | nil => exact absurd rfl hne
    | cons => rfl
  refine ⟨l.flatten, ?_, tried_spec hne (fun m hm => (hs m hm).1) (fun m hm => ?_) fails⟩
  · cases v4 <;> cases v6 <;> simp [resolveName, AF_INET, AF_INET6] at hv hl ⊢ <;> simp [hl, hne]
  · obtain ⟨y, -, c, -, rfl⟩ := (hs m hm).2
    rw [af_layout]
    cases y <;> simp [family]

/-- **C92** If the name cannot be resolved, nothing is tried. -/
theorem C92_no_address {d : Dns} {v4 v6 : Bool} {host : Str} (hv : v4 = true ∨ v6 = true)
    (hl : d.forward host (if v4 && v6 then 0 else if v4 then 2 else 10) = none) (fails : Nat) :
    ∃ bytes, resolveName d v4 v6 host = .ok bytes ∧ triedAddrs fails bytes = .ok [] := by
  refine ⟨[], ?_, rfl⟩
  cases v4 <;> cases v6 <;> simp [resolveName, AF_INET, AF_INET6] at hv hl ⊢ <;> simp [hl]

/-! ## Examples -/

namespace Sample

/-- Some address, as bytes. -/
def ipA (n : Nat) : IpMem := layout (.v4 10 0 0 n) ⟨6667, [0, 0, 0, 0], List.replicate 20 0⟩

/-- A C library that knows two names: the first is confirmed, the second is a forgery. -/
def dns : Dns where
  numeric := fun _ => some "10.0.0.1".toList
  reverse := fun a => if a = ipA 1 then some "a.example".toList else if a = ipA 2 then some "bank.example".toList else none
  forward := fun n _ => if n = "a.example".toList then some [ipA 7, ipA 1] else if n = "bank.example".toList then some [ipA 9] else none
  ident := some "root".toList

theorem stores_ipA (n : Nat) : Stores (ipA n) (.v4 10 0 0 n) := ⟨trivial, _, rfl, rfl⟩

theorem dns_library (n : Nat) (hn : n = 1 ∨ n = 2 ∨ n = 3) : Library dns (ipA n) where
  text := ⟨"10.0.0.1".toList, rfl, by decide, by decide, by decide, by decide⟩
  name := by
    intro m hm
    rcases hn with rfl | rfl | rfl
    · have : m = "a.example".toList := by
        have h : dns.reverse (ipA 1) = some "a.example".toList := by decide
        rw [h] at hm; cases hm; rfl
      subst this; decide
    · have : m = "bank.example".toList := by
        have h : dns.reverse (ipA 2) = some "bank.example".toList := by decide
        rw [h] at hm; cases hm; rfl
      subst this; decide
    · have h : dns.reverse (ipA 3) = none := by decide
      rw [h] at hm; cases hm
  found := by
    intro n f l h
    simp only [dns] at h
    split at h
    · cases h
      refine ⟨by simp, fun m hm => ?_⟩
      rcases List.mem_cons.1 hm with rfl | hm
      · exact ⟨_, stores_ipA 7⟩
      · cases List.mem_singleton.1 hm; exact ⟨_, stores_ipA 1⟩
    · split at h
      · cases h
        refine ⟨by simp, fun m hm => ?_⟩
        cases List.mem_singleton.1 hm; exact ⟨_, stores_ipA 9⟩
      · cases h
  user := by
    intro w h
    cases h
    decide

end Sample

/-- A confirmed name with a user name, a forged name, and an address without a name; a lookup with DNS switched off. -/
example : Library Sample.dns (Sample.ipA 1) ∧ Library Sample.dns (Sample.ipA 2) ∧ Library Sample.dns (Sample.ipA 3) ∧
    lookupAddr Sample.dns true true true true (Sample.ipA 1) = .ok ⟨some "a.example".toList, some "root".toList⟩ ∧
    lookupAddr Sample.dns true false true true (Sample.ipA 2) = .ok ⟨some "10.0.0.1".toList, none⟩ ∧
    lookupAddr Sample.dns true false true true (Sample.ipA 3) = .ok ⟨some "10.0.0.1".toList, none⟩ ∧
    lookupAddr Sample.dns false true true true (Sample.ipA 1) = .ok ⟨none, some "root".toList⟩ :=
  ⟨Sample.dns_library 1 (.inl rfl), Sample.dns_library 2 (.inr (.inl rfl)), Sample.dns_library 3 (.inr (.inr rfl)), by decide +kernel, by decide +kernel, by decide +kernel, by decide +kernel⟩

/-- A server with two addresses. -/
example : Sample.dns.forward "a.example".toList 0 = some [Sample.ipA 7, Sample.ipA 1] ∧ (∀ m ∈ [Sample.ipA 7, Sample.ipA 1], m.length = 28 ∧ ∃ y, Stores m y) := by
  refine ⟨by decide, fun m hm => ?_⟩
  rcases List.mem_cons.1 hm with rfl | hm
  · exact ⟨by decide, _, Sample.stores_ipA 7⟩
  · cases List.mem_singleton.1 hm; exact ⟨by decide, _, Sample.stores_ipA 1⟩

/-- **C92** The result is separated by a newline, and names are not searched for one: with a C
library that returns names with newlines, whoever controls the names of an address and of a domain
can have any host name, with any user name: the name found is `bank.example`, whose only address is
another one. -/
theorem C92_violated_by_newline : ∃ d : Dns,
    d.reverse (Sample.ipA 2) = some "bank.example\nroot.evil.example".toList ∧
    d.forward "bank.example".toList 2 = some [Sample.ipA 9] ∧
    lookupAddr d true false true true (Sample.ipA 2) = .ok ⟨some "bank.example".toList, none⟩ :=
  ⟨{ Sample.dns with
      reverse := fun _ => some "bank.example\nroot.evil.example".toList
      forward := fun n _ => if n = "bank.example".toList then some [Sample.ipA 9] else some [Sample.ipA 2] }, rfl, by decide, by decide +kernel⟩

end Ngircd
