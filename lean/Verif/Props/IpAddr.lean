import Verif.Model.IpAddr

/-!
# C46: addresses compare and print faithfully

The specification knows addresses, not memory: an address is an IPv4 or an IPv6 address, and
`layout` says how it is laid out in memory next to a port and other data.
-/

namespace Ngircd

/-- An IP address. -/
inductive Spec.Addr
  | v4 (a b c d : Nat)
  | v6 (bytes : List Nat)
  deriving DecidableEq

/-- IPv6 addresses have 16 bytes. -/
def Spec.Addr.ok : Spec.Addr → Prop
  | .v4 .. => True
  | .v6 l => l.length = 16

/-- What is stored beside the address: the port, the flow information (4 bytes), and what
comes behind the address (the scope, or unused bytes). -/
structure Spec.Beside where
  port : Nat
  flow : List Nat
  rest : List Nat

/-- The bytes of a socket address. -/
def Spec.layout (x : Spec.Addr) (b : Spec.Beside) : IpMem :=
  match x with
  | .v4 p q r s => [2, 0, b.port / 256 % 256, b.port % 256, p, q, r, s] ++ b.rest
  | .v6 l => [10, 0, b.port / 256 % 256, b.port % 256] ++ b.flow ++ l ++ b.rest

/-- `table` holds exactly these connections: the open ones with their addresses, the closed
ones (`none`) with arbitrary bytes. -/
inductive Spec.Holds : List ConnSlot → List (Option Spec.Addr) → Prop
  | nil : Holds [] []
  | used {sock : Int} {x : Spec.Addr} {b : Spec.Beside} {t l} (hs : sock ≥ 0) (hx : x.ok)
      (hf : b.flow.length = 4) (h : Holds t l) : Holds ((sock, Spec.layout x b) :: t) (some x :: l)
  | free {m : IpMem} {t l} (h : Holds t l) : Holds ((-1, m) :: t) (none :: l)

open Spec

/-- **C46**: two addresses compare equal exactly if they are the same address, whatever the
ports, flow information and scopes are; the comparison never fails. -/
theorem C46_equal (x y : Addr) (b c : Beside) (hx : x.ok) (hy : y.ok) (hb : b.flow.length = 4)
    (hc : c.flow.length = 4) : ipEqual (layout x b) (layout y c) = .ok (decide (x = y)) := by
  obtain ⟨p, f, r⟩ := b
  obtain ⟨p', f', r'⟩ := c
  simp only at hb hc
  match f, hb with
  | [f1, f2, f3, f4], _ =>
  match f', hc with
  | [f1', f2', f3', f4'], _ =>
    cases x with
    | v4 a1 a2 a3 a4 =>
      cases y with
      | v4 b1 b2 b3 b4 =>
        simp [ipEqual, layout, ipAf, ipSalen, Res.bind, AF_INET, AF_INET6, ipBytes4]
        rfl
      | v6 l => simp [ipEqual, layout, ipAf]
    | v6 k =>
      cases y with
      | v4 b1 b2 b3 b4 => simp [ipEqual, layout, ipAf]
      | v6 l =>
        have h1 : ∀ z : List Nat, (k ++ z).take 16 = k := fun z => by
          rw [← (show k.length = 16 from hx), List.take_left]
        have h2 : ∀ z : List Nat, (l ++ z).take 16 = l := fun z => by
          rw [← (show l.length = 16 from hy), List.take_left]
        simp [ipEqual, layout, ipAf, ipSalen, Res.bind, AF_INET6, ipBytes6, h1, h2]
        rw [Bool.eq_iff_iff, beq_iff_eq, decide_eq_true_iff]

/-- Two addresses that differ in one byte, and one address with two ports. -/
example : ipEqual (layout (.v4 10 0 0 1) ⟨6667, [0, 0, 0, 0], []⟩) (layout (.v4 10 0 0 2) ⟨6667, [0, 0, 0, 0], []⟩) = .ok false ∧
    ipEqual (layout (.v4 10 0 0 1) ⟨6667, [0, 0, 0, 0], []⟩) (layout (.v4 10 0 0 1) ⟨1234, [0, 0, 0, 0], []⟩) = .ok true := by
  decide

/-- **C46**: setting the port changes the port and nothing else; reading it gives the port. -/
theorem C46_port (x : Addr) (b : Beside) (p : Nat) :
    ipSetPort (layout x b) p = .ok (layout x { b with port := p }) ∧
    (p < 65536 → ipGetPort (layout x { b with port := p }) = .ok p) := by
  cases x with
  | v4 a1 a2 a3 a4 =>
    refine ⟨by simp [ipSetPort, layout, ipAf, AF_INET], fun hp => ?_⟩
    simp [ipGetPort, layout, ipAf, AF_INET, AF_INET6]; omega
  | v6 k =>
    refine ⟨by simp [ipSetPort, layout, ipAf, AF_INET, AF_INET6], fun hp => ?_⟩
    simp [ipGetPort, layout, ipAf, AF_INET6]; omega

theorem countFrom_spec {table : List ConnSlot} {l : List (Option Addr)} (h : Holds table l) (x : Addr)
    (b : Beside) (hx : x.ok) (hb : b.flow.length = 4) :
    ∀ n, countFrom (layout x b) table n = .ok (n + l.count (some x)) := by
  induction h with
  | nil => intro n; rfl
  | @used sock y c t l hs hy hc hr ih =>
    intro n
    rw [countFrom, if_neg (by omega), C46_equal y x c b hy hx hc hb]
    simp only [Res.bind, List.count_cons]
    by_cases he : y = x
    · subst he
      simp only [decide_true, if_true, BEq.rfl, ih]
      congr 1; omega
    · have : (some y == some x) = false := by simpa using he
      simp only [he, decide_false, Bool.false_eq_true, if_false, ih, this, Nat.add_zero]
  | free hr ih =>
    intro n
    rw [countFrom, if_pos (by omega), ih]
    simp

/-- **C46**: the number compared with MaxConnectionsIP is exactly the number of open
connections with that address. -/
theorem C46_count {table : List ConnSlot} {l : List (Option Addr)} (h : Holds table l) (x : Addr)
    (b : Beside) (hx : x.ok) (hb : b.flow.length = 4) :
    countConns table (layout x b) = .ok (l.count (some x)) := by
  rw [countConns, countFrom_spec h x b hx hb, Nat.zero_add]

/-- **C46**: a connection is refused for its address exactly if a limit is set and that many
connections with the same address are open. -/
theorem C46_limit {table : List ConnSlot} {l : List (Option Addr)} (h : Holds table l) (x : Addr)
    (b : Beside) (hx : x.ok) (hb : b.flow.length = 4) (max : Int) :
    ipLimitReached table (layout x b) max = .ok (decide (max > 0 ∧ (l.count (some x) : Int) ≥ max)) := by
  rw [ipLimitReached, C46_count h x b hx hb]
  simp [Res.bind, Bool.decide_and]

/-- Two of the three open connections have the address, one by another port. -/
example : ∃ table l, Holds table l ∧ l.count (some (Addr.v4 10 0 0 1)) = 2 ∧
    ipLimitReached table (layout (.v4 10 0 0 1) ⟨1, [0, 0, 0, 0], []⟩) 2 = .ok true ∧
    ipLimitReached table (layout (.v4 10 0 0 1) ⟨1, [0, 0, 0, 0], []⟩) 3 = .ok false :=
  ⟨_, _, .used (sock := 0) (x := .v4 10 0 0 1) (b := ⟨1000, [0, 0, 0, 0], [1]⟩) (by decide) trivial rfl
    (.free (m := [2, 0, 0, 0, 10, 0, 0, 1]) (.used (sock := 5) (x := .v4 10 0 0 1) (b := ⟨2000, [0, 0, 0, 0], []⟩) (by decide) trivial rfl
    (.used (sock := 6) (x := .v6 [0, 0, 0, 0, 0, 0, 0, 0, 0, 0, 0, 0, 10, 0, 0, 1]) (b := ⟨2000, [0, 0, 0, 0], []⟩) (by decide) rfl rfl .nil))),
    by decide, by decide, by decide⟩

/-- **C46**: an address is printed as the C library prints it, with a '0' in front if that
text begins with a colon; so the text never begins with a colon and has less than 46 bytes. -/
theorem C46_text (gni : IpMem → Option Str) (x : Addr) (b : Beside) (t : Str)
    (ht : gni (layout x b) = some t) (hl : t.length + 1 < 46) :
    ∃ u, ipToStr gni (layout x b) = .ok u ∧ u.head? ≠ some ':' ∧ u.length < 46 ∧
      (u = t ∨ (t.head? = some ':' ∧ u = '0' :: t)) := by
  have hs : ∃ n, ipSalen (layout x b) = .ok n := by
    cases x with
    | v4 => exact ⟨16, by simp [ipSalen, layout, ipAf, AF_INET, AF_INET6]⟩
    | v6 => exact ⟨28, by simp [ipSalen, layout, ipAf, AF_INET6]⟩
  obtain ⟨n, hn⟩ := hs
  simp only [ipToStr, hn, Res.bind, ht]
  rw [if_neg (by unfold INET6_ADDRSTRLEN; omega)]
  by_cases hh : t.head? = some ':'
  · rw [if_pos hh, if_neg (by unfold INET6_ADDRSTRLEN; omega)]
    have : strlcpy INET6_ADDRSTRLEN ('0' :: t) = '0' :: t := by
      simp only [strlcpy, INET6_ADDRSTRLEN]
      rw [List.take_of_length_le (by simp only [List.length_cons]; omega)]
    rw [this]
    exact ⟨_, rfl, by simp, by simp only [List.length_cons]; omega, .inr ⟨hh, rfl⟩⟩
  · rw [if_neg hh]
    exact ⟨t, rfl, hh, by omega, .inl rfl⟩

/-- The loopback address. -/
example : ipToStr (fun _ => some "::1".toList) (layout (.v6 [0,0,0,0,0,0,0,0,0,0,0,0,0,0,0,1]) ⟨0, [0,0,0,0], []⟩) =
    .ok "0::1".toList := by decide

end Ngircd
