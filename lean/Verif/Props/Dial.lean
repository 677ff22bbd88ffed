import Verif.Spec.Dial
import Verif.Lemmas.Strict

/-!
# C82, C83: connections to configured servers
-/

set_option linter.unusedSimpArgs false

namespace Ngircd
open Spec

variable {e : LinkConf} {now : Int} {ok : Nat → Bool} {t u : Links} {i n : Nat} {x y : Slot}

/-- The entry after an attempt. -/
def Spec.attempted (now : Int) (ok : Bool) (x : Slot) : Slot :=
  { x with lasttry := now, conn := if ok then .wait else .none, resolving := ok }

theorem groupBusy_iff {slots : List Slot} : groupBusy slots i x = true ↔
    ∃ g, x.group = some g ∧ ∃ n y, n ≠ i ∧ slots[n]? = some y ∧ y.conn ≠ .none ∧ y.group = some g := by
  unfold groupBusy
  cases hg : x.group with
  | none => simp
  | some g =>
    simp only [List.any_eq_true, List.mem_range, Bool.and_eq_true, bne_iff_ne, ne_eq, Option.some.injEq, exists_eq_left']
    constructor
    · rintro ⟨n, h1, h2, h3⟩
      cases hy : slots[n]? with
      | none => rw [hy] at h3; cases h3
      | some y =>
        rw [hy] at h3
        simp only [Bool.and_eq_true, bne_iff_ne, ne_eq, beq_iff_eq] at h3
        exact ⟨n, y, h2, hy, h3.1, h3.2⟩
    · rintro ⟨n, y, h1, h2, h3, h4⟩
      refine ⟨n, (List.getElem?_eq_some_iff.1 h2).1, h1, ?_⟩
      rw [h2]
      simp [h3, h4]

instance (e : LinkConf) (now : Int) (x : Slot) : Decidable (Due e now x) := inferInstanceAs (Decidable (_ ∧ _))

theorem checkSlot_eq (hx : t.slots[i]? = some x) : checkSlot e now ok t i =
    if Due e now x ∧ groupBusy t.slots i x = false then
      { slots := t.slots.set i (attempted now (ok i) x), tried := (i, now) :: t.tried }
    else t := by
  unfold checkSlot
  rw [hx]
  simp only
  by_cases h1 : x.conn = .none
  · by_cases h2 : x.host = []
    · rw [if_neg (by simp [h1]), if_pos (by simp [h2]), if_neg (fun h => h.1.2.1 h2)]
    · by_cases h3 : x.port = 0
      · rw [if_neg (by simp [h1]), if_pos (by simp [h3]), if_neg (fun h => h.1.2.2.1 h3)]
      · rw [if_neg (by simp [h1]), if_neg (by simp [h2, h3])]
        by_cases h4 : x.disabled = true
        · rw [if_pos h4, if_neg (fun h => by rw [h.1.2.2.2.1] at h4; cases h4)]
        · rw [if_neg h4]
          by_cases h5 : x.lasttry > now - e.retry
          · rw [if_pos h5, if_neg (fun h => by have := h.1.2.2.2.2; omega)]
          · rw [if_neg h5]
            cases h6 : groupBusy t.slots i x with
            | true => rw [if_pos rfl, if_neg (by simp)]
            | false =>
              rw [if_neg Bool.false_ne_true]
              refine Eq.trans ?_ (if_pos (show Due e now x ∧ false = false from ⟨⟨h1, h2, h3, by simpa using h4, by omega⟩, rfl⟩)).symm
              rfl
  · rw [if_pos (by simpa using h1), if_neg (fun h => h1 h.1.1)]

/-- The first `k` entries have been checked, and those in `new` have been tried. -/
structure Checked (e : LinkConf) (now : Int) (ok : Nat → Bool) (t u : Links) (k : Nat) (new : List Nat) : Prop where
  tried : u.tried = (new.map (fun i => (i, now))).reverse ++ t.tried
  nodup : new.Nodup
  lt : ∀ i ∈ new, i < k
  slots : ∀ i, u.slots[i]? = (t.slots[i]?).map (fun x => if i ∈ new then attempted now (ok i) x else x)
  mem : ∀ i, i < k → (i ∈ new ↔ ∃ x, t.slots[i]? = some x ∧ Due e now x ∧
    ∀ g, x.group = some g → ∀ n y, n ≠ i → t.slots[n]? = some y → y.group = some g →
      y.conn = .none ∧ ¬ (n < i ∧ n ∈ new ∧ ok n = true))

theorem checked (k : Nat) : ∃ new, Checked e now ok t ((List.range k).foldl (checkSlot e now ok) t) k new := by
  induction k with
  | zero =>
    exact ⟨[], rfl, List.nodup_nil, fun i hi => (by cases hi), fun i => by simp, fun i hi => absurd hi (Nat.not_lt_zero _)⟩
  | succ k ih =>
    obtain ⟨new, h⟩ := ih
    rw [List.range_succ, List.foldl_append]
    simp only [List.foldl_cons, List.foldl_nil]
    generalize (List.range k).foldl (checkSlot e now ok) t = u at *
    have hk : k ∉ new := fun hk => Nat.lt_irrefl _ (h.lt k hk)
    have hs := h.slots k
    simp only [if_neg hk] at hs
    cases hx : t.slots[k]? with
    | none =>
      rw [hx, Option.map_none] at hs
      have : checkSlot e now ok u k = u := by unfold checkSlot; rw [hs]
      rw [this]
      refine ⟨new, h.tried, h.nodup, fun i hi => Nat.lt_succ_of_lt (h.lt i hi), h.slots, fun i hi => ?_⟩
      by_cases hik : i = k
      · subst hik
        exact ⟨fun hh => absurd hh hk, fun ⟨x, q, _⟩ => by rw [hx] at q; cases q⟩
      · exact h.mem i (by omega)
    | some x =>
      rw [hx, Option.map_some] at hs
      rw [checkSlot_eq hs]
      -- what the group check says
      have hbusy : groupBusy u.slots k x = true ↔ ∃ g, x.group = some g ∧ ∃ n y, n ≠ k ∧ t.slots[n]? = some y ∧ y.group = some g ∧
          (y.conn ≠ .none ∨ (n < k ∧ n ∈ new ∧ ok n = true)) := by
        rw [groupBusy_iff]
        constructor
        · rintro ⟨g, hg, n, y, h1, h2, h3, h4⟩
          rw [h.slots n] at h2
          cases hy : t.slots[n]? with
          | none => rw [hy] at h2; cases h2
          | some y0 =>
            rw [hy, Option.map_some] at h2
            injection h2 with h2
            refine ⟨g, hg, n, y0, h1, hy, ?_, ?_⟩
            · rw [← h2] at h4; split at h4 <;> exact h4
            · by_cases hn : n ∈ new
              · rw [if_pos hn] at h2
                refine .inr ⟨h.lt n hn, hn, ?_⟩
                cases hok : ok n with
                | true => rfl
                | false =>
                  rw [← h2, hok] at h3
                  exact absurd rfl h3
              · rw [if_neg hn] at h2
                rw [h2]; exact .inl h3
        · rintro ⟨g, hg, n, y, h1, h2, h3, h4⟩
          refine ⟨g, hg, n, _, h1, by rw [h.slots n, h2, Option.map_some], ?_, ?_⟩
          · by_cases hn : n ∈ new
            · rw [if_pos hn]
              obtain ⟨y', q1, q2, -⟩ := (h.mem n (h.lt n hn)).1 hn
              rw [h2] at q1; injection q1 with q1
              have hy : y.conn = .none := by rw [q1]; exact q2.1
              rcases h4 with h4 | ⟨-, -, h4⟩
              · exact absurd hy h4
              · simp [attempted, h4]
            · rw [if_neg hn]
              rcases h4 with h4 | ⟨-, h4, -⟩
              · exact h4
              · exact absurd h4 hn
          · split <;> exact h3
      have hcond : (Due e now x ∧ groupBusy u.slots k x = false) ↔ (Due e now x ∧
          ∀ g, x.group = some g → ∀ n y, n ≠ k → t.slots[n]? = some y → y.group = some g →
            y.conn = .none ∧ ¬ (n < k ∧ n ∈ new ∧ ok n = true)) := by
        refine and_congr_right (fun _ => ?_)
        rw [← Bool.not_eq_true, hbusy]
        constructor
        · intro hno g hg n y h1 h2 h3
          refine ⟨Classical.byContradiction (fun h4 => hno ⟨g, hg, n, y, h1, h2, h3, .inl h4⟩), fun h4 => hno ⟨g, hg, n, y, h1, h2, h3, .inr h4⟩⟩
        · rintro hall ⟨g, hg, n, y, h1, h2, h3, h4⟩
          obtain ⟨q1, q2⟩ := hall g hg n y h1 h2 h3
          rcases h4 with h4 | h4
          · exact h4 q1
          · exact q2 h4
      by_cases hc : Due e now x ∧ groupBusy u.slots k x = false
      · rw [if_pos hc]
        have hlen : k < u.slots.length := (List.getElem?_eq_some_iff.1 hs).1
        have hmemk : ∀ n, n ∈ new ++ [k] ↔ n ∈ new ∨ n = k := fun n => by simp
        refine ⟨new ++ [k], ?_, ?_, ?_, fun i => ?_, fun i hi => ?_⟩
        · simp [h.tried]
        · rw [List.nodup_append]
          exact ⟨h.nodup, by simp, fun a ha b hb => by rw [List.mem_singleton.1 hb]; exact fun hh => hk (hh ▸ ha)⟩
        · intro i hi
          rcases (hmemk i).1 hi with hi | rfl
          · exact Nat.lt_succ_of_lt (h.lt i hi)
          · exact Nat.lt_succ_self _
        · simp only
          by_cases hik : i = k
          · subst hik
            rw [List.getElem?_set_self hlen, hx, Option.map_some, if_pos ((hmemk i).2 (.inr rfl))]
          · rw [List.getElem?_set_ne (Ne.symm hik), h.slots i]
            have : i ∈ new ++ [k] ↔ i ∈ new := by rw [hmemk]; simp [hik]
            simp only [this]
        · have hlow : ∀ n, n < i → (n ∈ new ++ [k] ↔ n ∈ new) := fun n hn => by
            rw [hmemk]
            exact ⟨fun hh => hh.elim id (fun hh => by omega), .inl⟩
          have hrest : ∀ n, (n < i ∧ n ∈ new ++ [k] ∧ ok n = true) ↔ (n < i ∧ n ∈ new ∧ ok n = true) := fun n =>
            ⟨fun ⟨q1, q2, q3⟩ => ⟨q1, (hlow n q1).1 q2, q3⟩, fun ⟨q1, q2, q3⟩ => ⟨q1, (hlow n q1).2 q2, q3⟩⟩
          simp only [hrest]
          by_cases hik : i = k
          · subst hik
            refine ⟨fun _ => ⟨x, hx, hcond.1 hc⟩, fun _ => (hmemk i).2 (.inr rfl)⟩
          · rw [hmemk]
            simp only [hik, or_false]
            exact h.mem i (by omega)
      · rw [if_neg hc]
        refine ⟨new, h.tried, h.nodup, fun i hi => Nat.lt_succ_of_lt (h.lt i hi), h.slots, fun i hi => ?_⟩
        by_cases hik : i = k
        · subst hik
          refine ⟨fun hh => absurd hh hk, fun ⟨x', q, hq⟩ => ?_⟩
          rw [hx] at q
          injection q with q
          subst q
          exact absurd (hcond.2 hq) hc
        · exact h.mem i (by omega)

/-- **C82** The check of the table tries to connect to exactly the entries that are due and in whose group no other
entry has a connection or is being connected to, neither before nor because of the same check; it tries each of
them once, and changes nothing else. -/
theorem C82_check (e : LinkConf) (now : Int) (ok : Nat → Bool) (t : Links) : ∃ new : List Nat, new.Nodup ∧
    (t.step e now (.check ok)).tried = (new.map (fun i => (i, now))).reverse ++ t.tried ∧
    (∀ i, (t.step e now (.check ok)).slots[i]? = (t.slots[i]?).map (fun x => if i ∈ new then attempted now (ok i) x else x)) ∧
    (∀ i, i ∈ new ↔ ∃ x, t.slots[i]? = some x ∧ Due e now x ∧
      ∀ g, x.group = some g → ∀ n y, n ≠ i → t.slots[n]? = some y → y.group = some g →
        y.conn = .none ∧ ¬ (n < i ∧ n ∈ new ∧ ok n = true)) := by
  obtain ⟨new, h⟩ := checked (e := e) (now := now) (ok := ok) (t := t) t.slots.length
  refine ⟨new, h.nodup, h.tried, h.slots, fun i => ?_⟩
  by_cases hi : i < t.slots.length
  · exact h.mem i hi
  · refine ⟨fun hh => absurd (h.lt i hh) hi, fun ⟨x, q, _⟩ => absurd (List.getElem?_eq_some_iff.1 q).1 hi⟩

/-- **C82** The check never leaves two entries of a group with a connection, or on the way to one, unless both had one before. -/
theorem C82_one_per_group (e : LinkConf) (now : Int) (ok : Nat → Bool) (t : Links) {i n : Nat} {x y : Slot} {g : Nat} (hin : i ≠ n)
    (hx : (t.step e now (.check ok)).slots[i]? = some x) (hy : (t.step e now (.check ok)).slots[n]? = some y)
    (hgx : x.group = some g) (hgy : y.group = some g) (hcx : x.conn ≠ .none) (hcy : y.conn ≠ .none) :
    t.slots[i]? = some x ∧ t.slots[n]? = some y := by
  obtain ⟨new, -, -, hs, hm⟩ := C82_check e now ok t
  rw [hs] at hx hy
  cases hx0 : t.slots[i]? with
  | none => rw [hx0] at hx; cases hx
  | some x0 =>
    cases hy0 : t.slots[n]? with
    | none => rw [hy0] at hy; cases hy
    | some y0 =>
      rw [hx0, Option.map_some] at hx
      rw [hy0, Option.map_some] at hy
      injection hx with hx
      injection hy with hy
      have ex : x0.group = some g := by rw [← hgx, ← hx]; split <;> rfl
      have ey : y0.group = some g := by rw [← hgy, ← hy]; split <;> rfl
      have key : ∀ a b : Nat, ∀ xa xb : Slot, a ≠ b → t.slots[a]? = some xa → t.slots[b]? = some xb → xa.group = some g → xb.group = some g →
          a ∈ new → ok a = true → ¬ (xb.conn ≠ .none ∨ (b ∈ new ∧ ok b = true)) := by
        intro a b xa xb hab ha hb ga gb hna hoa hor
        obtain ⟨x', q1, q2, q3⟩ := (hm a).1 hna
        rw [ha] at q1; injection q1 with q1; subst q1
        obtain ⟨r1, r2⟩ := q3 g ga b xb (Ne.symm hab) hb gb
        rcases hor with h | ⟨h1, h2⟩
        · exact h r1
        · rcases Nat.lt_or_gt_of_ne hab with hlt | hlt
          · obtain ⟨x', q1, q2', q3'⟩ := (hm b).1 h1
            rw [hb] at q1; injection q1 with q1; subst q1
            exact (q3' g gb a xa hab ha ga).2 ⟨hlt, hna, hoa⟩
          · exact r2 ⟨hlt, h1, h2⟩
      have act : ∀ a (xa za : Slot), (if a ∈ new then attempted now (ok a) xa else xa) = za → za.conn ≠ .none →
          (a ∈ new ∧ ok a = true) ∨ (a ∉ new ∧ xa = za ∧ xa.conn ≠ .none) := by
        intro a xa za hz hc
        by_cases ha : a ∈ new
        · rw [if_pos ha] at hz
          refine .inl ⟨ha, ?_⟩
          cases ho : ok a with
          | true => rfl
          | false => rw [← hz, ho] at hc; exact absurd rfl hc
        · rw [if_neg ha] at hz
          exact .inr ⟨ha, hz, by rw [hz]; exact hc⟩
      rcases act i x0 x hx hcx with ⟨a1, a2⟩ | ⟨a1, a2, a3⟩
      · rcases act n y0 y hy hcy with ⟨b1, b2⟩ | ⟨b1, b2, b3⟩
        · exact absurd (.inr ⟨b1, b2⟩) (key i n x0 y0 hin hx0 hy0 ex ey a1 a2)
        · exact absurd (.inl b3) (key i n x0 y0 hin hx0 hy0 ex ey a1 a2)
      · rcases act n y0 y hy hcy with ⟨b1, b2⟩ | ⟨b1, b2, b3⟩
        · exact absurd (.inl a3) (key n i y0 x0 (Ne.symm hin) hy0 hx0 ey ex b1 b2)
        · exact ⟨by rw [a2], by rw [b2]⟩
/-! ## Waiting between two attempts -/

theorem upd_slots {f : Slot → Slot} (hx : (t.upd n f).slots[i]? = some y) :
    ∃ x, t.slots[i]? = some x ∧ (y = x ∨ (i = n ∧ y = f x)) := by
  unfold Links.upd at hx
  cases hn : t.slots[n]? with
  | none => rw [hn] at hx; exact ⟨y, hx, .inl rfl⟩
  | some z =>
    rw [hn] at hx
    simp only at hx
    by_cases h : n = i
    · subst h
      rw [List.getElem?_set_self (List.getElem?_eq_some_iff.1 hn).1] at hx
      injection hx with hx
      exact ⟨z, hn, .inr ⟨rfl, hx.symm⟩⟩
    · rw [List.getElem?_set_ne h] at hx
      exact ⟨y, hx, .inl rfl⟩

theorem upd_tried {f : Slot → Slot} : (t.upd n f).tried = t.tried := by
  unfold Links.upd; split <;> rfl

theorem unset_slots {rnd : Nat} {j : Nat} (hx : (unsetServer e now rnd j t).slots[i]? = some y) :
    ∃ x, t.slots[i]? = some x ∧ y = unsetSlot e now rnd j x := by
  unfold unsetServer at hx
  rw [List.getElem?_map] at hx
  cases hn : t.slots[i]? with
  | none => rw [hn] at hx; cases hx
  | some z =>
    rw [hn, Option.map_some] at hx
    injection hx with hx
    exact ⟨z, rfl, hx.symm⟩

/-- How an event other than a check may change an entry. -/
inductive Turn (e : LinkConf) (now : Int) : LinkEvent → Slot → Slot → Prop
  | same {ev} (x : Slot) : Turn e now ev x x
  | unset {ev} (rnd j : Nat) (x : Slot) : Turn e now ev x (unsetSlot e now rnd j x)
  | failed {k rnd : Nat} {sock : Option Nat} (x : Slot) : x.connecting = true → Turn e now (.failed k rnd sock) x (nextAddr sock (unsetSlot e now rnd k x))
  | resolved {m : Nat} {found : List Nat} {sock : Option Nat} (x : Slot) : Turn e now (.resolved m found sock) x (resolvedSlot found sock x)
  | connected {k : Nat} (x : Slot) : Turn e now (.connected k) x (connectedSlot x)
  | linked {m k : Nat} (x : Slot) : (∀ j, x.conn = .up j → j = k) → Turn e now (.linked m k) x { x with conn := .up k }
  | enable {name port} (x : Slot) : Turn e now (.enable name port) x { x with port := port, disabled := false }
  | passive {name} (x : Slot) : Turn e now (.enablePassive name) x { x with disabled := false, lasttry := 0 }
  | disable {name rnd} (x : Slot) : Turn e now (.disable name rnd) x { x with disabled := true }
  | drop {name rnd} (j : Nat) (x : Slot) : Turn e now (.disable name rnd) x (unsetSlot e now rnd j { x with disabled := true })
  | add {name port host} (x : Slot) : x.name = [] → Turn e now (.add name port host) x
      { initSlot e now with name := name.take 63, host := host.take 255, port := port, disabled := false, once := true }

theorem step_turn {ev : LinkEvent} (hev : ∀ ok, ev ≠ .check ok) : (t.step e now ev).tried = t.tried ∧
    ∀ (i : Nat) (y : Slot), (t.step e now ev).slots[i]? = some y → ∃ x, t.slots[i]? = some x ∧ Turn e now ev x y := by
  cases ev with
  | check ok => exact absurd rfl (hev ok)
  | resolved n found sock =>
    refine ⟨upd_tried, fun i y h => ?_⟩
    obtain ⟨x, h1, h2 | ⟨-, h2⟩⟩ := upd_slots h
    · exact ⟨x, h1, h2 ▸ .same _⟩
    · exact ⟨x, h1, h2 ▸ .resolved x⟩
  | failed j rnd sock =>
    simp only [Links.step]
    split
    · refine ⟨rfl, fun i y h => ?_⟩
      obtain ⟨x, h1, h2⟩ := unset_slots h
      exact ⟨x, h1, h2 ▸ .unset _ _ x⟩
    · rename_i n hn
      split
      · rename_i hc
        refine ⟨upd_tried, fun i y h => ?_⟩
        obtain ⟨x, h1, h2 | ⟨hin, h2⟩⟩ := upd_slots h <;> obtain ⟨z, h3, h4⟩ := unset_slots h1
        · exact ⟨z, h3, by rw [h2, h4]; exact .unset _ _ _⟩
        · refine ⟨z, h3, ?_⟩
          rw [h2, h4]
          refine .failed _ ?_
          rw [← hin, h3] at hc
          exact hc
      · exact ⟨rfl, fun i y h => ⟨y, h, .same _⟩⟩
  | connected j =>
    simp only [Links.step]
    split
    · exact ⟨rfl, fun i y h => ⟨y, h, .same _⟩⟩
    · refine ⟨upd_tried, fun i y h => ?_⟩
      obtain ⟨x, h1, h2 | ⟨-, h2⟩⟩ := upd_slots h
      · exact ⟨x, h1, h2 ▸ .same _⟩
      · refine ⟨x, h1, ?_⟩
        rw [h2]
        split
        · exact .connected _
        · exact .same _
  | closed j rnd =>
    refine ⟨rfl, fun i y h => ?_⟩
    obtain ⟨x, h1, h2⟩ := unset_slots h
    exact ⟨x, h1, h2 ▸ .unset _ _ x⟩
  | linked n j =>
    simp only [Links.step, setServer]
    have key : ∀ x, t.slots[n]? = some x → (∀ k, x.conn = .up k → k = j) → ∀ (i : Nat) (y : Slot),
        (t.slots.set n { x with conn := .up j })[i]? = some y → ∃ x, t.slots[i]? = some x ∧ Turn e now (.linked n j) x y := by
      intro x hx hk i y h
      by_cases hi : n = i
      · subst hi
        rw [List.getElem?_set_self (List.getElem?_eq_some_iff.1 hx).1] at h
        injection h with h
        exact ⟨x, hx, h ▸ .linked x hk⟩
      · rw [List.getElem?_set_ne hi] at h
        exact ⟨y, h, .same _⟩
    cases hx : t.slots[n]? with
    | none => exact ⟨rfl, fun i y h => ⟨y, h, .same _⟩⟩
    | some x =>
      simp only
      cases hc : x.conn with
      | up k =>
        simp only
        by_cases hk : k = j
        · rw [if_neg (by simp [hk])]
          exact ⟨rfl, key x hx (fun k' h => by rw [hc] at h; injection h with h; rw [← h]; exact hk)⟩
        · rw [if_pos (by simpa using hk)]
          exact ⟨rfl, fun i y h => ⟨y, h, .same _⟩⟩
      | none => exact ⟨rfl, key x hx (fun k' h => by rw [hc] at h; cases h)⟩
      | wait => exact ⟨rfl, key x hx (fun k' h => by rw [hc] at h; cases h)⟩
  | enable name port =>
    simp only [Links.step, enableServer]
    split
    · exact ⟨rfl, fun i y h => ⟨y, h, .same _⟩⟩
    · refine ⟨upd_tried, fun i y h => ?_⟩
      obtain ⟨x, h1, h2 | ⟨-, h2⟩⟩ := upd_slots h
      · exact ⟨x, h1, h2 ▸ .same _⟩
      · exact ⟨x, h1, h2 ▸ .enable x⟩
  | enablePassive name =>
    simp only [Links.step, Ngircd.enablePassive]
    split
    · exact ⟨rfl, fun i y h => ⟨y, h, .same _⟩⟩
    · refine ⟨upd_tried, fun i y h => ?_⟩
      obtain ⟨x, h1, h2 | ⟨-, h2⟩⟩ := upd_slots h
      · exact ⟨x, h1, h2 ▸ .same _⟩
      · exact ⟨x, h1, h2 ▸ .passive x⟩
  | disable name rnd =>
    simp only [Links.step, disableServer]
    split
    · exact ⟨rfl, fun i y h => ⟨y, h, .same _⟩⟩
    · rename_i n hn
      have hone : (t.upd n (fun x => { x with disabled := true })).tried = t.tried ∧ ∀ (i : Nat) (y : Slot),
          (t.upd n (fun x => { x with disabled := true })).slots[i]? = some y → ∃ x, t.slots[i]? = some x ∧ Turn e now (.disable name rnd) x y := by
        refine ⟨upd_tried, fun i y h => ?_⟩
        obtain ⟨x, h1, h2 | ⟨-, h2⟩⟩ := upd_slots h
        · exact ⟨x, h1, h2 ▸ .same _⟩
        · exact ⟨x, h1, h2 ▸ .disable x⟩
      split
      · split
        · refine ⟨hone.1, fun i y h => ?_⟩
          obtain ⟨x, h1, h2⟩ := unset_slots h
          obtain ⟨z, h3, h4 | ⟨-, h4⟩⟩ := upd_slots h1
          · exact ⟨z, h3, by rw [h2, h4]; exact .unset _ _ _⟩
          · exact ⟨z, h3, by rw [h2, h4]; exact .drop _ _⟩
        · exact hone
      · exact hone
  | add name port host =>
    simp only [Links.step, addServer]
    split
    · exact ⟨rfl, fun i y h => ⟨y, h, .same _⟩⟩
    · rename_i n hn
      refine ⟨upd_tried, fun i y h => ?_⟩
      obtain ⟨x, h1, h2 | ⟨hin, h2⟩⟩ := upd_slots h
      · exact ⟨x, h1, h2 ▸ .same _⟩
      · refine ⟨x, h1, ?_⟩
        rw [h2]
        refine .add x ?_
        obtain ⟨hlt, hp, -⟩ := List.findIdx?_eq_some_iff_getElem.1 hn
        subst hin
        rw [(List.getElem?_eq_some_iff.1 h1).2] at hp
        simpa using hp

/-- The last attempt was not before `t0`, or the entry has been removed. -/
def Since (t0 : Int) (x : Slot) : Prop := t0 ≤ x.lasttry ∨ x.host = []

theorem unset_since {t0 : Int} {rnd j : Nat} (ht : t0 ≤ now) (h : Since t0 x) : Since t0 (unsetSlot e now rnd j x) := by
  unfold unsetSlot
  split
  · exact h
  · split
    · exact .inr rfl
    · rcases h with h | h
      · refine .inl ?_
        simp only
        split
        · rename_i hlt; simp only [RECONNECT_DELAY]; omega
        · omega
      · exact .inr h

theorem dial_keeps {sock : Option Nat} : (dialSlot sock x).lasttry = x.lasttry ∧ (dialSlot sock x).host = x.host ∧
    (dialSlot sock x).disabled = x.disabled ∧ (dialSlot sock x).addrs = x.addrs ∧ (dialSlot sock x).resolving = x.resolving := by
  unfold dialSlot; split <;> exact ⟨rfl, rfl, rfl, rfl, rfl⟩

theorem next_keeps {sock : Option Nat} : (nextAddr sock x).lasttry = x.lasttry ∧ (nextAddr sock x).host = x.host ∧
    (nextAddr sock x).disabled = x.disabled ∧ (nextAddr sock x).resolving = x.resolving := by
  unfold nextAddr
  split
  · exact ⟨rfl, rfl, rfl, rfl⟩
  · exact ⟨dial_keeps.1, dial_keeps.2.1, dial_keeps.2.2.1, dial_keeps.2.2.2.2⟩

theorem resolved_keeps {found : List Nat} {sock : Option Nat} : (resolvedSlot found sock x).lasttry = x.lasttry ∧
    (resolvedSlot found sock x).host = x.host ∧ (resolvedSlot found sock x).disabled = x.disabled := by
  unfold resolvedSlot
  split
  · exact ⟨rfl, rfl, rfl⟩
  · split
    · exact ⟨rfl, rfl, rfl⟩
    · exact ⟨dial_keeps.1, dial_keeps.2.1, dial_keeps.2.2.1⟩

theorem turn_since {ev : LinkEvent} {t0 : Int} (ht : t0 ≤ now) (hw : Waits ev) (h : Since t0 x) (ht' : Turn e now ev x y) : Since t0 y := by
  cases ht' with
  | same => exact h
  | unset => exact unset_since ht h
  | failed => unfold Since; rw [next_keeps.1, next_keeps.2.1]; exact unset_since ht h
  | resolved => unfold Since; rw [resolved_keeps.1, resolved_keeps.2.1]; exact h
  | connected => exact h
  | linked => exact h
  | enable => exact h
  | passive => exact hw.elim
  | disable => exact h
  | drop => exact unset_since (x := { x with disabled := true }) ht h
  | add => exact hw.elim

/-- What a run of events that keep an invariant of entry `i` logs. -/
theorem runs_inv {P : Slot → Prop} {W : LinkEvent → Prop} {Q : Int → Prop} {t0 : Int}
    (hturn : ∀ now ev x y, t0 ≤ now → W ev → P x → Turn e now ev x y → P y)
    (htry : ∀ now x, t0 ≤ now → P x → Due e now x → Q now)
    (hatt : ∀ now ok x, t0 ≤ now → P x → Due e now x → P (attempted now ok x))
    {evs : List (Int × LinkEvent)} {t : Links} {i : Nat} (hf : Forward t0 evs) (hw : ∀ p ∈ evs, W p.2)
    (h : ∀ x, t.slots[i]? = some x → P x) : ∃ more, (t.runs e evs).tried = more ++ t.tried ∧ (∀ t', (i, t') ∈ more → Q t') ∧
      ∀ x, (t.runs e evs).slots[i]? = some x → P x := by
  suffices hall : ∀ (evs : List (Int × LinkEvent)) (t1 : Int) (t : Links), t0 ≤ t1 → Forward t1 evs → (∀ p ∈ evs, W p.2) →
      (∀ x, t.slots[i]? = some x → P x) → ∃ more, (t.runs e evs).tried = more ++ t.tried ∧ (∀ t', (i, t') ∈ more → Q t') ∧
      ∀ x, (t.runs e evs).slots[i]? = some x → P x from hall evs t0 t (Int.le_refl _) hf hw h
  intro evs
  induction evs with
  | nil => exact fun t1 t _ _ _ h => ⟨[], rfl, fun _ h => (by cases h), h⟩
  | cons p evs ih =>
    intro t1 t h1 hf hw h
    obtain ⟨now, ev⟩ := p
    have hnow : t0 ≤ now := Int.le_trans h1 hf.1
    simp only [Links.runs]
    have hone : ∃ more, (t.step e now ev).tried = more ++ t.tried ∧ (∀ t', (i, t') ∈ more → Q t') ∧
        ∀ x, (t.step e now ev).slots[i]? = some x → P x := by
      by_cases hc : ∃ ok, ev = .check ok
      · obtain ⟨ok, rfl⟩ := hc
        obtain ⟨new, -, q1, q2, q3⟩ := C82_check e now ok t
        refine ⟨_, q1, fun t' ht' => ?_, fun y hy => ?_⟩
        · rw [List.mem_reverse, List.mem_map] at ht'
          obtain ⟨j, hj, he⟩ := ht'
          injection he with he1 he2
          subst he1; subst he2
          obtain ⟨x, r1, r2, -⟩ := (q3 j).1 hj
          exact htry now x hnow (h x r1) r2
        · rw [q2] at hy
          cases hx : t.slots[i]? with
          | none => rw [hx] at hy; cases hy
          | some x =>
            rw [hx, Option.map_some] at hy
            injection hy with hy
            rw [← hy]
            by_cases hi : i ∈ new
            · rw [if_pos hi]
              obtain ⟨x', r1, r2, -⟩ := (q3 i).1 hi
              rw [hx] at r1; injection r1 with r1; subst r1
              exact hatt now _ x hnow (h x hx) r2
            · rw [if_neg hi]; exact h x hx
      · obtain ⟨q1, q2⟩ := step_turn (e := e) (now := now) (t := t) (fun ok hh => hc ⟨ok, hh⟩)
        refine ⟨[], by rw [q1]; rfl, fun _ h => (by cases h), fun y hy => ?_⟩
        obtain ⟨x, r1, r2⟩ := q2 i y hy
        exact hturn now ev x y hnow (hw (now, ev) List.mem_cons_self) (h x r1) r2
    obtain ⟨m1, a1, a2, a3⟩ := hone
    obtain ⟨m2, b1, b2, b3⟩ := ih now (t.step e now ev) hnow hf.2 (fun p hp => hw p (List.mem_cons_of_mem _ hp)) a3
    refine ⟨m2 ++ m1, by rw [b1, a1, List.append_assoc], fun t' ht' => ?_, b3⟩
    rcases List.mem_append.1 ht' with h | h
    · exact b2 t' h
    · exact a2 t' h

/-- **C82** Between two attempts to connect to the same entry there are at least `ConnectRetry` seconds, whatever happens
in between (lookups, failing and broken connections, other servers), unless CONNECT resets the entry. -/
theorem C82_spacing (e : LinkConf) (t : Links) (t0 : Int) (ok : Nat → Bool) (i : Nat) (before : List (Nat × Int))
    (htry : (t.step e t0 (.check ok)).tried = before ++ t.tried) (hi : (i, t0) ∈ before)
    (evs : List (Int × LinkEvent)) (hf : Forward t0 evs) (hw : ∀ p ∈ evs, Waits p.2) :
    ∃ more, ((t.step e t0 (.check ok)).runs e evs).tried = more ++ (t.step e t0 (.check ok)).tried ∧
      ∀ t', (i, t') ∈ more → t0 + e.retry ≤ t' := by
  obtain ⟨new, -, q1, q2, q3⟩ := C82_check e t0 ok t
  have hnew : i ∈ new := by
    rw [q1] at htry
    have := List.append_cancel_right htry
    rw [← this, List.mem_reverse, List.mem_map] at hi
    obtain ⟨j, hj, he⟩ := hi
    injection he with he
    exact he ▸ hj
  obtain ⟨more, a1, a2, -⟩ := runs_inv (e := e) (P := Since t0) (W := Waits) (Q := fun t' => t0 + e.retry ≤ t') (t0 := t0) (i := i)
    (t := t.step e t0 (.check ok)) (evs := evs)
    (fun now ev x y h1 h2 h3 h4 => turn_since h1 h2 h3 h4)
    (fun now x _ h2 h3 => by
      rcases h2 with h2 | h2
      · have := h3.2.2.2.2; omega
      · exact absurd h2 h3.2.1)
    (fun now ok x h1 _ _ => .inl h1) hf hw
    (fun x hx => by
      rw [q2] at hx
      simp only [if_pos hnew] at hx
      cases hx0 : t.slots[i]? with
      | none => rw [hx0] at hx; cases hx
      | some x0 =>
        rw [hx0, Option.map_some] at hx
        injection hx with hx
        rw [← hx]
        exact .inl (Int.le_refl _))
  exact ⟨more, a1, a2⟩

/-- **C82** When the link is lost after having been up for longer than `ConnectRetry`, the entry is due again exactly three
seconds later; after a shorter one, the whole waiting time begins anew. -/
theorem C82_reconnect (e : LinkConf) (t : Links) (now : Int) (j rnd n : Nat) (x : Slot)
    (hx : t.slots[n]? = some x) (hc : x.conn = .up j) (ho : x.once = false) (hh : x.host ≠ []) (hp : x.port ≠ 0) (hd : x.disabled = false)
    (later : Int) : ∃ y, (t.step e now (.closed j rnd)).slots[n]? = some y ∧
      (Due e later y ↔ if x.lasttry + e.retry < now then now + 3 ≤ later else now + rnd + e.retry ≤ later) := by
  refine ⟨unsetSlot e now rnd j x, ?_, ?_⟩
  · simp only [Links.step, unsetServer, List.getElem?_map, hx, Option.map_some]
  · simp only [unsetSlot, if_neg (show ¬ (x.conn ≠ .up j) from fun h => h hc), ho, Due, hd]
    by_cases h : x.lasttry < now - e.retry
    · rw [if_pos (show x.lasttry + e.retry < now by omega)]
      simp only [if_pos h, RECONNECT_DELAY, Bool.false_eq_true, if_false]
      exact ⟨fun q => by have := q.2.2.2.2; omega, fun q => ⟨trivial, hh, hp, trivial, by omega⟩⟩
    · rw [if_neg (show ¬ (x.lasttry + e.retry < now) by omega)]
      simp only [if_neg h, Bool.false_eq_true, if_false]
      exact ⟨fun q => q.2.2.2.2, fun q => ⟨trivial, hh, hp, trivial, q⟩⟩

/-! ## Disabled entries -/

/-- Not connected to by this server: disabled (or removed), with no lookup and no connection attempt going on. -/
structure Shut (x : Slot) : Prop where
  off : x.disabled = true ∨ x.host = []
  quiet : x.resolving = false
  still : x.connecting = false

theorem unset_shut {rnd j : Nat} (h : Shut x) : Shut (unsetSlot e now rnd j x) := by
  unfold unsetSlot
  split
  · exact h
  · split
    · exact ⟨.inr rfl, rfl, rfl⟩
    · exact ⟨h.off, h.quiet, rfl⟩

theorem turn_off {ev : LinkEvent} (hw : Stays ev) (h : x.disabled = true ∨ x.host = []) (ht : Turn e now ev x y) : y.disabled = true ∨ y.host = [] := by
  have hun : ∀ (x : Slot) rnd j, (x.disabled = true ∨ x.host = []) → (unsetSlot e now rnd j x).disabled = true ∨ (unsetSlot e now rnd j x).host = [] := by
    intro x rnd j h
    unfold unsetSlot
    split
    · exact h
    · split
      · exact .inr rfl
      · exact h
  cases ht with
  | same => exact h
  | unset => exact hun x _ _ h
  | failed => rw [next_keeps.2.1, next_keeps.2.2.1]; exact hun x _ _ h
  | resolved => rw [resolved_keeps.2.1, resolved_keeps.2.2]; exact h
  | connected => exact h
  | linked => exact h
  | enable => exact hw.elim
  | passive => exact hw.elim
  | disable => exact .inl rfl
  | drop => exact hun { x with disabled := true } _ _ (.inl rfl)
  | add => exact hw.elim

theorem turn_shut {ev : LinkEvent} (hw : Stays ev) (h : Shut x) (ht : Turn e now ev x y) : Shut y := by
  cases ht with
  | same => exact h
  | unset => exact unset_shut h
  | failed _ hc => rw [h.still] at hc; cases hc
  | resolved => unfold resolvedSlot; rw [if_pos (by simp [h.quiet])]; exact h
  | connected => exact ⟨h.off, h.quiet, rfl⟩
  | linked => exact ⟨h.off, h.quiet, h.still⟩
  | enable => exact hw.elim
  | passive => exact hw.elim
  | disable => exact ⟨.inl rfl, h.quiet, h.still⟩
  | drop => exact unset_shut ⟨.inl rfl, h.quiet, h.still⟩
  | add => exact hw.elim

/-- The entry found by DISCONNECT, afterwards. -/
theorem disable_slot {name : Str} {rnd : Nat} (hx : t.slots[n]? = some x) (hn : SameCase x.name name)
    (hfirst : ∀ m y, m < n → t.slots[m]? = some y → ¬ SameCase y.name name) :
    (t.step e now (.disable name rnd)).slots[n]? = some (match x.conn with
      | .up i => unsetSlot e now rnd i { x with disabled := true } | _ => { x with disabled := true }) := by
  have hfind : firstSlot (fun x => caseEq x.name name) t.slots = some n := by
    unfold firstSlot
    rw [List.findIdx?_eq_some_iff_getElem]
    obtain ⟨hlt, hget⟩ := List.getElem?_eq_some_iff.1 hx
    refine ⟨hlt, by rw [hget]; exact (caseEq_same _ _).2 hn, fun m hm hh => ?_⟩
    refine hfirst m _ hm (List.getElem?_eq_getElem (by omega)) ((caseEq_same _ _).1 (by simpa using hh))
  have hup : (t.upd n (fun x => { x with disabled := true })).slots[n]? = some { x with disabled := true } := by
    unfold Links.upd
    rw [hx]
    simp only
    rw [List.getElem?_set_self (List.getElem?_eq_some_iff.1 hx).1]
  simp only [Links.step, disableServer, hfind, hup]
  cases hc : x.conn with
  | none => simp only [hc] at hup ⊢; exact hup
  | wait => simp only [hc] at hup ⊢; exact hup
  | up i => simp only [unsetServer, List.getElem?_map, hup, Option.map_some, hc]

/-- **C83** DISCONNECT closes the link of the (first) entry of this name, and afterwards the server does not try to connect to it
any more, whatever happens, until it is told to by CONNECT. -/
theorem C83_disabled (e : LinkConf) (t : Links) (now : Int) (name : Str) (rnd n : Nat) (x : Slot)
    (hx : t.slots[n]? = some x) (hn : SameCase x.name name) (hfirst : ∀ m y, m < n → t.slots[m]? = some y → ¬ SameCase y.name name)
    (evs : List (Int × LinkEvent)) (hf : Forward now evs) (hw : ∀ p ∈ evs, Stays p.2) :
    (∃ y, (t.step e now (.disable name rnd)).slots[n]? = some y ∧ ∀ i, y.conn ≠ .up i) ∧
    ∃ more, ((t.step e now (.disable name rnd)).runs e evs).tried = more ++ t.tried ∧ ∀ t', (n, t') ∉ more := by
  have hd := disable_slot (e := e) (now := now) (rnd := rnd) hx hn hfirst
  have hcl : (t.step e now (.disable name rnd)).tried = t.tried := (step_turn (fun _ h => (by cases h))).1
  refine ⟨⟨_, hd, fun i => ?_⟩, ?_⟩
  · cases hc : x.conn with
    | none => simp [hc]
    | wait => simp [hc]
    | up j =>
      simp only [unsetSlot]
      rw [if_neg (by simp [hc])]
      split <;> simp [initSlot]
  · obtain ⟨more, a1, a2, -⟩ := runs_inv (e := e) (P := fun x => x.disabled = true ∨ x.host = []) (W := Stays) (Q := fun _ => False) (t0 := now) (i := n)
      (t := t.step e now (.disable name rnd)) (evs := evs)
      (fun now ev x y _ h2 h3 h4 => turn_off h2 h3 h4)
      (fun now x _ h2 h3 => by
        rcases h2 with h2 | h2
        · rw [h3.2.2.2.1] at h2; cases h2
        · exact h3.2.1 h2)
      (fun now ok x _ h _ => h) hf hw
      (fun y hy => by
        obtain ⟨z, h1, h2⟩ := (step_turn (e := e) (now := now) (t := t) (ev := .disable name rnd) (fun _ h => (by cases h))).2 n y hy
        rw [hd] at hy
        injection hy with hy
        rw [← hy]
        cases hc : x.conn with
        | none => exact .inl rfl
        | wait => exact .inl rfl
        | up j =>
          simp only [unsetSlot]
          rw [if_neg (by simp [hc])]
          split
          · exact .inr rfl
          · exact .inl rfl)
    exact ⟨more, by rw [a1, hcl], a2⟩

/-- What holds of every entry at any time. -/
structure Sound (x : Slot) : Prop where
  up : x.connecting = true → ∃ i, x.conn = .up i
  one : x.connecting = true → x.resolving = false

theorem unset_sound {rnd j : Nat} (h : Sound x) : Sound (unsetSlot e now rnd j x) := by
  unfold unsetSlot
  split
  · exact h
  · split
    · exact ⟨fun h => (by cases h), fun h => (by cases h)⟩
    · exact ⟨fun h => (by cases h), fun h => (by cases h)⟩

theorem dial_conn {sock : Option Nat} : (∃ i, x.conn = .up i) ∧ dialSlot sock x = x ∨
    (dialSlot sock x).connecting = sock.isSome ∧ ∀ k, sock = some k → (dialSlot sock x).conn = .up k := by
  unfold dialSlot
  cases hk : x.conn with
  | up i => exact .inl ⟨⟨i, rfl⟩, rfl⟩
  | none => exact .inr ⟨rfl, fun k h => by rw [h]⟩
  | wait => exact .inr ⟨rfl, fun k h => by rw [h]⟩

theorem dial_sound {sock : Option Nat} (_ : Sound x) (hr : x.resolving = false) : Sound (dialSlot sock x) := by
  refine ⟨fun hc => ?_, fun _ => dial_keeps.2.2.2.2.trans hr⟩
  rcases dial_conn (x := x) (sock := sock) with ⟨h1, h2⟩ | ⟨h1, h2⟩
  · rw [h2]; exact h1
  · rw [h1] at hc
    cases sock with
    | none => cases hc
    | some k => exact ⟨k, h2 k rfl⟩

theorem turn_sound {ev : LinkEvent} (h : Sound x) (ht : Turn e now ev x y) : Sound y := by
  cases ht with
  | same => exact h
  | unset => exact unset_sound h
  | failed _ hc =>
    have hr : ∀ j rnd, (unsetSlot e now rnd j x).resolving = false := by
      intro j rnd
      unfold unsetSlot
      split
      · exact h.one hc
      · split
        · rfl
        · exact h.one hc
    unfold nextAddr
    split
    · exact unset_sound h
    · rename_i i rnd sock _ a as ha
      have := dial_sound (sock := sock) (unset_sound (e := e) (now := now) (rnd := rnd) (j := i) h) (hr i rnd)
      exact ⟨this.up, this.one⟩
  | resolved =>
    unfold resolvedSlot
    split
    · exact h
    · rename_i hr
      have hnc : x.connecting = false := by
        cases hc : x.connecting with
        | false => rfl
        | true => rw [h.one hc] at hr; exact absurd rfl hr
      split
      · exact ⟨fun hh => (by rw [hnc] at hh; cases hh), fun _ => rfl⟩
      · exact dial_sound ⟨fun hh => h.up hh, fun _ => rfl⟩ rfl
  | connected => exact ⟨fun h => (by cases h), fun h => (by cases h)⟩
  | linked => exact ⟨fun _ => ⟨_, rfl⟩, h.one⟩
  | enable => exact ⟨h.up, h.one⟩
  | passive => exact ⟨h.up, h.one⟩
  | disable => exact ⟨h.up, h.one⟩
  | drop => exact unset_sound ⟨h.up, h.one⟩
  | add => exact ⟨fun h => (by cases h), fun h => (by cases h)⟩

theorem sound_of {t0 : Int} {evs : List (Int × LinkEvent)} (hfr : Fresh t) (hf : Forward t0 evs) (hx : (t.runs e evs).slots[n]? = some x) : Sound x := by
  obtain ⟨-, -, -, h⟩ := runs_inv (e := e) (P := Sound) (W := fun _ => True) (Q := fun _ => True) (t0 := t0) (i := n) (t := t) (evs := evs)
    (fun now ev x y _ _ h3 h4 => turn_sound h3 h4) (fun _ _ _ _ _ => trivial)
    (fun now ok x _ h hd => by
      have hnc : x.connecting = false := by
        cases hc : x.connecting with
        | false => rfl
        | true => obtain ⟨i, hi⟩ := h.up hc; rw [hd.1] at hi; cases hi
      exact ⟨fun hh => (by rw [show x.connecting = true from hh] at hnc; cases hnc), fun hh => (by rw [show x.connecting = true from hh] at hnc; cases hnc)⟩)
    hf (fun _ _ => trivial)
    (fun y hy => by
      obtain ⟨-, -, h3⟩ := hfr y (List.mem_of_getElem? hy)
      exact ⟨fun hh => (by rw [h3] at hh; cases hh), fun hh => (by rw [h3] at hh; cases hh)⟩)
  exact h x hx

/-- **C83** Unless the lookup of its address is going on when DISCONNECT is given, this server does not open a connection to that
server afterwards either, until it is told to by CONNECT. -/
theorem C83_no_connection_partial (e : LinkConf) (t : Links) (t0 : Int) (past : List (Int × LinkEvent)) (hfr : Fresh t) (hpast : Forward t0 past)
    (now : Int) (name : Str) (rnd n : Nat) (x : Slot)
    (hx : (t.runs e past).slots[n]? = some x) (hn : SameCase x.name name)
    (hfirst : ∀ m y, m < n → (t.runs e past).slots[m]? = some y → ¬ SameCase y.name name)
    (hres : x.resolving = false)
    (evs : List (Int × LinkEvent)) (hf : Forward now evs) (hw : ∀ p ∈ evs, Stays p.2) :
    ∀ y, (((t.runs e past).step e now (.disable name rnd)).runs e evs).slots[n]? = some y → y.resolving = false ∧ y.connecting = false := by
  have hs := sound_of hfr hpast hx
  generalize t.runs e past = t at *
  have hd := disable_slot (e := e) (now := now) (rnd := rnd) hx hn hfirst
  obtain ⟨-, -, -, h⟩ := runs_inv (e := e) (P := Shut) (W := Stays) (Q := fun _ => True) (t0 := now) (i := n)
      (t := t.step e now (.disable name rnd)) (evs := evs)
      (fun now ev x y _ h2 h3 h4 => turn_shut h2 h3 h4) (fun _ _ _ _ _ => trivial)
      (fun now ok x _ h2 h3 => by
        rcases h2.off with h2 | h2
        · rw [h3.2.2.2.1] at h2; cases h2
        · exact absurd h2 h3.2.1) hf hw
      (fun y hy => by
        rw [hd] at hy
        injection hy with hy
        rw [← hy]
        have hno : (∀ i, x.conn ≠ .up i) → x.connecting = false := fun hh => by
          cases hc : x.connecting with
          | false => rfl
          | true => obtain ⟨i, hi⟩ := hs.up hc; exact absurd hi (hh i)
        cases hc : x.conn with
        | none => exact ⟨.inl rfl, hres, hno (by simp [hc])⟩
        | wait => exact ⟨.inl rfl, hres, hno (by simp [hc])⟩
        | up j =>
          simp only [unsetSlot]
          rw [if_neg (by simp [hc])]
          split
          · exact ⟨.inr rfl, rfl, rfl⟩
          · exact ⟨.inl rfl, hres, rfl⟩)
  exact fun y hy => ⟨(h y hy).quiet, (h y hy).still⟩

/-! ## Examples, and what goes wrong -/

/-- Two entries of a group, and one without. -/
def Sample.dialConf : LinkConf := ⟨60, false⟩
def Sample.hubSlot : Slot := { initSlot Sample.dialConf 0 with name := "hub".toList, host := "hub.example.net".toList, port := 6667, group := some 1 }
def Sample.table : Links := ⟨[Sample.hubSlot, { Sample.hubSlot with name := "hub2".toList }, { Sample.hubSlot with name := "leaf".toList, group := none }], []⟩

example : Fresh Sample.table ∧ ((Sample.table.step Sample.dialConf 1 (.check (fun _ => true))).tried = [(2, 1), (0, 1)]) ∧
    (∃ x y, (Sample.table.step Sample.dialConf 1 (.check (fun _ => true))).slots[0]? = some x ∧
      (Sample.table.step Sample.dialConf 1 (.check (fun _ => true))).slots[1]? = some y ∧ x.group = y.group ∧ x.conn = .wait ∧ y.conn = .none) ∧
    -- the lookup fails; the other entry of the group is tried, and this one again after a minute
    (Sample.table.runs Sample.dialConf [(1, .check (fun _ => true)), (5, .resolved 0 [] none), (6, .check (fun _ => true)),
      (8, .resolved 1 [1, 2] (some 7)), (9, .failed 7 3 (some 8)), (9, .failed 8 3 none), (60, .check (fun _ => true)), (61, .check (fun _ => true))]).tried =
        [(0, 61), (1, 6), (2, 1), (0, 1)] :=
  ⟨by decide, by decide, ⟨_, _, rfl, rfl, rfl, rfl, rfl⟩, by decide⟩

/-- The hypotheses of `C82_spacing` and `C82_reconnect` are met. -/
example : ∃ before, ((Sample.table.step Sample.dialConf 1 (.check (fun _ => true))).tried = before ++ Sample.table.tried) ∧ (0, 1) ∈ before ∧
    Forward 1 [(5, .resolved 0 [] none), (6, .check (fun _ => true))] ∧ (∀ p ∈ [((5 : Int), LinkEvent.resolved 0 [] none), (6, .check (fun _ => true))], Waits p.2) :=
  ⟨[(2, 1), (0, 1)], by decide, by decide, ⟨by decide, by decide, trivial⟩, fun p hp => by
    rcases List.mem_cons.1 hp with rfl | hp
    · trivial
    · rcases List.mem_cons.1 hp with rfl | hp
      · trivial
      · cases hp⟩

example : ∃ x, (Sample.table.runs Sample.dialConf [(1, .check (fun _ => true)), (5, .resolved 0 [1] (some 7)), (6, .connected 7), (7, .linked 0 7)]).slots[0]? = some x ∧
    x.conn = .up 7 ∧ x.once = false ∧ x.host ≠ [] ∧ x.port ≠ 0 ∧ x.disabled = false := ⟨_, rfl, rfl, rfl, by decide, by decide, rfl⟩

/-- **C82** A server may connect to this one while this one looks up its address; if then the lookup fails, the table forgets the
established link, and this server tries to connect to the server it is linked to already. -/
theorem C82_violated_by_lookup : ∃ (e : LinkConf) (t : Links) (past : List (Int × LinkEvent)) (n i : Nat) (now : Int), Fresh t ∧ Forward 0 past ∧
    -- the server has been linked over connection `i`, which has not been closed since
    (∃ now', (now', .linked n i) ∈ past) ∧ (∀ p ∈ past, ∀ rnd, p.2 ≠ .closed i rnd) ∧ (∀ p ∈ past, ∀ rnd s, p.2 ≠ .failed i rnd s) ∧
    (∀ p ∈ past, ∀ name rnd, p.2 ≠ .disable name rnd) ∧
    (n, now) ∈ ((t.runs e past).step e now (.check (fun _ => true))).tried ∧ (n, now) ∉ (t.runs e past).tried := by
  refine ⟨Sample.dialConf, Sample.table, [(1, .check (fun _ => true)), (5, .linked 0 9), (6, .resolved 0 [] none)], 0, 9, 61, by decide,
    ⟨by decide, by decide, by decide, trivial⟩, ⟨5, by simp⟩, ?_, ?_, ?_, by decide, by decide⟩ <;>
  · intro p hp
    simp only [List.mem_cons, List.not_mem_nil, or_false] at hp
    rcases hp with rfl | rfl | rfl <;> intros <;> simp

/-- The hypotheses of the theorems about DISCONNECT are met. -/
example : ∃ x, (Sample.table.runs Sample.dialConf [(1, .check (fun _ => true)), (5, .resolved 0 [1] (some 7))]).slots[0]? = some x ∧ Fresh Sample.table ∧
    Forward 0 [(1, .check (fun _ => true)), (5, .resolved 0 [1] (some 7))] ∧ SameCase x.name "HUB".toList ∧ x.resolving = false ∧ x.connecting = true :=
  ⟨_, rfl, by decide, ⟨by decide, by decide, trivial⟩, (caseEq_same _ _).1 (by decide), rfl, rfl⟩

/-- **C83** If the lookup is going on, DISCONNECT does not stop it, and the connection is made although the server is disabled. -/
theorem C83_violated_by_lookup : ∃ (e : LinkConf) (t : Links) (now : Int) (name : Str) (n : Nat) (x y : Slot) (past evs : List (Int × LinkEvent)),
    Fresh t ∧ Forward 0 past ∧ Forward now evs ∧ (∀ p ∈ evs, Stays p.2) ∧
    (t.runs e past).slots[n]? = some x ∧ SameCase x.name name ∧ n = 0 ∧
    (((t.runs e past).step e now (.disable name 0)).runs e evs).slots[n]? = some y ∧ y.disabled = true ∧ y.connecting = true ∧ y.conn = .up 7 := by
  refine ⟨Sample.dialConf, Sample.table, 5, "hub".toList, 0, _, _, [(1, .check (fun _ => true))], [(6, .resolved 0 [1] (some 7))], by decide,
    ⟨by decide, trivial⟩, ⟨by decide, trivial⟩, ?_, rfl, (caseEq_same _ _).1 (by decide), rfl, rfl, rfl, rfl, rfl⟩
  intro p hp
  rw [List.mem_singleton.1 hp]
  trivial

/-- **C82**: how an attempt goes on.  An entry is looked up; if that fails, or no connection can be made,
the entry is free again and due after the waiting time.  Otherwise at most three addresses are tried, one
after the other, and when the last one has failed the entry is free again; with a connection established
the other addresses are forgotten. -/
theorem C82_attempt (e : LinkConf) (t : Links) (now : Int) (n : Nat) (x : Slot) (hx : t.slots[n]? = some x) :
    -- the lookup
    (x.conn = .wait → x.resolving = true → ∀ found sock,
      ∃ y, (t.step e now (.resolved n found sock)).slots[n]? = some y ∧ y.resolving = false ∧ y.lasttry = x.lasttry ∧
        y.disabled = x.disabled ∧ y.host = x.host ∧ y.port = x.port ∧
        (found = [] ∨ sock = none → y.conn = .none) ∧
        (∀ a as j, found = a :: as → sock = some j → y.conn = .up j ∧ y.connecting = true ∧ y.addrs = as.take 2)) ∧
    -- a failure
    (∀ i rnd sock, x.conn = .up i → x.connecting = true → x.once = false → (∀ m y, m < n → t.slots[m]? = some y → y.conn ≠ .up i) →
      ∃ y, (t.step e now (.failed i rnd sock)).slots[n]? = some y ∧ y.disabled = x.disabled ∧ y.host = x.host ∧ y.port = x.port ∧
        (x.addrs = [] ∨ sock = none → y.conn = .none ∧ y.connecting = false) ∧
        (∀ a as j, x.addrs = a :: as → sock = some j → y.conn = .up j ∧ y.connecting = true ∧ y.addrs = as)) ∧
    -- success
    (∀ i, x.conn = .up i → x.connecting = true → (∀ m y, m < n → t.slots[m]? = some y → y.conn ≠ .up i) →
      ∃ y, (t.step e now (.connected i)).slots[n]? = some y ∧ y.conn = .up i ∧ y.connecting = false ∧ y.addrs = []) := by
  have hlt : n < t.slots.length := (List.getElem?_eq_some_iff.1 hx).1
  have first : ∀ i, x.conn = .up i → (∀ m y, m < n → t.slots[m]? = some y → y.conn ≠ .up i) →
      firstSlot (fun x => x.conn == .up i) t.slots = some n := by
    intro i hc hf
    unfold firstSlot
    rw [List.findIdx?_eq_some_iff_getElem]
    refine ⟨hlt, ?_, ?_⟩
    · have : t.slots[n] = x := (List.getElem?_eq_some_iff.1 hx).2
      rw [this]; simp [hc]
    · intro m hm
      have := hf m t.slots[m] hm (List.getElem?_eq_getElem _)
      simpa using this
  refine ⟨fun hw hr found sock => ?_, fun i rnd sock hc hg ho hf => ?_, fun i hc hg hf => ?_⟩
  · refine ⟨resolvedSlot found sock x, ?_, ?_⟩
    · simp only [Links.step, Links.upd, hx]
      simp [hlt]
    · cases found with
      | nil => simp [resolvedSlot, hr]
      | cons a as => cases sock <;> simp [resolvedSlot, hr, dialSlot, hw]
  · simp only [Links.step, first i hc hf, hx, Option.any_some, hg, if_true]
    have hu : (unsetServer e now rnd i t).slots[n]? = some (unsetSlot e now rnd i x) := by simp [unsetServer, hx]
    simp only [Links.upd, hu]
    refine ⟨nextAddr sock (unsetSlot e now rnd i x), ?_, ?_⟩
    · have : n < (unsetServer e now rnd i t).slots.length := by simpa [unsetServer] using hlt
      simp [this]
    · cases ha : x.addrs with
      | nil => simp [unsetSlot, hc, ho, nextAddr, ha]
      | cons a as => cases sock <;> simp [unsetSlot, hc, ho, nextAddr, ha, dialSlot]
  · simp only [Links.step, first i hc hf, Links.upd, hx]
    exact ⟨connectedSlot x, by simp [hlt, hg], by simp [connectedSlot, hc], rfl, rfl⟩

/-- An attempt with three addresses: the first two fail, the third one is reached. -/
example : (Sample.table.runs Sample.dialConf [(1, .check (fun _ => true)), (2, .resolved 0 [1, 2, 3, 4] (some 7)), (3, .failed 7 0 (some 8)),
      (4, .failed 8 0 (some 9))]).slots[0]?.any (fun x => x.conn == .up 9 && x.connecting && x.addrs.isEmpty) = true ∧
    (Sample.table.runs Sample.dialConf [(1, .check (fun _ => true)), (2, .resolved 0 [] none)]).slots[0]?.any (fun x => x.conn == .none) = true := by
  decide

end Ngircd
