import Verif.Model.Parse
import Verif.Spec.Message
import Verif.Lemmas.Str

/-! # C08, C09, C43: the request parser -/

namespace Ngircd
open Spec

theorem cutSpace_word (w r : Str) (hw : ' ' ∉ w) (n : Nat) (hr : r.head? ≠ some ' ') :
    cutSpace (w ++ (spaces n ++ r)) = (w, some r) := by
  have h1 : ∀ (w : Str), ' ' ∉ w → ∀ x : Str, (w ++ ' ' :: x).takeWhile (fun c => c != ' ') = w ∧
      (w ++ ' ' :: x).dropWhile (fun c => c != ' ') = ' ' :: x := by
    intro w hw x
    induction w with
    | nil => simp
    | cons c w ih =>
      simp at hw
      have hc : (c != ' ') = true := by simpa using Ne.symm hw.1
      simp [hc, ih hw.2]
  have h2 : ∀ k : Nat, (List.replicate k ' ' ++ r).dropWhile (fun c => c == ' ') = r := by
    intro k
    induction k with
    | zero =>
      cases r with
      | nil => rfl
      | cons c r => simp at hr; simp [hr]
    | succ k ih => simpa [List.replicate_succ] using ih
  have h3 : spaces n ++ r = ' ' :: (List.replicate n ' ' ++ r) := by simp [spaces, List.replicate_succ]
  rw [h3]
  have := h1 w hw (List.replicate n ' ' ++ r)
  simp only [cutSpace, this.1, this.2, h2]

theorem cutSpace_end (w : Str) (hw : ' ' ∉ w) : cutSpace w = (w, none) := by
  have : w.takeWhile (fun c => c != ' ') = w ∧ w.dropWhile (fun c => c != ' ') = [] := by
    induction w with
    | nil => simp
    | cons c w ih =>
      simp at hw
      have hc : (c != ' ') = true := by simpa using Ne.symm hw.1
      simp [hc, ih hw.2]
  simp only [cutSpace, this.1, this.2]

theorem word_noSpace {w : Str} (h : ∀ c ∈ w, ¬ Ws c) : ' ' ∉ w := fun hm => h _ hm (Or.inl rfl)

theorem render_eq (m : Message) (sep : Nat → Nat) :
    m.render sep = (match m.prefix? with
      | some p => ':' :: p ++ spaces (sep 0)
      | none => []) ++ (m.command ++ argText sep 1 m.middle m.trailing) := rfl

theorem mem_takeWhile_imp {α} {p : α → Bool} {l : List α} {x : α} (h : x ∈ l.takeWhile p) : p x = true := by
  induction l with
  | nil => simp at h
  | cons a l ih =>
    rw [List.takeWhile_cons] at h
    split at h
    · rw [List.mem_cons] at h
      rcases h with rfl | h
      · assumption
      · exact ih h
    · simp at h

/-- The first argument text after its separating spaces. -/
theorem parseArgs_text (sep : Nat → Nat) (as : List Str) (t : Option Str) (i k : Nat)
    (hm : ∀ a ∈ as, Word a ∧ a.head? ≠ some ':') (hk : as.length + t.toList.length ≤ k)
    (hne : as ++ t.toList ≠ []) :
    ∃ r, argText sep i as t = spaces (sep i) ++ r ∧ r.head? ≠ some ' ' ∧
      parseArgs k r = as ++ t.toList := by
  induction as generalizing i k with
  | nil =>
    cases t with
    | none => simp at hne
    | some t =>
      obtain ⟨k, rfl⟩ : ∃ k', k = k' + 1 := ⟨k - 1, by simp at hk; omega⟩
      exact ⟨':' :: t, rfl, by simp, by simp [parseArgs]⟩
  | cons a as ih =>
    obtain ⟨k, rfl⟩ : ∃ k', k = k' + 1 := ⟨k - 1, by simp at hk; omega⟩
    have ha := hm a (by simp)
    obtain ⟨c, a', rfl⟩ : ∃ c a', a = c :: a' := by
      cases a with
      | nil => exact absurd rfl ha.1.1
      | cons c a => exact ⟨c, a, rfl⟩
    have hsp := word_noSpace ha.1.2
    have hhead : ((c :: a') ++ argText sep (i + 1) as t).head? ≠ some ' ' := by
      intro h; simp at h; subst h; simp at hsp
    have hpa : ∀ x, parseArgs (k + 1) ((c :: a') ++ x) =
        (cutSpace ((c :: a') ++ x)).1 :: (match (cutSpace ((c :: a') ++ x)).2 with
          | none => []
          | some r => parseArgs k r) := by
      intro x
      have : c ≠ ':' := by simpa using ha.2
      simp only [List.cons_append]
      rw [parseArgs.eq_def]
      simp only
      split
      · rename_i heq; simp at heq; exact absurd heq.1 this
      · rfl
    refine ⟨(c :: a') ++ argText sep (i + 1) as t, by simp [argText], hhead, ?_⟩
    rw [hpa]
    by_cases hrest : as ++ t.toList = []
    · simp at hrest
      obtain ⟨rfl, rfl⟩ := hrest
      simp only [argText, List.append_nil, cutSpace_end _ hsp]
      simp
    · obtain ⟨r, hr1, hr2, hr3⟩ := ih (i + 1) k (fun a h => hm a (by simp [h])) (by simp at hk ⊢; omega) hrest
      rw [hr1, cutSpace_word _ _ hsp _ hr2]
      simp [hr3]

theorem ws_last_render {m : Message} (hv : m.Valid) (sep : Nat → Nat) (c : Char) (r : Str)
    (h : m.render sep = r ++ [c]) : ¬ Ws c := by
  have lastArg : ∀ (as : List Str) (t : Option Str) (i : Nat) (r : Str),
      (∀ a ∈ as, Word a) → (∀ x, t = some x → ∀ c r, x = r ++ [c] → ¬ Ws c) →
      argText sep i as t = r ++ [c] → ¬ Ws c := by
    intro as t
    induction as with
    | nil =>
      intro i r _ ht h
      cases t with
      | none => simp [argText] at h
      | some t =>
        simp only [argText] at h
        rcases List.eq_nil_or_concat t with rfl | ⟨t', d, rfl⟩
        · have : spaces (sep i) ++ [':'] = r ++ [c] := h
          have := (List.append_inj' this rfl).2
          simp at this; subst this; intro h; simp [Ws] at h
        · have h' : (spaces (sep i) ++ ':' :: t') ++ [d] = r ++ [c] := by simpa using h
          have := (List.append_inj' h' rfl).2
          simp at this; subst this
          exact ht _ rfl d t' (by simp)
    | cons a as ih =>
      intro i r ha ht h
      simp only [argText] at h
      by_cases hn : argText sep (i + 1) as t = []
      · rw [hn, List.append_nil] at h
        have haw := ha a (by simp)
        rcases List.eq_nil_or_concat a with rfl | ⟨a', d, rfl⟩
        · exact absurd rfl haw.1
        · have h' : (spaces (sep i) ++ a') ++ [d] = r ++ [c] := by simpa using h
          have := (List.append_inj' h' rfl).2
          simp at this; subst this
          exact haw.2 d (by simp)
      · rcases List.eq_nil_or_concat (argText sep (i + 1) as t) with h0 | ⟨x, d, hx⟩
        · exact absurd h0 hn
        · have hx' : argText sep (i + 1) as t = x ++ [d] := by simpa using hx
          rw [hx', ← List.append_assoc] at h
          have := (List.append_inj' h rfl).2
          simp at this; subst this
          exact ih (i + 1) x (fun a h => ha a (by simp [h])) ht hx'
  rw [render_eq] at h
  by_cases hn : argText sep 1 m.middle m.trailing = []
  · rw [hn, List.append_nil] at h
    have hc := hv.commandOk.1
    rcases List.eq_nil_or_concat m.command with h0 | ⟨x, d, hx⟩
    · exact absurd h0 hc.1
    · have hx' : m.command = x ++ [d] := by simpa using hx
      rw [hx', ← List.append_assoc] at h
      have := (List.append_inj' h rfl).2
      simp at this; subst this
      exact hc.2 d (by rw [hx']; simp)
  · rcases List.eq_nil_or_concat (argText sep 1 m.middle m.trailing) with h0 | ⟨x, d, hx⟩
    · exact absurd h0 hn
    · have hx' : argText sep 1 m.middle m.trailing = x ++ [d] := by simpa using hx
      rw [hx', ← List.append_assoc, ← List.append_assoc] at h
      have := (List.append_inj' h rfl).2
      simp at this; subst this
      exact lastArg _ _ 1 x (fun a h => (hv.middleOk a h).1) hv.trailingOk hx'

theorem ws_first_render {m : Message} (hv : m.Valid) (sep : Nat → Nat) (c : Char) (r : Str)
    (h : m.render sep = c :: r) : ¬ Ws c := by
  rw [render_eq] at h
  cases hp : m.prefix? with
  | some p => rw [hp] at h; simp at h; rw [← h.1]; simp [Ws]
  | none =>
    rw [hp] at h
    simp only [List.nil_append] at h
    have hc := hv.commandOk.1
    cases hcm : m.command with
    | nil => exact absurd hcm hc.1
    | cons d cm => rw [hcm] at h; simp at h; rw [← h.1]; exact hc.2 d (by rw [hcm]; simp)

theorem parseCommand_text {m : Message} (hv : m.Valid) (sep : Nat → Nat) :
    parseCommand m.prefix? (m.command ++ argText sep 1 m.middle m.trailing) =
      { prefix? := m.prefix?, command := m.command, argv := m.args } := by
  have hsp := word_noSpace hv.commandOk.1.2
  by_cases hrest : m.middle ++ m.trailing.toList = []
  · have h0 := hrest
    simp at hrest
    simp only [hrest.1, hrest.2, argText, List.append_nil, parseCommand, cutSpace_end _ hsp, Message.args]
    simp
  · obtain ⟨r, hr1, hr2, hr3⟩ := parseArgs_text sep m.middle m.trailing 1 15 hv.middleOk
      (by have := hv.count; simpa [Message.args] using this) hrest
    rw [hr1]
    simp only [parseCommand, cutSpace_word _ _ hsp _ hr2, hr3, Message.args]

/-- C08 (round trip): every message IRC syntax can express, written with any number of spaces
between its parts and surrounded by any amount of white space, is parsed back to the same
prefix, command and arguments. -/
theorem C08_round_trip (m : Message) (hv : m.Valid) (sep : Nat → Nat) (a b : Str)
    (ha : ∀ c ∈ a, Ws c) (hb : ∀ c ∈ b, Ws c) :
    parseRequest false (a ++ m.render sep ++ b) =
      .request { prefix? := m.prefix?, command := m.command, argv := m.args } := by
  have htrim : trimStr (a ++ m.render sep ++ b) = m.render sep :=
    trimmed_unique (trimStr_trimmed _)
      ⟨⟨a, b, rfl, ha, hb⟩, fun c r h => ws_first_render hv sep c r h, fun c r h => ws_last_render hv sep c r h⟩
  unfold parseRequest
  rw [htrim]
  simp only [Bool.false_and, Bool.false_eq_true, if_false]
  rw [render_eq]
  have hcmd := parseCommand_text hv sep
  have hne := hv.commandOk.1.1
  cases hcm : m.command with
  | nil => exact absurd hcm hne
  | cons c cm =>
    rw [hcm] at hcmd
    have hcsp : c ≠ ' ' := by
      intro h; exact hv.commandOk.1.2 c (by rw [hcm]; simp) (by subst h; exact Or.inl rfl)
    cases hp : m.prefix? with
    | some p =>
      rw [hp] at hcmd
      have hpsp := word_noSpace (hv.prefixOk p hp)
      simp only [List.cons_append, List.append_assoc]
      rw [cutSpace_word p _ hpsp _ (by simpa using hcsp)]
      simp only
      rw [← List.cons_append, hcmd]
    | none =>
      rw [hp] at hcmd
      have hcol : c ≠ ':' := by have := hv.commandOk.2 hp; rw [hcm] at this; simpa using this
      simp only [List.nil_append, List.cons_append]
      simp only [List.cons_append] at hcmd
      split
      · rename_i heq; simp at heq; exact absurd heq.1 hcol
      · rw [hcmd]

example : parseRequest false ":joe  PRIVMSG #a,b   :hello  world\r".toList =
    .request ⟨some "joe".toList, "PRIVMSG".toList, ["#a,b".toList, "hello  world".toList]⟩ := by decide
example : (Message.mk (some "joe".toList) "PRIVMSG".toList ["#a".toList] (some "hi there".toList)).Valid := by
  refine ⟨?_, ?_, ?_, ?_, ?_⟩
  · intro p h; simp at h; subst h; intro c hc; simp at hc; rcases hc with rfl | rfl | rfl <;> simp [Ws]
  · refine ⟨⟨by simp, ?_⟩, by simp⟩
    intro c hc; simp at hc; rcases hc with rfl | rfl | rfl | rfl | rfl | rfl | rfl <;> simp [Ws]
  · intro a h; simp at h; subst h
    refine ⟨⟨by simp, ?_⟩, by simp⟩
    intro c hc; simp at hc; rcases hc with rfl | rfl <;> simp [Ws]
  · intro t h c r hr; simp at h; subst h
    have : "hi ther".toList ++ ['e'] = r ++ [c] := hr
    have := (List.append_inj' this rfl).2
    simp at this; subst this; simp [Ws]
  · simp [Message.args]

/-! ## C09 -/

theorem cutSpace_fst (s : Str) : ' ' ∉ (cutSpace s).1 := by
  unfold cutSpace
  intro h
  have := mem_takeWhile_imp h
  simp at this

theorem cutSpace_suffix (s : Str) (r : Str) (h : (cutSpace s).2 = some r) :
    ∃ n : Nat, s = (cutSpace s).1 ++ (spaces n ++ r) := by
  unfold cutSpace at h ⊢
  simp only at h ⊢
  have hs := List.takeWhile_append_dropWhile (p := fun c => c != ' ') (l := s)
  have hdw : ∀ (x : Str), ∃ n : Nat, x = List.replicate n ' ' ++ x.dropWhile (fun c => c == ' ') := by
    intro x
    induction x with
    | nil => exact ⟨0, rfl⟩
    | cons c x ih =>
      by_cases hc : c = ' '
      · subst hc
        obtain ⟨n, hn⟩ := ih
        refine ⟨n + 1, ?_⟩
        rw [List.dropWhile_cons_of_pos (by simp), List.replicate_succ, List.cons_append]
        exact congrArg _ hn
      · exact ⟨0, by rw [List.dropWhile_cons_of_neg (by simpa using hc)]; rfl⟩
  have hhead : ∀ (s : Str) (d : Char) (x : Str), s.dropWhile (fun c => c != ' ') = d :: x → d = ' ' := by
    intro s d x
    induction s with
    | nil => simp
    | cons c s ih =>
      by_cases hc : c = ' '
      · subst hc; simp; intro h _; exact h.symm
      · rw [List.dropWhile_cons_of_pos (by simpa using hc)]; exact ih
  cases hd : s.dropWhile (fun c => c != ' ') with
  | nil => rw [hd] at h; simp at h
  | cons d x =>
    rw [hd] at h
    simp at h
    have := hhead s d x hd
    subst this
    rw [hd] at hs
    obtain ⟨n, hn⟩ := hdw x
    refine ⟨n, ?_⟩
    rw [h] at hn
    have h2 : ' ' :: x = spaces n ++ r := by
      rw [hn]; simp [spaces, List.replicate_succ]
    rw [← h2]
    exact hs.symm

theorem parseArgs_length (k : Nat) (s : Str) : (parseArgs k s).length ≤ k := by
  induction k generalizing s with
  | zero => simp [parseArgs]
  | succ k ih =>
    rw [parseArgs.eq_def]
    simp only
    split
    · simp
    · split
      · simp
      · simp; exact ih _

/-- Shape of the argument list: all arguments are free of spaces, but the last one if it is
the rest of the line after a colon. -/
theorem parseArgs_shape (k : Nat) (s : Str) :
    ∃ pre last, (parseArgs k s = pre ++ last.toList) ∧
      (∀ a ∈ pre, ' ' ∉ a) ∧ (∀ t, last = some t → ∃ q, s = q ++ ':' :: t ∧ (q = [] ∨ ∃ q', q = q' ++ [' '])) := by
  induction k generalizing s with
  | zero => exact ⟨[], none, rfl, by simp, by simp⟩
  | succ k ih =>
    rw [parseArgs.eq_def]
    simp only
    split
    · rename_i r
      exact ⟨[], some r, rfl, by simp, fun t h => ⟨[], by simp at h; simp [h], Or.inl rfl⟩⟩
    · split
      · exact ⟨[(cutSpace s).1], none, by simp, by simpa using cutSpace_fst s, by simp⟩
      · rename_i r hr
        obtain ⟨pre, last, h1, h2, h3⟩ := ih r
        refine ⟨(cutSpace s).1 :: pre, last, by simp [h1], ?_, ?_⟩
        · intro a ha
          rw [List.mem_cons] at ha
          rcases ha with rfl | ha
          · exact cutSpace_fst s
          · exact h2 a ha
        · intro t ht
          obtain ⟨q, hq, hq2⟩ := h3 t ht
          obtain ⟨n, hn⟩ := cutSpace_suffix s r hr
          refine ⟨(cutSpace s).1 ++ (spaces n ++ q), ?_, Or.inr ?_⟩
          · rw [List.append_assoc, List.append_assoc, ← hq]; exact hn
          · rcases hq2 with rfl | ⟨q', rfl⟩
            · refine ⟨(cutSpace s).1 ++ List.replicate n ' ', ?_⟩
              simp [spaces, List.replicate_succ']
            · exact ⟨(cutSpace s).1 ++ (spaces n ++ q'), by simp⟩

/-- C09: for every line, a request handed on has at most 15 arguments; command, prefix and all
arguments contain no space, except that the last argument may be the rest of the line after a
colon that follows a space. -/
theorem C09_well_formed (scrub : Bool) (line : Str) (r : Request)
    (h : parseRequest scrub line = .request r) :
    r.argv.length ≤ 15 ∧ ' ' ∉ r.command ∧ (∀ p, r.prefix? = some p → ' ' ∉ p) ∧
    ∃ pre last, r.argv = pre ++ last.toList ∧ (∀ a ∈ pre, ' ' ∉ a) ∧
      (∀ t, last = some t → ∃ q, trimStr line = q ++ ' ' :: ':' :: t) := by
  have key : ∀ (p : Option Str) (start pre : Str), trimStr line = pre ++ start →
      (parseCommand p start).argv.length ≤ 15 ∧ ' ' ∉ (parseCommand p start).command ∧
      (parseCommand p start).prefix? = p ∧
      ∃ pre last, (parseCommand p start).argv = pre ++ last.toList ∧ (∀ a ∈ pre, ' ' ∉ a) ∧
      (∀ t, last = some t → ∃ q, trimStr line = q ++ ' ' :: ':' :: t) := by
    intro p start pre hpre
    refine ⟨?_, cutSpace_fst start, rfl, ?_⟩
    · simp only [parseCommand]
      split
      · simp
      · exact parseArgs_length 15 _
    · simp only [parseCommand]
      split
      · exact ⟨[], none, rfl, by simp, by simp⟩
      · rename_i r hr
        obtain ⟨a, l, h1, h2, h3⟩ := parseArgs_shape 15 r
        obtain ⟨n, hn⟩ := cutSpace_suffix start r hr
        refine ⟨a, l, h1, h2, fun t ht => ?_⟩
        obtain ⟨q, hq, hq2⟩ := h3 t ht
        have e : trimStr line = pre ++ ((cutSpace start).1 ++ (spaces n ++ (q ++ ':' :: t))) := by
          rw [← hq, ← hn]; exact hpre
        rcases hq2 with rfl | ⟨q', rfl⟩
        · refine ⟨pre ++ (cutSpace start).1 ++ List.replicate n ' ', ?_⟩
          rw [e]; simp [spaces, List.replicate_succ']
        · refine ⟨pre ++ (cutSpace start).1 ++ spaces n ++ q', ?_⟩
          rw [e]; simp
  unfold parseRequest at h
  simp only at h
  split at h
  · simp at h
  · split at h
    · rename_i x heq
      split at h
      · simp at h
      · rename_i p start hcs
        simp at h
        have hcs1 : (cutSpace x).1 = p := by rw [hcs]
        have hcs2 : (cutSpace x).2 = some start := by rw [hcs]
        obtain ⟨n, hn⟩ := cutSpace_suffix x start hcs2
        have := key (some p) start (':' :: (p ++ spaces n)) (by
          rw [heq]; simp only [List.cons_append, List.append_assoc]; rw [← hcs1, ← hn])
        rw [h] at this
        refine ⟨this.1, this.2.1, ?_, this.2.2.2⟩
        intro p' hp'
        rw [this.2.2.1] at hp'
        simp at hp'
        rw [← hp', ← hcs1]
        exact cutSpace_fst x
    · simp at h
      have := key none (trimStr line) [] rfl
      rw [h] at this
      refine ⟨this.1, this.2.1, ?_, this.2.2.2⟩
      intro p' hp'
      rw [this.2.2.1] at hp'
      simp at hp'

/-- C09: the only line that is refused is one starting with a colon and having no space. -/
theorem C09_refused_iff (line : Str) :
    parseRequest false line = .prefixError ↔ ∃ p, trimStr line = ':' :: p ∧ ' ' ∉ p := by
  have hcut : ∀ x, (cutSpace x).2 = none ↔ ' ' ∉ x := by
    intro x
    constructor
    · intro h hm
      have hs := List.takeWhile_append_dropWhile (p := fun c => c != ' ') (l := x)
      unfold cutSpace at h
      simp only at h
      split at h
      · rename_i hd
        rw [hd, List.append_nil] at hs
        have := cutSpace_fst x
        unfold cutSpace at this
        simp only at this
        rw [hs] at this
        exact this hm
      · simp at h
    · intro h; rw [cutSpace_end x h]
  unfold parseRequest
  simp only [Bool.false_and, Bool.false_eq_true, if_false]
  split
  · rename_i x heq
    constructor
    · intro h
      split at h
      · rename_i p hp
        refine ⟨x, heq, (hcut x).1 ?_⟩
        rw [hp]
      · simp at h
    · rintro ⟨p, hp, hn⟩
      rw [heq] at hp
      simp at hp
      subst hp
      rw [cutSpace_end x hn]
  · rename_i hne
    constructor
    · intro h; simp at h
    · rintro ⟨p, hp, _⟩; exact absurd hp (hne p)

example : parseRequest false "  ".toList = .request ⟨none, [], []⟩ := by decide

/-! ## C43 -/

/-- C43 (exact behaviour): with scrubbing on, a line is dropped iff the first colon (not
counting one at the very beginning) is followed by the CTCP character and not by ACTION. -/
theorem C43_scrub_exact (s : Str) :
    scrubCTCP s = true ↔ ∃ pre r : Str, ((∃ p, s = ':' :: p ∧ p = pre ++ ':' :: '\x01' :: r) ∨
        (s.head? ≠ some ':' ∧ s = pre ++ ':' :: '\x01' :: r)) ∧ ':' ∉ pre ∧ ¬ ("ACTION ".toList <+: r) := by
  have hact : ∀ r : Str, (decide ("ACTION ".toList.length ≤ r.length) && ("ACTION ".toList == r.take "ACTION ".toList.length)) = true
      ↔ "ACTION ".toList <+: r := by
    intro r
    rw [Bool.and_eq_true, decide_eq_true_iff, beq_iff_eq, List.prefix_iff_eq_take]
    constructor
    · exact fun h => h.2
    · intro h; refine ⟨?_, h⟩
      have := congrArg List.length h
      rw [List.length_take] at this; omega
  have hdrop : ∀ pre x : Str, ':' ∉ pre → (pre ++ ':' :: x).dropWhile (fun c => c != ':') = ':' :: x := by
    intro pre x hp
    induction pre with
    | nil => simp
    | cons c pre ih =>
      simp at hp
      have hc : (c != ':') = true := by simpa using Ne.symm hp.1
      simp only [List.cons_append, List.dropWhile_cons, hc, if_true]
      exact ih hp.2
  have core : ∀ ptr : Str, scrubAt ptr = true ↔
      ∃ pre r : Str, ptr = pre ++ ':' :: '\x01' :: r ∧ ':' ∉ pre ∧ ¬ ("ACTION ".toList <+: r) := by
    intro ptr
    unfold scrubAt
    constructor
    · intro h
      split at h
      · rename_i x c r heq
        have hs := List.takeWhile_append_dropWhile (p := fun c => c != ':') (l := ptr)
        rw [heq] at hs
        have hx : x = ':' := by
          have := dropWhile_head (fun c => c != ':') ptr x (c :: r) heq
          simpa using this
        split at h
        · rename_i hc
          have hc : c = '\x01' := by simpa using hc
          subst hc hx
          refine ⟨_, r, hs.symm, ?_, ?_⟩
          · intro hm; have := mem_takeWhile_imp hm; simp at this
          · rw [← hact]; intro hh; rw [hh] at h; simp at h
        · simp at h
      · simp at h
    · rintro ⟨pre, r, rfl, hp, hr⟩
      rw [hdrop pre _ hp]
      simp only [beq_self_eq_true, if_true]
      rw [← hact, Bool.not_eq_true] at hr
      rw [hr]; rfl
  unfold scrubCTCP
  by_cases hh : s.head? = some ':'
  · obtain ⟨r, rfl⟩ : ∃ r, s = ':' :: r := by
      cases s with
      | nil => simp at hh
      | cons c s => simp at hh; subst hh; exact ⟨s, rfl⟩
    simp only
    rw [core r]
    constructor
    · rintro ⟨pre, x, h1, h2, h3⟩; exact ⟨pre, x, Or.inl ⟨r, rfl, h1⟩, h2, h3⟩
    · rintro ⟨pre, x, h1 | h1, h2, h3⟩
      · obtain ⟨p, hp, hp2⟩ := h1
        simp at hp; subst hp; exact ⟨pre, x, hp2, h2, h3⟩
      · simp at h1
  · have hp : ∀ s : Str, s.head? ≠ some ':' → scrubCTCP s = scrubAt s := by
      intro s hh
      unfold scrubCTCP
      split
      · exact absurd rfl hh
      · rfl
    have := hp s hh
    unfold scrubCTCP at this
    rw [this]
    rw [core]
    constructor
    · rintro ⟨pre, x, h1, h2, h3⟩; exact ⟨pre, x, Or.inr ⟨hh, h1⟩, h2, h3⟩
    · rintro ⟨pre, x, h1 | h1, h2, h3⟩
      · obtain ⟨p, hp, _⟩ := h1; subst hp; simp at hh
      · exact ⟨pre, x, h1.2, h2, h3⟩

/-- C43 (partial): with scrubbing on, a request whose last argument was given after a colon
and starts with the CTCP character but not with ACTION is never handed on, if no colon
occurs in the prefix, command and earlier arguments. -/
theorem C43_no_ctcp_partial (line q t : Str) (hl : trimStr line = q ++ ' ' :: ':' :: '\x01' :: t)
    (hq : ':' ∉ q.tail) (ht : ¬ ("ACTION ".toList <+: t)) :
    parseRequest true line = .scrubbed := by
  have : scrubCTCP (trimStr line) = true := by
    rw [C43_scrub_exact, hl]
    cases q with
    | nil => exact ⟨[' '], t, Or.inr ⟨by simp, by simp⟩, by simp, ht⟩
    | cons c q =>
      simp at hq
      by_cases hc : c = ':'
      · subst hc
        exact ⟨q ++ [' '], t, Or.inl ⟨_, rfl, by simp⟩, by simp [hq], ht⟩
      · exact ⟨c :: q ++ [' '], t, Or.inr ⟨by simpa using hc, by simp⟩, by simp [hq, Ne.symm hc], ht⟩
  simp [parseRequest, this]

/-- C43: nothing is dropped when scrubbing is off, and messages without CTCP character are
never dropped. -/
theorem C43_only_ctcp (scrub : Bool) (line : Str) (h : '\x01' ∉ line ∨ scrub = false) :
    parseRequest scrub line ≠ .scrubbed := by
  have hs : (scrub && scrubCTCP (trimStr line)) = false := by
    rcases h with h | h
    · cases hc : scrubCTCP (trimStr line) with
      | false => simp
      | true =>
        exfalso
        rw [C43_scrub_exact] at hc
        obtain ⟨pre, r, h1, _, _⟩ := hc
        have hm : '\x01' ∈ trimStr line := by
          rcases h1 with ⟨p, hp, hp2⟩ | ⟨_, hp⟩
          · rw [hp, hp2]; simp
          · rw [hp]; simp
        obtain ⟨⟨a, b, hab, _, _⟩, _⟩ := trimStr_trimmed line
        apply h
        rw [hab]
        simp [hm]
    · simp [h]
  unfold parseRequest
  simp only [hs, Bool.false_eq_true, if_false]
  split
  · split <;> simp
  · simp

/-- C43 is violated in full generality: a CTCP request given without a colon passes ... -/
theorem C43_violation_no_colon : parseRequest true "PRIVMSG bob \x01VERSION\x01".toList =
    .request ⟨none, "PRIVMSG".toList, ["bob".toList, "\x01VERSION\x01".toList]⟩ := by decide

/-- ... and so does one with a colon anywhere in the target list. -/
theorem C43_violation_colon_in_target : parseRequest true "PRIVMSG bob,x:y :\x01VERSION\x01".toList =
    .request ⟨none, "PRIVMSG".toList, ["bob,x:y".toList, "\x01VERSION\x01".toList]⟩ := by decide

example : parseRequest true "PRIVMSG bob :\x01VERSION\x01".toList = .scrubbed := by decide
example : parseRequest true "PRIVMSG bob :\x01ACTION waves\x01".toList ≠ .scrubbed := by decide

end Ngircd
