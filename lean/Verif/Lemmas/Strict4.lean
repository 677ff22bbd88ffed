import Verif.Lemmas.Strict3
import Verif.Spec.Registry

/-!
# Nick names of local clients
-/

set_option linter.unusedSimpArgs false

namespace Ngircd

variable {x : Ctx} {s t u : Srv}

instance (c : Char) : Decidable (Spec.NickChar c) := by unfold Spec.NickChar; infer_instance

/-- The test done for each character. -/
def nickCharB (c : Char) : Bool :=
  !(decide (c.toNat < 'A'.toNat) && !hasChar nickGoodChars c) && !decide (c.toNat > '}'.toNat)

theorem nickCharB_iff (c : Char) : nickCharB c = true ↔ Spec.NickChar c := by
  by_cases h : c.toNat < 128
  · have key : ∀ n, n < 128 → (nickCharB (Char.ofNat n) = true ↔ Spec.NickChar (Char.ofNat n)) := by
      decide +kernel
    have := key c.toNat h
    rwa [Char.ofNat_toNat] at this
  · constructor
    · intro hb
      simp only [nickCharB, Bool.and_eq_true, Bool.not_eq_true', decide_eq_false_iff_not] at hb
      have h125 : '}'.toNat = 125 := rfl
      omega
    · intro hc
      rcases hc with hc | hc | hc | hc
      · omega
      · omega
      · omega
      · exfalso; apply h
        revert hc
        have : ∀ d ∈ ['[', ']', '\\', '`', '_', '^', '{', '|', '}', '-', ';'], d.toNat < 128 := by decide
        exact this c

theorem nickGood_iff (c : Char) : hasChar nickGoodChars c = true ↔ ((48 ≤ c.toNat ∧ c.toNat ≤ 57) ∨ c = '-' ∨ c = ';') := by
  by_cases h : c.toNat < 128
  · have key : ∀ n, n < 128 → (hasChar nickGoodChars (Char.ofNat n) = true ↔
        ((48 ≤ (Char.ofNat n).toNat ∧ (Char.ofNat n).toNat ≤ 57) ∨ (Char.ofNat n) = '-' ∨ (Char.ofNat n) = ';')) := by
      decide +kernel
    have := key c.toNat h
    rwa [Char.ofNat_toNat] at this
  · constructor
    · intro hb
      exfalso; apply h
      have : ∀ d ∈ nickGoodChars, d.toNat < 128 := by decide
      exact this c (by simpa [hasChar] using hb)
    · rintro (hc | rfl | rfl)
      · omega
      · exact absurd (by decide) h
      · exact absurd (by decide) h

theorem isValidNick_iff (m : Nat) (n : Str) : isValidNick m n = true ↔ Spec.ValidNick m n := by
  cases n with
  | nil => constructor
           · intro h; cases h
           · intro h; exact absurd rfl h.nonempty
  | cons c l =>
    have hall : ((c :: l).all (fun c => !(decide (c.toNat < 'A'.toNat) && !hasChar nickGoodChars c) &&
        !decide (c.toNat > '}'.toNat)) = true) ↔ ∀ d ∈ c :: l, Spec.NickChar d := by
      rw [List.all_eq_true]
      constructor
      · exact fun h d hd => (nickCharB_iff d).1 (h d hd)
      · exact fun h d hd => (nickCharB_iff d).2 (h d hd)
    simp only [isValidNick, Bool.and_eq_true, Bool.not_eq_true', decide_eq_true_eq]
    rw [hall]
    have hg : (hasChar nickGoodChars c = false) ↔ (¬ (48 ≤ c.toNat ∧ c.toNat ≤ 57) ∧ c ≠ '-' ∧ c ≠ ';') := by
      rw [← Bool.not_eq_true, nickGood_iff]
      constructor
      · intro h; exact ⟨fun h1 => h (.inl h1), fun h1 => h (.inr (.inl h1)), fun h1 => h (.inr (.inr h1))⟩
      · rintro ⟨h1, h2, h3⟩ (h | h | h)
        · exact h1 h
        · exact h2 h
        · exact h3 h
    rw [hg]
    constructor
    · rintro ⟨⟨h1, h2⟩, h3⟩
      exact ⟨by simp, h2, fun d hd => by simp at hd; rw [← hd]; exact h1, h3⟩
    · intro h
      exact ⟨⟨h.first c rfl, h.length⟩, h.chars⟩

theorem nickChar_lower {c d : Char} (h : toLower c = toLower d) : (Spec.NickChar c → Spec.NickChar d) ∧
    (hasChar nickGoodChars d = true → hasChar nickGoodChars c = true) := by
  have h1 : (toLower c).toNat = (toLower d).toNat := by rw [h]
  rw [toLower_toNat, toLower_toNat] at h1
  have hA : 'A'.toNat = 65 := rfl
  have hZ : 'Z'.toNat = 90 := rfl
  have : c = d ∨ ((65 ≤ d.toNat ∧ d.toNat ≤ 90) ∨ (97 ≤ d.toNat ∧ d.toNat ≤ 122)) := by
    split at h1 <;> split at h1
    · rename_i a b; right; left; exact ⟨b.1, b.2⟩
    · rename_i a b; right; right; omega
    · rename_i a b; right; left; exact b
    · left; exact Char.toNat_inj.1 h1
  rcases this with rfl | hd
  · exact ⟨id, id⟩
  · refine ⟨fun _ => ?_, fun hg => ?_⟩
    · rcases hd with hd | hd
      · exact .inr (.inl hd)
      · exact .inl hd
    · rw [nickGood_iff] at hg
      rcases hg with hg | rfl | rfl
      · omega
      · exact absurd hd (by decide)
      · exact absurd hd (by decide)

theorem isValidNick_recase {m : Nat} {a b : Str} (h : isValidNick m a = true) (he : caseEq a b = true) :
    isValidNick m b = true := by
  rw [isValidNick_iff] at *
  have hl := (caseEq_iff a b).1 he
  have hlen : a.length = b.length := by
    have : (lowerStr a).length = (lowerStr b).length := by rw [hl]
    simpa [lowerStr] using this
  refine ⟨?_, by rw [← hlen]; exact h.length, ?_, ?_⟩
  · rintro rfl
    apply h.nonempty
    cases a with
    | nil => rfl
    | cons _ _ => simp at hlen
  · intro d hd
    match a, b, hl, h with
    | [], b, _, h => exact absurd rfl h.nonempty
    | c :: a, [], _, _ => simp at hd
    | c :: a, e :: b, hl, h =>
      simp only [List.head?_cons, Option.some.injEq] at hd
      subst hd
      simp only [lowerStr_cons, List.cons.injEq] at hl
      have h1 := h.first c rfl
      have h2 := (nickChar_lower hl.1).2
      rw [nickGood_iff, nickGood_iff] at h2
      refine ⟨fun g => ?_, fun g => ?_, fun g => ?_⟩
      · rcases h2 (.inl g) with g | g | g
        · exact h1.1 g
        · exact h1.2.1 g
        · exact h1.2.2 g
      · rcases h2 (.inr (.inl g)) with g | g | g
        · exact h1.1 g
        · exact h1.2.1 g
        · exact h1.2.2 g
      · rcases h2 (.inr (.inr g)) with g | g | g
        · exact h1.1 g
        · exact h1.2.1 g
        · exact h1.2.2 g
  · intro d hd
    have hd' : toLower d ∈ lowerStr b := List.mem_map_of_mem hd
    rw [← hl] at hd'
    obtain ⟨c, hc, hcd⟩ := List.mem_map.1 hd'
    exact (nickChar_lower hcd).1 (h.chars c hc)

/-- Nick names of local clients are valid. -/
structure NickInv (s : Srv) : Prop where
  conf : s.conf.maxNickLength ≤ CLIENT_NICK_LEN
  valid : ∀ c ∈ s.clients, c.conn.isSome = true → c.type ≠ .server → c.type ≠ .unknownServer →
    c.id = [] ∨ isValidNick s.conf.maxNickLength c.id = true
  named : ∀ c ∈ s.clients, c.conn.isSome = true →
    (c.type = .gotNick ∨ c.type = .user ∨ c.type = .waitAuthPing ∨ c.type = .waitCapEnd) → c.id ≠ []

theorem NickInv.of_eq (hi : NickInv s) (h1 : t.clients = s.clients)
    (h2 : t.conf.maxNickLength = s.conf.maxNickLength) : NickInv t := by
  obtain ⟨a, b, c⟩ := hi
  constructor <;> simp only [h1, h2] <;> assumption

theorem NickInv.upd {r : Nat} {f : Client → Client} (hi : NickInv s)
    (hf : ∀ c ∈ s.clients, c.ref = r → (f c).conn = c.conn ∧
      ((f c).conn.isSome = true → (f c).type ≠ .server → (f c).type ≠ .unknownServer →
        (f c).id = [] ∨ isValidNick s.conf.maxNickLength (f c).id = true) ∧
      ((f c).conn.isSome = true → ((f c).type = .gotNick ∨ (f c).type = .user ∨ (f c).type = .waitAuthPing ∨
        (f c).type = .waitCapEnd) → (f c).id ≠ []))
    (h1 : t.clients = (s.updCl r f).clients) (h2 : t.conf.maxNickLength = s.conf.maxNickLength) : NickInv t := by
  refine ⟨by rw [h2]; exact hi.conf, ?_, ?_⟩
  · rw [h1, h2]; intro c hc
    obtain ⟨d, hd, rfl⟩ := mem_updCl.1 hc
    by_cases hr : d.ref = r
    · rw [if_pos hr]; exact (hf d hd hr).2.1
    · rw [if_neg hr]; exact hi.valid d hd
  · rw [h1]; intro c hc
    obtain ⟨d, hd, rfl⟩ := mem_updCl.1 hc
    by_cases hr : d.ref = r
    · rw [if_pos hr]; exact (hf d hd hr).2.2
    · rw [if_neg hr]; exact hi.named d hd

theorem NickInv.cons {c : Client} (hi : NickInv s) (hc : c.conn.isSome = true → c.id = [] ∧
      (c.type = .unknown ∨ c.type = .unknownServer))
    (h1 : t.clients = c :: s.clients) (h2 : t.conf.maxNickLength = s.conf.maxNickLength) : NickInv t := by
  refine ⟨by rw [h2]; exact hi.conf, ?_, ?_⟩
  · rw [h1, h2]; intro d hd
    rcases List.mem_cons.1 hd with rfl | hd
    · exact fun h _ _ => .inl (hc h).1
    · exact hi.valid d hd
  · rw [h1]; intro d hd
    rcases List.mem_cons.1 hd with rfl | hd
    · intro h ht
      rcases (hc h).2 with h' | h' <;> rw [h'] at ht <;> exact absurd ht (by decide)
    · exact hi.named d hd

theorem validNick_cpy {n : Nat} {id : Str} (hn : n ≤ CLIENT_NICK_LEN) (h : isValidNick n id = true) :
    strlcpy CLIENT_ID_LEN id = id := strlcpy_of_lt (isValidNick_good hn h).2.2

theorem NickInv.act {a : Act} (hbad : ¬ x.bad) (hb : Base t) (hi : NickInv t) (hp : Okay x t a) :
    NickInv (a.run t) := by
  cases a with
  | soft r f =>
    refine hi.upd (r := r) (f := f) (fun c hc hr => ?_) rfl rfl
    obtain ⟨_, h1, _, h2, h3, _⟩ := hp.keeps c
    rw [h1, h2, h3]
    exact ⟨rfl, hi.valid c hc, hi.named c hc⟩
  | umode r m set =>
    exact hi.upd (f := umodeC m set) (fun c hc _ => ⟨rfl, hi.valid c hc, hi.named c hc⟩) (umode_clients t r m set)
      (by simp only [Act.run]; split <;> rfl)
  | setId r id =>
    obtain ⟨hne, h, _⟩ := hp
    refine hi.upd (r := r) (f := fun c => setIdC t.conf c id) (fun c hc hr => ?_) rfl rfl
    rw [setIdC_conn, setIdC_type, setIdC_id]
    have hcl := cl_of_mem' hb.cl.ord hc hr
    rw [hcl] at h
    rcases h with h | h | h | h
    · rw [validNick_cpy hi.conf h.1]
      refine ⟨rfl, fun _ _ _ => .inr h.1, fun _ _ => ?_⟩
      rintro rfl; cases h.1
    · have hcn : c.id ≠ [] := by
        intro he; rw [he, caseEq_nil_left h.2] at h; cases h.1
      refine ⟨rfl, fun h1 h2 h3 => ?_, fun _ _ => strlcpy_id_ne h.2⟩
      have := isValidNick_recase ((hi.valid c hc h1 h2 h3).resolve_left hcn) h.1
      rw [validNick_cpy hi.conf this]
      exact .inr this
    · rw [h.2.2]
      exact ⟨rfl, fun _ _ h => absurd rfl h, fun _ h => absurd h (by decide)⟩
    · exact absurd h hbad
  | setType r ty =>
    obtain ⟨hne, hl, _⟩ := hp
    refine hi.upd (f := typeC t ty) (fun c hc hr => ?_) (setType_clients t r ty) ?_
    · have hcl := cl_of_mem' hb.cl.ord hc hr
      rw [hcl] at hl
      have e1 : (typeC t ty c).conn = c.conn := by unfold typeC; split <;> rfl
      have e2 : (typeC t ty c).type = ty := by unfold typeC; split <;> rfl
      have e3 : (typeC t ty c).id = c.id := by unfold typeC; split <;> rfl
      rw [e1, e2, e3]
      refine ⟨rfl, fun h1 h2 h3 => ?_, fun h1 h2 => ?_⟩
      · have hL := ((hl h1).2.resolve_right hbad).2
        by_cases hid : c.id = []
        · exact .inl hid
        refine hi.valid c hc h1 ?_ ?_
        · intro hs
          cases ty <;> simp only [LocalType, LoginFrom, hcl, hs] at hL <;> simp_all
        · intro hs
          cases ty <;> simp only [LocalType, LoginFrom, hcl, hs] at hL <;> simp_all
      · have hL := ((hl h1).2.resolve_right hbad).2
        have hn := hi.named c hc h1
        cases ty <;> simp only [LocalType, LoginFrom, hcl] at hL <;> simp at h2
        · exact hL.2.1
        all_goals
          have hL' : LoginFrom x c.type c.id := by first | exact hL | exact hL.1
          rcases hL' with g | g | g | g
          · exact g.2.2
          · exact hn (.inl g.1)
          · exact hn (.inr (.inr (.inl g)))
          · exact hn (.inr (.inr (.inr g)))
    · simp only [Act.run, clientSetType]
      generalize hu : (t.updCl r fun c => if ty = .server then { c with type := ty, mytoken := genMyToken t } else { c with type := ty }) = u
      obtain ⟨_, _, h⟩ := adjustCounters_eq u (u.cl r)
      rw [h, ← hu]; rfl
  | setIntro r tok =>
    exact hi.upd (r := r) (f := fun c => { c with introducer := r, token := tok })
      (fun c hc _ => ⟨rfl, hi.valid c hc, hi.named c hc⟩) rfl rfl
  | newCl c =>
    refine hi.cons (fun h => ?_) (newCl_clients t c) (by rw [run_conf t (by simp)])
    rw [hp.2.2.1] at h; cases h
  | newLocal c k =>
    exact hi.cons (fun _ => ⟨hp.2.1, hp.2.2.2.2.1⟩) (newLocal_clients t c k) (by rw [run_conf t (by simp)])
  | destroy c =>
    have h1 := destroy_run_clients t c
    have h2 : ((Act.destroy c).run t).conf = t.conf := destroy_conf t c
    refine ⟨by rw [h2]; exact hi.conf, ?_, ?_⟩
    · rw [h1, h2]; exact fun d hd => hi.valid d (List.mem_filter.1 hd).1
    · rw [h1]; exact fun d hd => hi.named d (List.mem_filter.1 hd).1
  | conf c => exact hi.of_eq rfl hp.1
  | whowas c => exact hi.of_eq (run_clients rfl t) (by rw [run_conf t (by simp)])
  | remove ch r => exact hi.of_eq (run_clients rfl t) (by rw [run_conf t (by simp)])
  | chMode ch r m => exact hi.of_eq (run_clients rfl t) (by rw [run_conf t (by simp)])
  | mmode ch r m set => exact hi.of_eq (run_clients rfl t) (by rw [run_conf t (by simp)])
  | _ => exact hi.of_eq rfl rfl

end Ngircd
