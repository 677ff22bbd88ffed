import Verif.Spec.Polite
import Verif.Spec.Sample

/-!
# The sample run follows the rules

The conditions of Spec/Polite are decidable, and the sample run meets them.
-/

namespace Ngircd
namespace Spec

instance (id : Str) : Decidable (GoodName id) := inferInstanceAs (Decidable (_ ∧ _ ∧ _))
instance (req : Request) (n : String) : Decidable (Is req n) := inferInstanceAs (Decidable (_ = _))
instance (c : Client) : Decidable (Person c) := inferInstanceAs (Decidable (_ ∨ _))
instance (c : Conf) : Decidable (TidyConf c) := inferInstanceAs (Decidable (_ ∧ _))
instance (c : Conf) : Decidable (GoodConf c) := inferInstanceAs (Decidable (_ ∧ _))

/-- The client the prefix names satisfies `P`. -/
def prefixB (s : Srv) (req : Request) (P : Client → Bool) : Bool :=
  match req.prefix? with
  | none => true
  | some p => match clientSearch s p with
    | none => true
    | some c => P c

theorem prefixB_iff {s : Srv} {req : Request} {P : Client → Bool} : prefixB s req P = true ↔
    ∀ p c, req.prefix? = some p → clientSearch s p = some c → P c = true := by
  unfold prefixB
  constructor
  · intro h p c hp hc
    rw [hp] at h
    simp only [hc] at h
    exact h
  · intro h
    split
    · rfl
    · split
      · rfl
      · exact h _ _ ‹_› ‹_›

/-- `Polite` as a test. -/
def politeB (s : Srv) (cl : Nat) (req : Request) : Bool :=
  decide (((s.cl cl).type = .server ∨ (s.cl cl).hasMode 'o' = true) → Is req "CONNECT" →
    3 < req.argc → req.arg 0 ≠ [] ∧ '!' ∉ req.arg 0) &&
  decide ((s.cl cl).type = .unknownServer → Is req "PASS" → (s.cl cl).id = []) &&
  (!decide ((s.cl cl).type = .server) || (
    decide (Is req "SERVER" → GoodName (req.arg 0)) &&
    (!decide (Is req "NICK") || !decide (req.argc = 1) || prefixB s req (fun c => decide (Person c))) &&
    (!decide (Is req "NICK") || decide (req.argc = 1) ||
      decide (GoodName (req.arg 0) ∧ (strlcpy CLIENT_MODE_LEN ((req.arg 5).drop 1)).Nodup)) &&
    (!decide (Is req "SERVICE") || decide (serviceNick (req.arg 0) ≠ [] ∧
      (serviceNick (req.arg 0)).length < CLIENT_ID_LEN ∧
      '@' ∉ serviceNick (req.arg 0) ∧
      (strlcpy CLIENT_MODE_LEN (req.arg 3).tail).Nodup)) &&
    (!decide (Is req "JOIN") || (prefixB s req (fun c => decide (Person c)) &&
      decide (∀ n ∈ strtok (req.arg 0) [','], cutAt n '\x07' ≠ []))) &&
    (!decide (Is req "NJOIN") || decide (req.arg 0 ≠ [] ∧
      ∀ tok ∈ strtok (strlcpy COMMAND_LEN (req.arg 1)) [','], ∀ c ∈ s.clients,
        caseEq c.id (cutAt (strlcpy CLIENT_ID_LEN (tok.dropWhile isNjoinPrefix)) '!') = true → Person c)) &&
    (!decide (Is req "CHANINFO") || decide ((isValidChanName (req.arg 0) = true ∧ req.arg 0 ≠ []) ∧
      (strlcpy CHANNEL_MODE_LEN (req.arg 1).tail).Nodup))))

theorem politeB_sound {s : Srv} {cl : Nat} {req : Request} (h : politeB s cl req = true) : Polite s cl req := by
  simp only [politeB, Bool.and_eq_true, Bool.or_eq_true, Bool.not_eq_true', decide_eq_true_eq,
    decide_eq_false_iff_not, prefixB_iff] at h
  obtain ⟨⟨h9, h8⟩, h⟩ := h
  refine ⟨?_, ?_, ?_, ?_, ?_, ?_, ?_, h8, h9⟩ <;> intro hs <;>
    obtain ⟨⟨⟨⟨⟨⟨h0, h1⟩, h2⟩, h3⟩, h4⟩, h5⟩, h6⟩ := h.resolve_left (fun hn => hn hs)
  · exact h0
  · exact fun hn ha => (h1.resolve_left (fun g => g.elim (fun g => g hn) (fun g => g ha)))
  · exact fun hn ha => (h2.resolve_left (fun g => g.elim (fun g => g hn) (fun g => ha g)))
  · exact fun hn => h3.resolve_left (fun g => g hn)
  · exact fun hn => h4.resolve_left (fun g => g hn)
  · exact fun hn => h5.resolve_left (fun g => g hn)
  · exact fun hn => h6.resolve_left (fun g => g hn)

/-- `Tidy` as a test. -/
def tidyB (s : Srv) (req : Request) : Bool :=
  (!decide (Is req "MODE") || (match channelSearch s (req.arg 0) with
    | none => true
    | some ch => decide (membersOf s ch.ref ≠ [] ∨ 'P' ∉ (req.argv.drop 1).flatten))) &&
  (!decide (Is req "CHANINFO") || (channelSearch s (req.arg 0)).isSome)

theorem tidyB_sound {s : Srv} {req : Request} (h : tidyB s req = true) : Tidy s req := by
  simp only [tidyB, Bool.and_eq_true, Bool.or_eq_true, Bool.not_eq_true', decide_eq_false_iff_not] at h
  refine ⟨fun hm ch hc => ?_, fun hm => ?_⟩
  · have := h.1.resolve_left (fun g => g hm)
    rw [hc] at this
    simpa using this
  · exact Option.isSome_iff_exists.1 (h.2.resolve_left (fun g => g hm))

/-- The event follows the rules, as a test. -/
def fineB (s : Srv) (e : Event) : Bool :=
  match e with
  | .line i _ l =>
    match s.conn? i, parseRequest s.conf.scrubCTCP l with
    | some k, .request req0 =>
      match validatePrefix s i k.client req0 with
      | .pass req => politeB s k.client req && tidyB s req
      | .drop _ _ => true
    | _, _ => true
  | .rehash c => decide (TidyConf c)
  | _ => true

theorem fineB_sound {s : Srv} {e : Event} (h : fineB s e = true) : PoliteEvent s e ∧ TidyEvent s e := by
  have key : ∀ i rnd l, e = .line i rnd l → ∀ cl req, Received s i l cl req →
      politeB s cl req = true ∧ tidyB s req = true := by
    rintro i rnd l rfl cl req ⟨k, req0, h1, h2, h3, h4⟩
    subst h2
    simp only [fineB, h1, h3, h4, Bool.and_eq_true] at h
    exact h
  refine ⟨fun i rnd l he cl req hr => politeB_sound (key i rnd l he cl req hr).1,
    fun i rnd l he cl req hr => tidyB_sound (key i rnd l he cl req hr).2, ?_⟩
  rintro c rfl
  simpa [fineB] using h

/-- The event is polite, as a test. -/
def politeEvB (s : Srv) (e : Event) : Bool :=
  match e with
  | .line i _ l =>
    match s.conn? i, parseRequest s.conf.scrubCTCP l with
    | some k, .request req0 =>
      match validatePrefix s i k.client req0 with
      | .pass req => politeB s k.client req
      | .drop _ _ => true
    | _, _ => true
  | _ => true

theorem politeEvB_sound {s : Srv} {e : Event} (h : politeEvB s e = true) : PoliteEvent s e := by
  rintro i rnd l rfl cl req ⟨k, req0, h1, h2, h3, h4⟩
  subst h2
  simp only [politeEvB, h1, h3, h4] at h
  exact politeB_sound h

/-- The request a line amounts to, as a function. -/
def recv (s : Srv) (i : Nat) (l : Str) : Option (Nat × Request) :=
  match s.conn? i with
  | none => none
  | some k =>
    match parseRequest s.conf.scrubCTCP l with
    | .request req0 =>
      (match validatePrefix s i k.client req0 with
       | .pass req => some (k.client, req)
       | .drop _ _ => none)
    | _ => none

theorem recv_sound {s : Srv} {i cl : Nat} {l : Str} {req : Request} (h : recv s i l = some (cl, req)) :
    Received s i l cl req := by
  simp only [recv] at h
  split at h
  · cases h
  · rename_i k hk
    split at h
    · rename_i req0 hp
      split at h
      · rename_i r hv
        injection h with h; injection h with h1 h2
        subst h1; subst h2
        exact ⟨k, req0, hk, rfl, hp, hv⟩
      · cases h
    · cases h

/-- A line parses to a request, as a test. -/
def parsesTo (b : Bool) (l : Str) (req : Request) : Bool :=
  match parseRequest b l with
  | .request r => decide (r = req)
  | _ => false

theorem parsesTo_sound {b : Bool} {l : Str} {req : Request} (h : parsesTo b l req = true) :
    parseRequest b l = .request req := by
  simp only [parsesTo] at h
  split at h
  · rename_i r hr; rw [hr, of_decide_eq_true h]
  · cases h

/-- Runs in which everyone follows the rules. -/
abbrev FineRun : Srv → Prop :=
  ReachableWith (fun c => GoodConf c ∧ TidyConf c) (fun s e => PoliteEvent s e ∧ TidyEvent s e)

theorem ReachableWith.mono {C D : Conf → Prop} {P Q : Srv → Event → Prop} (hC : ∀ c, C c → D c)
    (hP : ∀ s e, P s e → Q s e) {s : Srv} (h : ReachableWith C P s) : ReachableWith D Q s := by
  induction h with
  | init conf host now hc => exact .init conf host now (hC _ hc)
  | step e _ hf hp ih => exact .step e ih hf (hP _ _ hp)

end Spec

namespace Sample
open Spec

/-- One more event in a run in which everyone follows the rules. -/
theorem fine_step {s : Srv} (h : FineRun s) (e : Event) (hf : s.fault = false ∧ fineB s e = true) :
    FineRun (step s e) := .step e h hf.1 (fineB_sound hf.2)

theorem fine_lines {s : Srv} (h : FineRun s) (i : Nat) (ls : List String)
    (hf : ∀ n, n < ls.length → (lines s i (ls.take n)).fault = false ∧
      fineB (lines s i (ls.take n)) (.line i 7 (ls.getD n "").toList) = true) :
    FineRun (lines s i ls) := by
  induction ls generalizing s with
  | nil => exact h
  | cons l ls ih =>
    have h0 := hf 0 (by simp)
    refine ih (fine_step h _ h0) ?_
    intro n hn
    exact hf (n + 1) (by simpa using hn)

theorem fine_s0 : FineRun s0 := .init _ _ _ (by decide +kernel)
theorem fine_s1 : FineRun s1 := fine_step fine_s0 _ (by decide +kernel)
theorem fine_s2 : FineRun s2 := fine_lines fine_s1 _ _ (by decide +kernel)
theorem fine_s3 : FineRun s3 :=
  fine_lines (fine_step fine_s2 _ (by decide +kernel)) _ _ (by decide +kernel)
theorem fine_s4 : FineRun s4 :=
  fine_lines (fine_lines fine_s3 _ _ (by decide +kernel)) _ _ (by decide +kernel)
theorem fine_s5 : FineRun s5 :=
  fine_lines (fine_step fine_s4 _ (by decide +kernel)) _ _ (by decide +kernel)

end Sample
end Ngircd
