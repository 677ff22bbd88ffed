import Verif.Model.Signals
import Verif.Spec.Signals

/-!
# C97: signals

A process with a signal mask, pending signals and nested handlers (`Model/Signals`, src/ngircd/sighandlers.c).
The property quantifies over every interleaving of sent signals, deliveries, handlers and the main program.
-/

namespace Ngircd
open Ngircd.Spec

theorem SigState.run_cons (x : SigState) (e : SigEvent) (es : List SigEvent) :
    x.run (e :: es) = (x.step e).run es := rfl

theorem SigState.run_append (x : SigState) (es fs : List SigEvent) :
    x.run (es ++ fs) = (x.run es).run fs := by
  unfold SigState.run; rw [List.foldl_append]

/-! ## The mask -/

/-- The mask blocks exactly the signals whose handlers run. -/
def MaskOk : (Sig → Bool) → List HFrame → Prop
  | m, [] => ∀ t, m t = false
  | m, f :: fs => (∀ t, m t = (decide (t = f.sig) || f.saved t)) ∧ f.saved f.sig = false ∧ MaskOk f.saved fs

theorem maskOk_at {m : Sig → Bool} {f : HFrame} {fs : List HFrame} (a : HandlerAt)
    (h : MaskOk m (f :: fs)) : MaskOk m ({ f with at_ := a } :: fs) := h

theorem maskOk_step {x : SigState} (e : SigEvent) (h : MaskOk x.mask x.frames) :
    MaskOk (x.step e).mask (x.step e).frames := by
  cases e with
  | raise s => exact h
  | deliver s =>
    simp only [SigState.step, SigState.deliver]
    split
    · rename_i hc
      simp only [Bool.and_eq_true, Bool.not_eq_true'] at hc
      refine ⟨fun t => ?_, hc.2, h⟩
      simp only [setSig]
      split <;> simp [*]
    · exact h
  | handler =>
    simp only [SigState.step, SigState.handler]
    cases hf : x.frames with
    | nil => simp only; rw [hf] at h ⊢; exact h
    | cons f fs =>
      rw [hf] at h
      cases ha : f.at_ with
      | start =>
        simp only [ha, SigState.handle]
        (repeat' split) <;> exact maskOk_at _ h
      | wrote =>
        simp only [ha]
        refine ⟨fun t => ?_, h.2⟩
        have := h.1 t
        simp only [setSig]
        split
        · rename_i e; simp [e]
        · exact this
      | leave => simp only [ha]; exact h.2.2
  | main =>
    simp only [SigState.step, SigState.mainStep]
    split
    · rename_i he
      have hf : x.frames = [] := List.isEmpty_iff.mp he
      rw [hf] at h
      (repeat' split)
      · rw [hf]; exact h
      · rw [hf]; exact h
      · rw [hf]; exact h
      · rw [hf]; exact h
      · rw [hf]
        intro t
        simp only [setSig]
        split
        · rfl
        · exact h t
    · exact h

theorem maskOk_run {x : SigState} (es : List SigEvent) (h : MaskOk x.mask x.frames) :
    MaskOk (x.run es).mask (x.run es).frames := by
  induction es generalizing x with
  | nil => exact h
  | cons e es ih => exact ih (maskOk_step e h)

theorem maskOk_iff {m : Sig → Bool} {fs : List HFrame} (h : MaskOk m fs) (s : Sig) :
    m s = true ↔ ∃ f ∈ fs, f.sig = s := by
  induction fs generalizing m with
  | nil => simp [h s]
  | cons f fs ih =>
    rw [h.1 s, Bool.or_eq_true, ih h.2.2, decide_eq_true_eq]
    constructor
    · rintro (e | ⟨g, hg, e⟩)
      · exact ⟨f, List.mem_cons_self, e.symm⟩
      · exact ⟨g, List.mem_cons_of_mem _ hg, e⟩
    · rintro ⟨g, hg, e⟩
      rcases List.mem_cons.mp hg with rfl | hg
      · exact .inl e.symm
      · exact .inr ⟨g, hg, e⟩

theorem reachable_mask {x : SigState} (h : SigReachable x) : MaskOk x.mask x.frames := by
  obtain ⟨cap, d, es, rfl⟩ := h
  exact maskOk_run es (fun _ => rfl)

/-- C97: a signal is blocked exactly while its own handler runs: whatever the handlers and the callback do
with the mask, no signal — SIGTERM above all — stays blocked. -/
theorem C97_mask (x : SigState) (h : SigReachable x) (s : Sig) :
    x.mask s = true ↔ ∃ f ∈ x.frames, f.sig = s := maskOk_iff (reachable_mask h) s

/-! ## Everything comes to an end -/

/-- What is left to do. -/
def sigWork (x : SigState) : Nat :=
  8 * ((x.pending .int).toNat + (x.pending .quit).toNat + (x.pending .term).toNat + (x.pending .hup).toNat +
    (x.pending .chld).toNat + (x.pending .usr1).toNat + (x.pending .usr2).toNat) +
  (x.frames.map (fun f => match f.at_ with | .start => 7 | .wrote => 2 | .leave => 1)).sum +
  2 * x.pipe.length +
  (match x.main with | .elsewhere => if x.pipe.isEmpty then 0 else 2 | .reading => 1 | .handling _ => 2)

theorem work_deliver {x : SigState} {s : Sig} (h : x.pending s = true ∧ x.mask s = false) :
    sigWork (x.step (.deliver s)) < sigWork x := by
  simp only [SigState.step, SigState.deliver, h.1, h.2, Bool.not_false, Bool.and_self, if_true, sigWork]
  cases s <;> simp [setSig, h.1] <;> omega

theorem work_handler {x : SigState} (h : x.frames ≠ []) : sigWork (x.step .handler) < sigWork x := by
  simp only [SigState.step, SigState.handler]
  cases hf : x.frames with
  | nil => exact absurd hf h
  | cons f fs =>
    cases ha : f.at_ with
    | start =>
      simp only [ha, SigState.handle]
      (repeat' split) <;>
        simp only [sigWork, hf, List.map_cons, List.sum_cons, ha, List.length_append, List.length_cons, List.length_nil] <;>
        (repeat' split) <;> omega
    | wrote =>
      simp only [ha, sigWork, hf, List.map_cons, List.sum_cons]
      omega
    | leave =>
      simp only [ha, sigWork, hf, List.map_cons, List.sum_cons]
      omega

theorem work_main {x : SigState} (hf : x.frames = []) (h : x.main ≠ .elsewhere ∨ x.pipe ≠ []) :
    sigWork (x.step .main) < sigWork x := by
  simp only [SigState.step, SigState.mainStep, hf, List.isEmpty_nil, if_true]
  cases hm : x.main with
  | elsewhere =>
    have hp : x.pipe ≠ [] := h.resolve_left (fun e => e hm)
    have hp' : x.pipe.isEmpty = false := by cases hx : x.pipe <;> simp_all
    simp [hp', sigWork, hm]
    omega
  | reading =>
    cases hp : x.pipe with
    | nil => simp [sigWork, hm, hp]; omega
    | cons s r => simp [sigWork, hm, hp]; omega
  | handling s => simp [sigWork, hm]; omega

/-- C97: as soon as no more signals are sent, the process deals with all signals in a bounded number of
steps, whatever the order of deliveries, handlers and the main program: something can always go on until
everything is settled, and it never goes on for ever. -/
theorem C97_settles (x : SigState) (h : SigReachable x) :
    (∃ n, ∀ es, NoneSent es → AtWork x es → es.length ≤ n) ∧
    ∀ es, NoneSent es → (∀ e, (∀ s, e ≠ .raise s) → (x.run es).step e = x.run es) →
      Settled (x.run es) ∧ (x.run es).main = .elsewhere := by
  constructor
  · refine ⟨sigWork x, ?_⟩
    intro es
    clear h
    induction es generalizing x with
    | nil => intro _ _; exact Nat.zero_le _
    | cons e es ih =>
      intro hn hb
      have hlt : sigWork (x.step e) < sigWork x := by
        cases e with
        | raise s => exact absurd List.mem_cons_self (hn s)
        | deliver s =>
          refine work_deliver ?_
          have := hb.1
          simp only [SigState.step, SigState.deliver] at this
          split at this
          · rename_i hc
            simpa using hc
          · exact absurd rfl this
        | handler =>
          refine work_handler (fun e => ?_)
          have := hb.1
          simp [SigState.step, SigState.handler, e] at this
        | main =>
          have hw := hb.1
          by_cases hf : x.frames = []
          · refine work_main hf ?_
            by_cases hm : x.main = .elsewhere
            · refine .inr (fun hp => ?_)
              simp [SigState.step, SigState.mainStep, hf, hm, hp] at hw
            · exact .inl hm
          · have : x.frames.isEmpty = false := by cases hx : x.frames <;> simp_all
            simp [SigState.step, SigState.mainStep, this] at hw
      have := ih (x.step e) (fun s hs => hn s (List.mem_cons_of_mem _ hs)) hb.2
      simp only [List.length_cons]
      omega
  · intro es _ hstop
    have hm := maskOk_run es (reachable_mask h)
    generalize x.run es = y at hstop hm
    have hf : y.frames = [] := by
      refine Classical.byContradiction fun hf => ?_
      have := work_handler hf
      rw [hstop .handler (fun s => by simp)] at this
      exact Nat.lt_irrefl _ this
    have hp : y.main = .elsewhere ∧ y.pipe = [] := by
      have hx : ¬ (y.main ≠ .elsewhere ∨ y.pipe ≠ []) := by
        intro hx
        have := work_main hf hx
        rw [hstop .main (fun s => by simp)] at this
        exact Nat.lt_irrefl _ this
      exact ⟨Classical.byContradiction fun e => hx (.inl e), Classical.byContradiction fun e => hx (.inr e)⟩
    refine ⟨⟨?_, hf, hp.2⟩, hp.1⟩
    intro s
    rw [hf] at hm
    refine Classical.byContradiction fun e => ?_
    have e : y.pending s = true := by simpa using e
    have := work_deliver (x := y) (s := s) ⟨e, hm s⟩
    rw [hstop (.deliver s) (fun s => by simp)] at this
    exact Nat.lt_irrefl _ this

/-! ## No request is lost while the pipe has room -/

/-- The signals that are queued. -/
def Queued (s : Sig) : Prop := s = .hup ∨ s = .usr2

instance (s : Sig) : Decidable (Queued s) := by unfold Queued; infer_instance

/-- Something is still to be done for `s`, or more than `n` entries with `p` are done. -/
def Owed (p : Sig × Bool → Bool) (s : Sig) (n : Nat) (x : SigState) : Prop :=
  n < x.done.countP p ∨ x.pending s = true ∨ (∃ f ∈ x.frames, f.sig = s ∧ f.at_ = .start) ∨ s ∈ x.pipe

theorem owed_step {p : Sig × Bool → Bool} {s : Sig} {n : Nat} {x : SigState} (e : SigEvent) (hq : Queued s)
    (hp : p (s, x.debug) = true) (hn : n ≤ x.done.countP p) 
    (hr : (∃ f ∈ x.frames, f.sig = s ∧ f.at_ = .start) → x.pipe.length < x.cap) (h : Owed p s n x) :
    Owed p s n (x.step e) := by
  cases e with
  | raise t =>
    rcases h with h | h | h | h
    · exact .inl h
    · refine .inr (.inl ?_)
      simp only [SigState.step, SigState.raise, setSig]
      split
      · rfl
      · exact h
    · exact .inr (.inr (.inl h))
    · exact .inr (.inr (.inr h))
  | deliver t =>
    simp only [SigState.step, SigState.deliver]
    split
    · rename_i hc
      rcases h with h | h | ⟨f, hf, h⟩ | h
      · exact .inl h
      · by_cases e : s = t
        · exact .inr (.inr (.inl ⟨_, List.mem_cons_self, e.symm, rfl⟩))
        · refine .inr (.inl ?_)
          simp only [setSig, if_neg e]
          exact h
      · exact .inr (.inr (.inl ⟨f, List.mem_cons_of_mem _ hf, h⟩))
      · exact .inr (.inr (.inr h))
    · exact h
  | handler =>
    simp only [SigState.step, SigState.handler]
    cases hf : x.frames with
    | nil => exact h
    | cons f fs =>
      have keep : f.at_ ≠ .start ∨ f.sig ≠ s → ∀ (y : SigState), (∃ a, y.frames = { f with at_ := a } :: fs) ∨ y.frames = fs →
          y.done = x.done → y.pending = x.pending → (∀ t, t ∈ x.pipe → t ∈ y.pipe) → Owed p s n y := by
        intro hne y hy hd hpd hpi
        rcases h with h | h | ⟨g, hg, h1, h2⟩ | h
        · left; rw [hd]; exact h
        · right; left; rw [hpd]; exact h
        · rw [hf] at hg
          rcases List.mem_cons.mp hg with rfl | hg
          · exact absurd hne (by rintro (a | a); exact a h2; exact a h1)
          · refine .inr (.inr (.inl ⟨g, ?_, h1, h2⟩))
            rcases hy with ⟨a, hy⟩ | hy <;> rw [hy]
            · exact List.mem_cons_of_mem _ hg
            · exact hg
        · exact .inr (.inr (.inr (hpi s h)))
      cases ha : f.at_ with
      | wrote =>
        simp only [ha]
        exact keep (.inl (by rw [ha]; simp)) _ (.inl ⟨_, rfl⟩) rfl rfl (fun _ h => h)
      | leave =>
        simp only [ha]
        exact keep (.inl (by rw [ha]; simp)) _ (.inr rfl) rfl rfl (fun _ h => h)
      | start =>
        simp only [ha]
        by_cases hs : f.sig = s
        · have : f.sig = .hup ∨ f.sig = .usr2 := by rw [hs]; exact hq
          have hr := hr ⟨f, by rw [hf]; exact List.mem_cons_self, hs, ha⟩
          refine .inr (.inr (.inr ?_))
          rcases this with e | e <;> simp only [SigState.handle, e, if_pos hr] <;> simp [← hs, e]
        · simp only [SigState.handle]
          (repeat' split) <;>
            refine keep (.inr hs) _ (.inl ⟨_, rfl⟩) rfl rfl (fun _ h => ?_) <;>
            first
            | exact h
            | exact List.mem_append_left _ h
  | main =>
    simp only [SigState.step, SigState.mainStep]
    split
    · split
      · split <;> exact h
      · split
        · exact h
        · rename_i t rest hpi
          rcases h with h | h | h | h
          · left
            rw [List.countP_cons]
            omega
          · exact .inr (.inl h)
          · exact .inr (.inr (.inl h))
          · rw [hpi] at h
            rcases List.mem_cons.mp h with rfl | h
            · left
              rw [List.countP_cons, hp]
              simp
              omega
            · exact .inr (.inr (.inr h))
      · exact h
    · exact h

theorem done_step (p : Sig × Bool → Bool) (x : SigState) (e : SigEvent) :
    x.done.countP p ≤ (x.step e).done.countP p := by
  cases e with
  | raise s => exact Nat.le_refl _
  | deliver s => simp only [SigState.step, SigState.deliver]; split <;> exact Nat.le_refl _
  | handler =>
    simp only [SigState.step, SigState.handler, SigState.handle]
    (repeat' split) <;> exact Nat.le_refl _
  | main =>
    simp only [SigState.step, SigState.mainStep]
    (repeat' split) <;> first | exact Nat.le_refl _ | (simp only [List.countP_cons]; omega)

theorem cap_step (x : SigState) (e : SigEvent) : (x.step e).cap = x.cap := by
  cases e with
  | raise s => rfl
  | deliver s => simp only [SigState.step, SigState.deliver]; split <;> rfl
  | handler =>
    simp only [SigState.step, SigState.handler, SigState.handle]
    (repeat' split) <;> rfl
  | main =>
    simp only [SigState.step, SigState.mainStep]
    (repeat' split) <;> rfl

/-- How many entries of the pipe are in use or could come to be. -/
def sigLoad (x : SigState) : Nat :=
  x.pipe.length + x.frames.countP (fun f => decide (Queued f.sig ∧ f.at_ = .start)) +
    (x.pending .hup).toNat + (x.pending .usr2).toNat

theorem load_step (x : SigState) (e : SigEvent) :
    sigLoad (x.step e) ≤ sigLoad x + sent .hup [e] + sent .usr2 [e] := by
  cases e with
  | raise s =>
    have hb := Bool.toNat_le (x.pending .hup)
    have hb := Bool.toNat_le (x.pending .usr2)
    simp only [SigState.step, SigState.raise, sigLoad, setSig]
    cases s <;> simp [sent] <;> omega
  | deliver s =>
    simp only [SigState.step, SigState.deliver]
    split
    · rename_i hc
      have hc : x.pending s = true := by simp at hc; exact hc.1
      simp only [sigLoad, List.countP_cons, setSig]
      cases s <;> simp [sent, Queued, hc] <;> omega
    · omega
  | handler =>
    simp only [SigState.step, SigState.handler]
    cases hf : x.frames with
    | nil => simp only; omega
    | cons f fs =>
      cases ha : f.at_ with
      | start =>
        simp only [ha, SigState.handle]
        have hq : ∀ q : f.sig = .hup ∨ f.sig = .usr2, Queued f.sig := fun q => q
        split
        all_goals simp only [sigLoad, hf, List.countP_cons, ha]
        all_goals try (simp [Queued, *]; omega)
        all_goals
          split <;> simp [Queued, hf, List.countP_cons, ha, *] <;> omega
      | wrote =>
        simp only [ha, sigLoad, hf, List.countP_cons]
        simp
        omega
      | leave =>
        simp only [ha, sigLoad, hf, List.countP_cons]
        omega
  | main =>
    simp only [SigState.step, SigState.mainStep]
    (repeat' split) <;> simp only [sigLoad] <;> first | omega | skip
    rename_i s rest hp
    rw [hp]
    simp only [List.length_cons]
    omega

theorem sent_cons (s : Sig) (e : SigEvent) (es : List SigEvent) : sent s (e :: es) = sent s [e] + sent s es := by
  simp only [sent, List.countP_cons, List.countP_nil]
  omega

theorem sent_append (s : Sig) (es fs : List SigEvent) : sent s (es ++ fs) = sent s es + sent s fs := by
  simp only [sent, List.countP_append]

/-- While no more signals are sent than the pipe has room for, what is owed stays owed. -/
theorem owed_run {p : Sig × Bool → Bool} {s : Sig} {n : Nat} (hq : Queued s) (es : List SigEvent) {x : SigState}
    (hl : sigLoad x + sent .hup es + sent .usr2 es ≤ x.cap)
    (hp : ∀ k, p (s, (x.run (es.take k)).debug) = true) (hn : n ≤ x.done.countP p) (h : Owed p s n x) :
    Owed p s n (x.run es) := by
  induction es generalizing x with
  | nil => exact h
  | cons e es ih =>
    have h1 := sent_cons .hup e es
    have h2 := sent_cons .usr2 e es
    have h3 := load_step x e
    have h4 := cap_step x e
    have h5 := done_step p x e
    refine ih (by omega) (fun k => hp (k + 1)) (by omega) (owed_step e hq (hp 0) hn ?_ h)
    rintro ⟨f, hf, hs, ha⟩
    have : 0 < x.frames.countP (fun f => decide (Queued f.sig ∧ f.at_ = .start)) :=
      List.countP_pos_iff.mpr ⟨f, hf, by simp [hs, ha, hq]⟩
    unfold sigLoad at hl
    omega

theorem load_settled {x : SigState} (h : Settled x) : sigLoad x = 0 := by
  unfold sigLoad; rw [h.1, h.1, h.2.1, h.2.2]; rfl

theorem owed_settled {p : Sig × Bool → Bool} {s : Sig} {n : Nat} {x : SigState} (h : Settled x)
    (ho : Owed p s n x) : n < x.done.countP p := by
  rcases ho with h' | h' | ⟨f, h', _⟩ | h'
  · exact h'
  · rw [h.1] at h'; cases h'
  · rw [h.2.1] at h'; cases h'
  · rw [h.2.2] at h'; cases h'

theorem load_run (x : SigState) (es : List SigEvent) :
    sigLoad (x.run es) ≤ sigLoad x + sent .hup es + sent .usr2 es ∧ (x.run es).cap = x.cap := by
  induction es generalizing x with
  | nil => exact ⟨Nat.le_refl _, rfl⟩
  | cons e es ih =>
    have h1 := sent_cons .hup e es
    have h2 := sent_cons .usr2 e es
    have h3 := load_step x e
    have h4 := cap_step x e
    have := ih (x.step e)
    rw [SigState.run_cons]
    exact ⟨by omega, this.2.trans h4⟩

theorem answered {p : Sig × Bool → Bool} {s : Sig} (hq : Queued s) {x : SigState} {es fs : List SigEvent}
    (hx : Settled x) (hl : sent .hup (es ++ .raise s :: fs) + sent .usr2 (es ++ .raise s :: fs) ≤ x.cap)
    (hp : ∀ k, p (s, (x.run ((es ++ .raise s :: fs).take k)).debug) = true)
    (hy : Settled (x.run (es ++ .raise s :: fs))) :
    (x.run es).done.countP p < (x.run (es ++ .raise s :: fs)).done.countP p := by
  refine owed_settled (s := s) hy ?_
  have h0 := load_settled hx
  have h1 := load_run x es
  have h2 := sent_append .hup es (.raise s :: fs)
  have h3 := sent_append .usr2 es (.raise s :: fs)
  have h4 := sent_cons .hup (.raise s) fs
  have h5 := sent_cons .usr2 (.raise s) fs
  have h6 := load_step (x.run es) (.raise s)
  rw [SigState.run_append, SigState.run_cons]
  refine owed_run hq fs ?_ ?_ (done_step p _ _) (.inr (.inl ?_))
  · rw [cap_step, h1.2]
    omega
  · intro k
    have := hp (es.length + (k + 1))
    rw [List.take_length_add_append, SigState.run_append, List.take_succ_cons, SigState.run_cons] at this
    exact this
  · simp [SigState.step, SigState.raise, setSig]

/-- C97: a SIGHUP is never lost as long as no more signals are sent than the pipe holds: when everything
is settled again, the configuration has been read again after the signal was sent. -/
theorem C97_rehash (x : SigState) (es fs : List SigEvent) (hx : Settled x)
    (hl : sent .hup (es ++ .raise .hup :: fs) + sent .usr2 (es ++ .raise .hup :: fs) ≤ x.cap)
    (hy : Settled (x.run (es ++ .raise .hup :: fs))) :
    rehashes (x.run es) < rehashes (x.run (es ++ .raise .hup :: fs)) :=
  answered (.inl rfl) hx hl (fun _ => rfl) hy

/-! ## Nothing happens without a signal -/

/-- What is left of the signal `s`. -/
def sigLeft (s : Sig) (x : SigState) : Nat :=
  (x.pending s).toNat + x.frames.countP (fun f => decide (f.sig = s ∧ f.at_ = .start)) +
    x.pipe.countP (fun t => decide (t = s)) + x.done.countP (fun d => decide (d.1 = s))

theorem left_step (s : Sig) (x : SigState) (e : SigEvent) :
    sigLeft s (x.step e) ≤ sigLeft s x + sent s [e] := by
  cases e with
  | raise t =>
    have hb := Bool.toNat_le (x.pending s)
    simp only [SigState.step, SigState.raise, sigLeft, setSig]
    by_cases h : s = t <;> simp [sent, h] <;> omega
  | deliver t =>
    simp only [SigState.step, SigState.deliver]
    split
    · rename_i hc
      have hc : x.pending t = true := by simp at hc; exact hc.1
      simp only [sigLeft, List.countP_cons, setSig]
      by_cases h : s = t
      · subst h; simp [sent, hc]; omega
      · have h' : ¬ t = s := fun e => h e.symm
        simp [sent, h, h']
    · omega
  | handler =>
    simp only [SigState.step, SigState.handler]
    cases hf : x.frames with
    | nil => simp only; omega
    | cons f fs =>
      cases ha : f.at_ with
      | start =>
        simp only [ha, SigState.handle]
        (repeat' split) <;> simp only [sigLeft, hf, List.countP_cons, ha, List.countP_append, List.countP_nil] <;>
          by_cases h : f.sig = s <;> simp [h] <;> omega
      | wrote =>
        simp only [ha, sigLeft, hf, List.countP_cons]
        simp
      | leave =>
        simp only [ha, sigLeft, hf, List.countP_cons]
        omega
  | main =>
    simp only [SigState.step, SigState.mainStep]
    (repeat' split) <;> simp only [sigLeft] <;> first | omega | skip
    rename_i t rest hp
    rw [hp]
    simp only [List.countP_cons]
    by_cases h : t = s <;> simp [h] <;> omega

theorem left_run (s : Sig) (x : SigState) (es : List SigEvent) :
    sigLeft s (x.run es) ≤ sigLeft s x + sent s es := by
  induction es generalizing x with
  | nil => exact Nat.le_refl _
  | cons e es ih =>
    have h1 := sent_cons s e es
    have h2 := left_step s x e
    have := ih (x.step e)
    rw [SigState.run_cons]
    omega

/-- C97: the configuration is read again, and the state dumped, at most as often as SIGHUP, and SIGUSR2,
were sent. -/
theorem C97_asked (cap : Nat) (debug : Bool) (es : List SigEvent) :
    rehashes ((SigState.init cap debug).run es) ≤ sent .hup es ∧
    dumps ((SigState.init cap debug).run es) ≤ sent .usr2 es := by
  constructor
  · have := left_run .hup (SigState.init cap debug) es
    have h0 : sigLeft .hup (SigState.init cap debug) = 0 := rfl
    unfold rehashes
    unfold sigLeft at this h0
    omega
  · have := left_run .usr2 (SigState.init cap debug) es
    have h0 : sigLeft .usr2 (SigState.init cap debug) = 0 := rfl
    have hm : dumps ((SigState.init cap debug).run es) ≤
        ((SigState.init cap debug).run es).done.countP (fun d => decide (d.1 = Sig.usr2)) :=
      List.countP_mono_left (fun d _ h => by simp at h; simpa using h.1)
    unfold sigLeft at this h0
    omega

/-! ## Quitting -/

theorem quit_step {s : Sig} (hs : Ends s) {x : SigState} (e : SigEvent)
    (h : x.quit = true ∨ x.pending s = true ∨ ∃ f ∈ x.frames, f.sig = s ∧ f.at_ = .start) :
    (x.step e).quit = true ∨ (x.step e).pending s = true ∨ ∃ f ∈ (x.step e).frames, f.sig = s ∧ f.at_ = .start := by
  cases e with
  | raise t =>
    rcases h with h | h | h
    · exact .inl h
    · refine .inr (.inl ?_)
      simp only [SigState.step, SigState.raise, setSig]
      split
      · rfl
      · exact h
    · exact .inr (.inr h)
  | deliver t =>
    simp only [SigState.step, SigState.deliver]
    split
    · rcases h with h | h | ⟨f, hf, h⟩
      · exact .inl h
      · by_cases e : s = t
        · exact .inr (.inr ⟨_, List.mem_cons_self, e.symm, rfl⟩)
        · refine .inr (.inl ?_)
          simp only [setSig, if_neg e]
          exact h
      · exact .inr (.inr ⟨f, List.mem_cons_of_mem _ hf, h⟩)
    · exact h
  | handler =>
    simp only [SigState.step, SigState.handler]
    cases hf : x.frames with
    | nil => simp only; exact h
    | cons f fs =>
      have hrest : ∀ g ∈ fs, g.sig = s ∧ g.at_ = .start → ∀ (a : HandlerAt),
          ∃ g ∈ ({ f with at_ := a } : HFrame) :: fs, g.sig = s ∧ g.at_ = .start :=
        fun g hg h _ => ⟨g, List.mem_cons_of_mem _ hg, h⟩
      rw [hf] at h
      rcases h with h | h | ⟨g, hg, h1, h2⟩
      · cases ha : f.at_ with
        | start => simp only [ha, SigState.handle]; (repeat' split) <;> first | exact .inl rfl | exact .inl h
        | wrote => simp only [ha]; exact .inl h
        | leave => simp only [ha]; exact .inl h
      · cases ha : f.at_ with
        | start => simp only [ha, SigState.handle]; (repeat' split) <;> exact .inr (.inl h)
        | wrote => simp only [ha]; exact .inr (.inl h)
        | leave => simp only [ha]; exact .inr (.inl h)
      · rcases List.mem_cons.mp hg with rfl | hg
        · simp only [h2, SigState.handle]
          rcases hs with rfl | rfl | rfl <;> simp [h1]
        · cases ha : f.at_ with
          | start =>
            simp only [ha, SigState.handle]
            (repeat' split) <;> exact .inr (.inr (hrest g hg ⟨h1, h2⟩ _))
          | wrote => simp only [ha]; exact .inr (.inr (hrest g hg ⟨h1, h2⟩ _))
          | leave => simp only [ha]; exact .inr (.inr ⟨g, hg, h1, h2⟩)
  | main =>
    simp only [SigState.step, SigState.mainStep]
    (repeat' split) <;> exact h

theorem quit_run {s : Sig} (hs : Ends s) (es : List SigEvent) {x : SigState}
    (h : x.quit = true ∨ x.pending s = true ∨ ∃ f ∈ x.frames, f.sig = s ∧ f.at_ = .start) :
    (x.run es).quit = true ∨ (x.run es).pending s = true ∨ ∃ f ∈ (x.run es).frames, f.sig = s ∧ f.at_ = .start := by
  induction es generalizing x with
  | nil => exact h
  | cons e es ih => exact ih (quit_step hs e h)

/-- C97: after SIGTERM, SIGINT or SIGQUIT the server is told to quit, whatever else happens. -/
theorem C97_quit (x : SigState) (es fs : List SigEvent) (s : Sig) (hs : Ends s)
    (hy : Settled (x.run (es ++ .raise s :: fs))) : (x.run (es ++ .raise s :: fs)).quit = true := by
  have := quit_run hs fs (x := (x.run es).step (.raise s)) (.inr (.inl (by simp [SigState.step, SigState.raise, setSig])))
  rw [SigState.run_append, SigState.run_cons] at hy ⊢
  rcases this with h | h | ⟨f, h, _⟩
  · exact h
  · rw [hy.1] at h; cases h
  · rw [hy.2.1] at h; cases h

/-- Nothing of the signals that end the server is there. -/
def NoEnd (x : SigState) : Prop :=
  x.quit = false ∧ (∀ s, Ends s → x.pending s = false) ∧ ∀ f ∈ x.frames, Ends f.sig → f.at_ ≠ .start

theorem noEnd_step {x : SigState} {e : SigEvent} (he : ∀ s, Ends s → e ≠ .raise s) (h : NoEnd x) :
    NoEnd (x.step e) := by
  obtain ⟨h1, h2, h3⟩ := h
  cases e with
  | raise t =>
    refine ⟨h1, fun s hs => ?_, h3⟩
    simp only [SigState.step, SigState.raise, setSig]
    rw [if_neg (fun e => he s hs (by rw [e]))]
    exact h2 s hs
  | deliver t =>
    simp only [SigState.step, SigState.deliver]
    split
    · rename_i hc
      have hc : x.pending t = true := by simp at hc; exact hc.1
      refine ⟨h1, fun s hs => ?_, ?_⟩
      · simp only [setSig]
        split
        · rfl
        · exact h2 s hs
      · intro f hf hs
        rcases List.mem_cons.mp hf with rfl | hf
        · have := h2 t hs
          rw [hc] at this
          cases this
        · exact h3 f hf hs
    · exact ⟨h1, h2, h3⟩
  | handler =>
    simp only [SigState.step, SigState.handler]
    cases hf : x.frames with
    | nil => simp only; exact ⟨h1, h2, h3⟩
    | cons f fs =>
      rw [hf] at h3
      have hcons : ∀ a : HandlerAt, a ≠ .start → ∀ g ∈ ({ f with at_ := a } : HFrame) :: fs, Ends g.sig → g.at_ ≠ .start := by
        intro a ha g hg hs
        rcases List.mem_cons.mp hg with rfl | hg
        · exact ha
        · exact h3 g (List.mem_cons_of_mem _ hg) hs
      cases ha : f.at_ with
      | start =>
        have hne : ¬ Ends f.sig := fun hs => h3 f List.mem_cons_self hs ha
        simp only [ha, SigState.handle]
        (repeat' split) <;> first
          | exact ⟨h1, h2, hcons _ (by simp)⟩
          | (rename_i e; exact absurd (by rw [e]; simp [Ends]) hne)
      | wrote => simp only [ha]; exact ⟨h1, h2, hcons _ (by simp)⟩
      | leave => simp only [ha]; exact ⟨h1, h2, fun g hg => h3 g (List.mem_cons_of_mem _ hg)⟩
  | main =>
    simp only [SigState.step, SigState.mainStep]
    (repeat' split) <;> exact ⟨h1, h2, h3⟩

/-- C97: without one of these signals nothing tells the server to quit. -/
theorem C97_goes_on (cap : Nat) (debug : Bool) (es : List SigEvent)
    (h : ∀ s, Ends s → SigEvent.raise s ∉ es) : ((SigState.init cap debug).run es).quit = false := by
  have key : ∀ (x : SigState), NoEnd x → NoEnd (x.run es) := by
    induction es with
    | nil => exact fun x hx => hx
    | cons e es ih =>
      intro x hx
      exact ih (fun s hs hm => h s hs (List.mem_cons_of_mem _ hm)) _
        (noEnd_step (fun s hs e => h s hs (by rw [e]; exact List.mem_cons_self)) hx)
  exact (key _ ⟨rfl, fun _ _ => rfl, fun f hf => by cases hf⟩).1

/-! ## The debug mode -/

/-- How often the debug mode has to be, or was, changed. -/
def sigToggles (d : Bool) (x : SigState) : Nat :=
  (x.debug != d).toNat + (x.pending .usr1).toNat + x.frames.countP (fun f => decide (f.sig = .usr1 ∧ f.at_ = .start))

theorem toggles_step (d : Bool) {x : SigState} (e : SigEvent) (h : sigToggles d x + sent .usr1 [e] ≤ 1) :
    sigToggles d (x.step e) = sigToggles d x + sent .usr1 [e] := by
  cases e with
  | raise t =>
    simp only [SigState.step, SigState.raise, sigToggles, setSig] at h ⊢
    by_cases ht : Sig.usr1 = t
    · subst ht
      cases hx : x.pending .usr1
      · simp [sent, hx] at h ⊢
        omega
      · simp [sent, hx] at h
    · have ht' : ¬ t = .usr1 := fun e => ht e.symm
      simp [sent, ht, ht']
  | deliver t =>
    simp only [SigState.step, SigState.deliver]
    split
    · rename_i hc
      have hc : x.pending t = true := by simp at hc; exact hc.1
      simp only [sigToggles, List.countP_cons, setSig]
      by_cases ht : Sig.usr1 = t
      · subst ht; simp [sent, hc]; omega
      · have ht' : ¬ t = .usr1 := fun e => ht e.symm
        simp [sent, ht, ht']
    · rfl
  | handler =>
    simp only [SigState.step, SigState.handler]
    cases hf : x.frames with
    | nil => rfl
    | cons f fs =>
      simp only [sigToggles, hf, List.countP_cons] at h
      cases ha : f.at_ with
      | start =>
        by_cases hu : f.sig = .usr1
        · simp only [ha, SigState.handle, hu, sigToggles, hf, List.countP_cons]
          simp [ha, hu, sent] at h ⊢
          have hd : (x.debug != d) = false := by
            cases hx : (x.debug != d)
            · rfl
            · rw [hx] at h; simp at h; omega
          have hd' : ((!x.debug) != d) = true := by
            revert hd; cases x.debug <;> cases d <;> simp
          have hx : (!x.debug) = !x.debug := rfl
          revert hd hd'
          cases x.debug <;> cases d <;> simp <;> omega
        · simp only [ha, SigState.handle]
          (repeat' split) <;> simp [sigToggles, hf, ha, sent, *] <;> first | contradiction | omega
      | wrote =>
        simp only [ha, sigToggles, hf, List.countP_cons]
        simp [sent]
      | leave =>
        simp only [ha, sigToggles, hf, List.countP_cons]
        simp [sent]
  | main =>
    simp only [SigState.step, SigState.mainStep]
    (repeat' split) <;> rfl

theorem toggles_run (d : Bool) (es : List SigEvent) {x : SigState} (h : sigToggles d x + sent .usr1 es ≤ 1) :
    sigToggles d (x.run es) = sigToggles d x + sent .usr1 es := by
  induction es generalizing x with
  | nil => rfl
  | cons e es ih =>
    have h1 := sent_cons .usr1 e es
    have h2 := toggles_step d (x := x) e (by omega)
    rw [SigState.run_cons, ih (by omega)]
    omega

/-- C97: one SIGUSR1 changes the debug mode, and without one it stays as it is. -/
theorem C97_debug (x : SigState) (es : List SigEvent) (hx : Settled x) (h : sent .usr1 es ≤ 1)
    (hy : Settled (x.run es)) : (x.run es).debug = (x.debug != decide (sent .usr1 es = 1)) := by
  have h0 : sigToggles x.debug x = 0 := by
    unfold sigToggles; rw [hx.1, hx.2.1]; simp
  have := toggles_run x.debug es (x := x) (by omega)
  rw [h0] at this
  unfold sigToggles at this
  rw [hy.1, hy.2.1] at this
  simp at this
  rcases Nat.le_one_iff_eq_zero_or_eq_one.mp h with e | e
  · rw [e] at this ⊢
    revert this
    cases (x.run es).debug <;> cases x.debug <;> simp
  · rw [e] at this ⊢
    revert this
    cases (x.run es).debug <;> cases x.debug <;> simp

/-- C97: in the debug mode a SIGUSR2 is never lost either: the state is dumped. -/
theorem C97_dump (x : SigState) (es fs : List SigEvent) (hx : Settled x) (hd : x.debug = true)
    (hl : sent .hup (es ++ .raise .usr2 :: fs) + sent .usr2 (es ++ .raise .usr2 :: fs) ≤ x.cap)
    (h1 : sent .usr1 (es ++ .raise .usr2 :: fs) = 0) (hy : Settled (x.run (es ++ .raise .usr2 :: fs))) :
    dumps (x.run es) < dumps (x.run (es ++ .raise .usr2 :: fs)) := by
  refine answered (.inr rfl) hx hl (fun k => ?_) hy
  have h0 : sigToggles x.debug x = 0 := by
    unfold sigToggles; rw [hx.1, hx.2.1]; simp
  have hk : sent .usr1 ((es ++ .raise .usr2 :: fs).take k) = 0 := by
    have h2 := sent_append .usr1 ((es ++ .raise .usr2 :: fs).take k) ((es ++ .raise .usr2 :: fs).drop k)
    rw [List.take_append_drop, h1] at h2
    omega
  have := toggles_run x.debug ((es ++ .raise .usr2 :: fs).take k) (x := x) (by omega)
  rw [h0, hk] at this
  unfold sigToggles at this
  have hz : ((x.run ((es ++ .raise .usr2 :: fs).take k)).debug != x.debug).toNat = 0 := by omega
  rw [hd] at hz
  revert hz
  cases (x.run ((es ++ .raise .usr2 :: fs).take k)).debug <;> simp

/-! ## Concrete cases -/

/-- A server with room for 4 signals; SIGHUP comes, its handler is interrupted by SIGUSR2 between the
write and the return, then SIGTERM comes while the configuration is read. -/
def Sample.signals : List SigEvent :=
  [.raise .hup, .deliver .hup, .handler, .raise .usr2, .deliver .usr2, .handler, .handler, .handler, .handler,
    .handler, .main, .main, .raise .term, .deliver .term, .handler, .handler, .main, .main, .main, .main,
    .raise .usr1, .deliver .usr1, .handler, .handler]

theorem Sample.signals_facts :
    ((SigState.init 4 true).run Sample.signals).quit = true ∧
    ((SigState.init 4 true).run Sample.signals).debug = false ∧
    ((SigState.init 4 true).run Sample.signals).done = [(.usr2, true), (.hup, true)] ∧
    ((SigState.init 4 true).run Sample.signals).pipe = [] ∧
    ((SigState.init 4 true).run Sample.signals).frames.length = 0 ∧
    (∀ s, ((SigState.init 4 true).run Sample.signals).pending s = false) ∧
    ((SigState.init 4 true).run (Sample.signals.take 6)).frames.map (fun f => f.sig) = [.usr2, .hup] ∧
    ((SigState.init 4 true).run (Sample.signals.take 6)).pipe = [.hup, .usr2] := by
  refine ⟨by decide, by decide, by decide, by decide, by decide, ?_, by decide, by decide⟩
  intro s; cases s <;> decide

theorem Sample.signals_settled : Settled ((SigState.init 4 true).run Sample.signals) :=
  ⟨Sample.signals_facts.2.2.2.2.2.1, List.length_eq_zero_iff.mp Sample.signals_facts.2.2.2.2.1, Sample.signals_facts.2.2.2.1⟩

theorem Sample.init_settled : Settled (SigState.init 4 true) := ⟨fun _ => rfl, rfl, rfl⟩

/-- The hypotheses of C97_rehash, C97_quit and C97_debug meet. -/
example : rehashes (SigState.init 4 true) < rehashes ((SigState.init 4 true).run Sample.signals) :=
  C97_rehash (SigState.init 4 true) [] (Sample.signals.drop 1) Sample.init_settled (by decide) Sample.signals_settled

example : ((SigState.init 4 true).run Sample.signals).quit = true :=
  C97_quit (SigState.init 4 true) (Sample.signals.take 12) (Sample.signals.drop 13) .term (.inl rfl) Sample.signals_settled

example : ((SigState.init 4 true).run Sample.signals).debug = false :=
  C97_debug (SigState.init 4 true) Sample.signals Sample.init_settled (by decide) Sample.signals_settled

/-- C97_dump. -/
example : dumps ((SigState.init 4 true).run (Sample.signals.take 3)) < dumps ((SigState.init 4 true).run (Sample.signals.take 20)) := by
  refine C97_dump (SigState.init 4 true) (Sample.signals.take 3) ((Sample.signals.take 20).drop 4) Sample.init_settled rfl
    (by decide) (by decide) ⟨?_, ?_, ?_⟩
  · intro s; cases s <;> decide
  · exact List.length_eq_zero_iff.mp (by decide)
  · decide

/-- C97_mask and C97_settles: two nested handlers. -/
example : ((SigState.init 4 true).run (Sample.signals.take 6)).mask .hup = true :=
  (C97_mask _ ⟨4, true, Sample.signals.take 6, rfl⟩ .hup).mpr
    (List.mem_map.mp (by rw [Sample.signals_facts.2.2.2.2.2.2.1]; decide))

example : ∃ n, ∀ es, NoneSent es → AtWork ((SigState.init 4 true).run (Sample.signals.take 6)) es → es.length ≤ n :=
  (C97_settles _ ⟨4, true, Sample.signals.take 6, rfl⟩).1

/-- C97_goes_on: SIGHUP and SIGUSR2 do not end the server. -/
example : ((SigState.init 4 true).run (Sample.signals.take 12)).quit = false :=
  C97_goes_on 4 true _ (by intro s hs; rcases hs with rfl | rfl | rfl <;> decide)

/-! ## Where the claim fails -/

/-- C97, what the comment of `Signal_Handler` says: "It blocks the signal and queues it for later
execution": the signal is not blocked, since the return from the handler restores the mask.  So two
SIGHUPs are queued both, and the configuration is read twice. -/
theorem C97_violated_by_block : ∃ es : List SigEvent,
    ((SigState.init 4 false).run es).pipe = [.hup, .hup] ∧ ((SigState.init 4 false).run es).mask .hup = false ∧
    rehashes ((SigState.init 4 false).run (es ++ [.main, .main, .main, .main])) = 2 :=
  ⟨[.raise .hup, .deliver .hup, .handler, .handler, .handler, .raise .hup, .deliver .hup, .handler, .handler, .handler],
    by decide⟩

/-- The pipe is filled by `n` more SIGUSR2, each with its handler run to the end. -/
theorem fill_pipe (n : Nat) : ∀ x : SigState, (∀ s, x.pending s = false) → x.mask .usr2 = false → x.frames = [] →
    x.pipe.length + n ≤ x.cap →
    ∃ es, x.run es = { x with pipe := x.pipe ++ List.replicate n .usr2 } ∧ sent .hup es = 0 := by
  induction n with
  | zero => intro x _ _ _ _; exact ⟨[], by simp [SigState.run], rfl⟩
  | succ n ih =>
    intro x hp hm hf hc
    have hlt : x.pipe.length < x.cap := by omega
    have hset : ∀ t, setSig (setSig x.pending .usr2 true) .usr2 false t = x.pending t := by
      intro t; simp only [setSig]; split
      · rename_i e; rw [e, hp]
      · rfl
    have h5 : x.run [.raise .usr2, .deliver .usr2, .handler, .handler, .handler] = { x with pipe := x.pipe ++ [.usr2] } := by
      have hset' : setSig (setSig x.pending .usr2 true) .usr2 false = x.pending := funext hset
      have h1 : (x.step (.raise .usr2)).step (.deliver .usr2) = { x with frames := [⟨.usr2, .start, x.mask⟩], mask := setSig x.mask .usr2 true } := by
        simp only [SigState.step, SigState.raise, SigState.deliver, hm, hset', hf]
        simp [setSig]
      simp only [SigState.run, List.foldl_cons, List.foldl_nil, h1]
      simp only [SigState.step, SigState.handler, SigState.handle, hlt, if_true, hf]
    obtain ⟨es, he, hs⟩ := ih { x with pipe := x.pipe ++ [.usr2] } hp hm hf (by simp; omega)
    refine ⟨[.raise .usr2, .deliver .usr2, .handler, .handler, .handler] ++ es, ?_, ?_⟩
    · rw [SigState.run_append, h5, he]
      simp [List.replicate_succ]
    · rw [sent_append, hs]; decide

/-- C97 does not hold without a limit: as the signals are not blocked, enough SIGUSR2 while the main
program is busy fill the pipe, whatever its size, and a SIGHUP sent then is lost without a trace. -/
theorem C97_violated_by_full_pipe (cap : Nat) : ∃ es : List SigEvent,
    sent .hup es = 1 ∧ (∀ s, ((SigState.init cap false).run es).pending s = false) ∧
    ((SigState.init cap false).run es).frames = [] ∧ ((SigState.init cap false).run es).main = .elsewhere ∧
    .hup ∉ ((SigState.init cap false).run es).pipe ∧ rehashes ((SigState.init cap false).run es) = 0 := by
  obtain ⟨es, he, hs⟩ := fill_pipe cap (SigState.init cap false) (fun _ => rfl) rfl rfl (by simp [SigState.init])
  have hl : ¬ (List.replicate cap Sig.usr2).length < cap := by simp
  have hr : (SigState.init cap false).run (es ++ [.raise .hup, .deliver .hup, .handler, .handler]) =
      { SigState.init cap false with pending := setSig (setSig (fun _ => false) .hup true) .hup false, pipe := List.replicate cap .usr2 } := by
    rw [SigState.run_append, he]
    simp only [SigState.init, List.nil_append, SigState.run, List.foldl_cons, List.foldl_nil, SigState.step,
      SigState.raise, SigState.deliver]
    simp [setSig, SigState.handler, SigState.handle]
  refine ⟨es ++ [.raise .hup, .deliver .hup, .handler, .handler], ?_, ?_⟩
  · rw [sent_append, hs]; decide
  · rw [hr]
    refine ⟨?_, rfl, rfl, ?_, rfl⟩
    · intro s; simp only [setSig]; split
      · rfl
      · rfl
    · intro h
      have := List.eq_of_mem_replicate h
      cases this

end Ngircd
