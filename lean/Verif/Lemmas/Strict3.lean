import Verif.Lemmas.Strict2

/-!
# Invariants of all reachable states: tokens, mode sets, channels
-/

set_option linter.unusedSimpArgs false

namespace Ngircd

variable {x : Ctx} {s t u : Srv}

/-! ## Tokens -/

theorem freeToken_ge (n : Nat) (cs : List Client) (t : Int) : t ≤ freeToken n cs t := by
  induction n generalizing t with
  | zero => exact Int.le_refl _
  | succ n ih =>
    simp only [freeToken]
    split
    · have := ih (t + 1); omega
    · exact Int.le_refl _

theorem freeToken_least (n : Nat) (cs : List Client) (t k : Int) (h1 : t ≤ k) (h2 : k < freeToken n cs t) :
    ∃ c ∈ cs, c.mytoken = k := by
  induction n generalizing t with
  | zero => simp only [freeToken] at h2; omega
  | succ n ih =>
    simp only [freeToken] at h2
    split at h2
    · rename_i h
      by_cases hk : k = t
      · subst hk
        simpa using h
      · exact ih (t + 1) (by omega) h2
    · omega

/-- The number of entries with a token from `t` on. -/
def tokensFrom (cs : List Client) (t : Int) : Nat := (cs.filter (fun c => decide (t ≤ c.mytoken))).length

theorem freeToken_free (n : Nat) (cs : List Client) (t : Int) (h : tokensFrom cs t < n) :
    ∀ c ∈ cs, c.mytoken ≠ freeToken n cs t := by
  induction n generalizing t with
  | zero => omega
  | succ n ih =>
    simp only [freeToken]
    split
    · rename_i hu
      apply ih
      obtain ⟨c, hc, hct⟩ := List.any_eq_true.1 hu
      have hct : c.mytoken = t := by simpa using hct
      have : tokensFrom cs (t + 1) < tokensFrom cs t := by
        refine filter_length_lt cs _ _ ?_ hc ?_ ?_
        · intro a _ ha
          simp only [decide_eq_true_eq] at ha ⊢; omega
        · simp [hct]
        · simp [hct]; omega
      omega
    · rename_i hu
      intro c hc he
      exact hu (List.any_eq_true.2 ⟨c, hc, by simp [he]⟩)

theorem genMyToken_free (s : Srv) : ∀ c ∈ s.clients, c.mytoken ≠ genMyToken s := by
  refine freeToken_free _ _ _ ?_
  exact Nat.lt_succ_of_le (List.length_filter_le _ _)

theorem genMyToken_ge (s : Srv) : 2 ≤ genMyToken s := freeToken_ge _ _ _

/-- Servers have different tokens. -/
structure TokInv (s : Srv) : Prop where
  uniq : s.clients.Pairwise (fun a b => a.type = .server → b.type = .server → a.mytoken ≠ b.mytoken)
  ge : ∀ c ∈ s.clients, c.type = .server → c.ref ≠ s.this → 2 ≤ c.mytoken
  self : ∀ c ∈ s.clients, c.ref = s.this → c.mytoken = 1

theorem TokInv.of_eq (hi : TokInv s) (h1 : t.clients = s.clients) (h2 : t.this = s.this) : TokInv t := by
  obtain ⟨a, b, c⟩ := hi
  constructor <;> simp only [h1, h2] <;> assumption

theorem TokInv.keep {r : Nat} {f : Client → Client} (hi : TokInv s)
    (hf : ∀ c, (f c).type = c.type ∧ (f c).mytoken = c.mytoken ∧ (f c).ref = c.ref)
    (h1 : t.clients = (s.updCl r f).clients) (h2 : t.this = s.this) : TokInv t := by
  have e1 : ∀ c : Client, (if c.ref = r then f c else c).type = c.type := by
    intro c; split
    · exact (hf c).1
    · rfl
  have e2 : ∀ c : Client, (if c.ref = r then f c else c).mytoken = c.mytoken := by
    intro c; split
    · exact (hf c).2.1
    · rfl
  have e3 : ∀ c : Client, (if c.ref = r then f c else c).ref = c.ref := by
    intro c; split
    · exact (hf c).2.2
    · rfl
  constructor
  · rw [h1]
    refine List.pairwise_map.2 (hi.uniq.imp ?_)
    intro a b hab
    rw [e1, e1, e2, e2]; exact hab
  · rw [h1, h2]; intro c hc
    obtain ⟨d, hd, rfl⟩ := mem_updCl.1 hc
    rw [e1, e2, e3]; exact hi.ge d hd
  · rw [h1, h2]; intro c hc
    obtain ⟨d, hd, rfl⟩ := mem_updCl.1 hc
    rw [e2, e3]; exact hi.self d hd

theorem run_this (t : Srv) (a : Act) : (a.run t).this = t.this := by
  cases a with
  | umode r m set => simp only [Act.run]; split <;> rfl
  | setType r ty =>
    simp only [Act.run, clientSetType]
    generalize hu : (t.updCl r fun c => if ty = .server then { c with type := ty, mytoken := genMyToken t } else { c with type := ty }) = u
    obtain ⟨_, _, h⟩ := adjustCounters_eq u (u.cl r)
    rw [h, ← hu]; rfl
  | newCl c =>
    simp only [Act.run, initNewClient]
    obtain ⟨_, _, h⟩ := adjustCounters_eq { t with clients := c :: t.clients, nextRef := t.nextRef + 1 } c
    rw [h]
  | newLocal c k =>
    simp only [Act.run, initNewClient]
    obtain ⟨_, _, h⟩ := adjustCounters_eq { t with clients := c :: t.clients, nextRef := t.nextRef + 1 } c
    rw [h]
  | destroy c => exact (destroySelf_fields t c none false).2.2.2.2.1
  | whowas c =>
    obtain ⟨a', b', h2⟩ := registerWhowas_eq t c
    simp only [Act.run]; rw [h2]
  | remove ch r => simp only [Act.run, deleteIfEmpty]; split <;> rfl
  | chMode ch m set => simp only [Act.run]; split <;> rfl
  | mmode ch r m set => simp only [Act.run]; split <;> rfl
  | _ => rfl

theorem TokInv.cons {c : Client} (hi : TokInv s) (hb : Base s) (hc : c.type = .server → c.mytoken = genMyToken s)
    (hr : c.ref = s.nextRef) (h1 : t.clients = c :: s.clients) (h2 : t.this = s.this) : TokInv t := by
  have hne : c.ref ≠ s.this := by
    obtain ⟨d, hd, e, _⟩ := hb.cl.self
    have := hb.cl.lt d hd
    omega
  constructor
  · rw [h1]
    refine List.pairwise_cons.2 ⟨fun d hd ht _ => ?_, hi.uniq⟩
    rw [hc ht]
    exact fun h => genMyToken_free s d hd h.symm
  · rw [h1, h2]; intro d hd ht hn
    rcases List.mem_cons.1 hd with rfl | hd
    · rw [hc ht]; exact genMyToken_ge s
    · exact hi.ge d hd ht hn
  · rw [h1, h2]; intro d hd he
    rcases List.mem_cons.1 hd with rfl | hd
    · exact absurd he hne
    · exact hi.self d hd he

theorem TokInv.act {a : Act} (hb : Base t) (hi : TokInv t) (hp : Okay x t a) : TokInv (a.run t) := by
  cases a with
  | soft r f => exact hi.keep (fun c => ⟨(hp.keeps c).2.2.2.1, (hp.keeps c).2.2.2.2.2.2.2, (hp.keeps c).1⟩) rfl rfl
  | umode r m set =>
    exact hi.keep (f := umodeC m set) (fun c => ⟨rfl, rfl, rfl⟩) (umode_clients t r m set) (run_this t _)
  | setId r id =>
    refine hi.keep (r := r) (f := fun c => setIdC t.conf c id) (fun c => ⟨setIdC_type _ _ _, ?_, setIdC_ref _ _ _⟩) rfl rfl
    simp only [setIdC]; split <;> rfl
  | setIntro r tok =>
    exact hi.keep (r := r) (f := fun c => { c with introducer := r, token := tok }) (fun c => ⟨rfl, rfl, rfl⟩) rfl rfl
  | setType r ty =>
    have h1 := setType_clients t r ty
    have h2 : ((Act.setType r ty).run t).this = t.this := run_this _ _
    have hty : ∀ c, (typeC t ty c).type = ty := by intro c; unfold typeC; split <;> rfl
    have href : ∀ c, (typeC t ty c).ref = c.ref := by intro c; unfold typeC; split <;> rfl
    have htok : ∀ c, ty = .server → (typeC t ty c).mytoken = genMyToken t := by
      intro c h; unfold typeC; rw [if_pos h]
    have htok' : ∀ c, ty ≠ .server → (typeC t ty c).mytoken = c.mytoken := by
      intro c h; unfold typeC; rw [if_neg h]
    constructor
    · rw [h1]
      refine List.pairwise_map.2 ((hi.uniq.and hb.cl.ord).imp_of_mem ?_)
      rintro a b ha hb' ⟨hab, hlt⟩
      by_cases h1 : a.ref = r
      · rw [if_pos h1, if_neg (by omega), hty]
        intro ht _
        rw [htok a ht]
        exact fun h => genMyToken_free t b hb' h.symm
      · rw [if_neg h1]
        by_cases h2 : b.ref = r
        · rw [if_pos h2, hty]
          intro _ ht
          rw [htok b ht]
          exact genMyToken_free t a ha
        · rw [if_neg h2]; exact hab
    · rw [h1, h2]; intro c hc
      obtain ⟨d, hd, rfl⟩ := mem_updCl.1 hc
      split
      · rw [hty]; intro ht _
        rw [htok d ht]; exact genMyToken_ge t
      · exact hi.ge d hd
    · rw [h1, h2]; intro c hc
      obtain ⟨d, hd, rfl⟩ := mem_updCl.1 hc
      split
      · rename_i hr
        rw [href]; intro h
        exact absurd (hr.symm.trans h) hp.1
      · exact hi.self d hd
  | newCl c =>
    refine hi.cons hb ?_ hp.2.1 (newCl_clients t c) (run_this _ _)
    intro h
    have := hp.2.2.2.2.2.2.1
    rwa [if_pos h] at this
  | newLocal c k =>
    refine hi.cons hb ?_ hp.1 (newLocal_clients t c k) (run_this _ _)
    intro h
    rcases hp.2.2.2.2.1 with h' | h' <;> rw [h] at h' <;> cases h'
  | destroy c =>
    have h1 := destroy_run_clients t c
    have h2 : ((Act.destroy c).run t).this = t.this := run_this _ _
    constructor
    · rw [h1]; exact hi.uniq.filter _
    · rw [h1, h2]; exact fun d hd => hi.ge d (List.mem_filter.1 hd).1
    · rw [h1, h2]; exact fun d hd => hi.self d (List.mem_filter.1 hd).1
  | _ => exact hi.of_eq (run_clients rfl t) (run_this _ _)

/-! ## Mode sets -/

theorem modeAdd_nodup {l : Str} {m : Char} (h : l.Nodup) : (modeAdd l m).1.Nodup := by
  simp only [modeAdd]
  split
  · exact h
  · rename_i hm
    have hm : m ∉ l := by simpa [hasChar] using hm
    have h2 : (l ++ [m]).Nodup := by
      refine List.nodup_append.2 ⟨h, by simp, ?_⟩
      intro a ha b hb
      simp only [List.mem_singleton] at hb
      subst hb
      rintro rfl
      exact hm ha
    simp only [strlcat]
    split
    · split
      · exact ((List.Sublist.append_left (List.take_sublist _ _) l)).nodup h2
      · exact h2
    · exact h

theorem modeDel_nodup {l : Str} {m : Char} (h : l.Nodup) : (modeDel l m).1.Nodup := by
  simp only [modeDel]
  split
  · exact (List.erase_sublist).nodup h
  · exact h

/-- No letter twice. -/
structure ModeInv (s : Srv) : Prop where
  cl : ∀ c ∈ s.clients, c.modes.Nodup
  ch : ∀ c ∈ s.chans, c.modes.Nodup
  mem : ∀ m ∈ s.cl2, m.modes.Nodup

/-- What happens to the channels. -/
theorem quitAll_chans (s : Srv) (r : Nat) (l : List Chan) : (quitAll s r l).chans.Sublist s.chans := by
  induction l generalizing s with
  | nil => exact List.Sublist.refl _
  | cons c l ih =>
    refine (ih (dropMember s c.ref r)).trans ?_
    simp only [dropMember, deleteIfEmpty]
    split
    · split
      · exact List.filter_sublist
      · exact List.Sublist.refl _
    · exact List.Sublist.refl _

theorem destroy_chans (t : Srv) (c : Client) : ((Act.destroy c).run t).chans =
    if c.type = .user ∨ c.type = .service then (quitAll (dropCl t c.ref) c.ref t.chans).chans else t.chans := by
  show (destroySelf t c none false).chans = _
  rw [core_chans (destroySelf_core t c none false)]
  split
  · obtain ⟨a', b', h2⟩ := registerWhowas_eq (quitAll (dropCl t c.ref) c.ref t.chans) c
    rw [h2]
  · rfl

theorem destroy_chans_sub (t : Srv) (c : Client) : ((Act.destroy c).run t).chans.Sublist t.chans := by
  rw [destroy_chans]
  split
  · exact quitAll_chans (dropCl t c.ref) _ _
  · exact List.Sublist.refl _

/-- The action changes channels or memberships. -/
def Act.onChans : Act → Bool
  | .destroy _ | .create _ _ | .createJoin _ _ | .join _ _ | .remove _ _ | .chSoft _ _ | .chMode _ _ _
  | .chModes _ _ | .mmode _ _ _ _ => true
  | _ => false

theorem run_chans {a : Act} (h : a.onChans = false) (t : Srv) :
    (a.run t).chans = t.chans ∧ (a.run t).cl2 = t.cl2 := by
  cases a with
  | umode r m set => simp only [Act.run]; split <;> exact ⟨rfl, rfl⟩
  | setType r ty =>
    simp only [Act.run, clientSetType]
    generalize hu : (t.updCl r fun c => if ty = .server then { c with type := ty, mytoken := genMyToken t } else { c with type := ty }) = u
    obtain ⟨_, _, h⟩ := adjustCounters_eq u (u.cl r)
    rw [h, ← hu]; exact ⟨rfl, rfl⟩
  | newCl c =>
    simp only [Act.run, initNewClient]
    obtain ⟨_, _, h⟩ := adjustCounters_eq { t with clients := c :: t.clients, nextRef := t.nextRef + 1 } c
    rw [h]; exact ⟨rfl, rfl⟩
  | newLocal c k =>
    simp only [Act.run, initNewClient]
    obtain ⟨_, _, h⟩ := adjustCounters_eq { t with clients := c :: t.clients, nextRef := t.nextRef + 1 } c
    rw [h]; exact ⟨rfl, rfl⟩
  | whowas c =>
    obtain ⟨a', b', h2⟩ := registerWhowas_eq t c
    simp only [Act.run]; rw [h2]; exact ⟨rfl, rfl⟩
  | destroy | create | createJoin | join | remove | chSoft | chMode | chModes | mmode => cases h
  | _ => exact ⟨rfl, rfl⟩

theorem ModeInv.act {a : Act} (hbad : ¬ x.bad) (hb : Base t) (hi : ModeInv t) (hp : Okay x t a) :
    ModeInv (a.run t) := by
  have hupd : ∀ (r : Nat) (f : Client → Client), (∀ c ∈ t.clients, c.modes.Nodup → (f c).modes.Nodup) →
      ∀ c ∈ (t.updCl r f).clients, c.modes.Nodup := by
    intro r f hf c hc
    obtain ⟨d, hd, rfl⟩ := mem_updCl.1 hc
    split
    · exact hf d hd (hi.cl d hd)
    · exact hi.cl d hd
  have hch : ∀ (s : Srv) (r : Nat) (f : Chan → Chan), (∀ c ∈ s.chans, c.modes.Nodup) →
      (∀ c ∈ s.chans, c.ref = r → (f c).modes.Nodup) → ∀ c ∈ (s.updChan r f).chans, c.modes.Nodup := by
    intro s r f hs hf c hc
    obtain ⟨d, hd, rfl⟩ := mem_updChan.1 hc
    split
    · exact hf d hd ‹_›
    · exact hs d hd
  have hrest : a.onChans = false → (∀ c ∈ (a.run t).clients, c.modes.Nodup) → ModeInv (a.run t) := by
    intro h1 h2
    refine ⟨h2, ?_, ?_⟩
    · rw [(run_chans h1 t).1]; exact hi.ch
    · rw [(run_chans h1 t).2]; exact hi.mem
  cases a with
  | soft r f => exact hrest rfl (hupd r f (fun c _ h => by rw [(hp.keeps c).2.2.2.2.2.2.1]; exact h))
  | umode r m set =>
    refine hrest rfl ?_
    rw [umode_clients]
    refine hupd r _ (fun c _ h => ?_)
    simp only [umodeC]
    split
    · exact modeAdd_nodup h
    · exact modeDel_nodup h
  | setId r id =>
    refine hrest rfl (hupd r _ (fun c _ h => ?_))
    simp only [setIdC]; split <;> exact h
  | setIntro r tok => exact hrest rfl (hupd r _ (fun c _ h => h))
  | setType r ty =>
    refine hrest rfl ?_
    rw [setType_clients]
    refine hupd r _ (fun c _ h => ?_)
    unfold typeC; split <;> exact h
  | newCl c =>
    refine hrest rfl ?_
    rw [newCl_clients]
    intro d hd
    rcases List.mem_cons.1 hd with rfl | hd
    · exact (hp.2.2.2.2.2.2.2.1.resolve_right hbad).2.2
    · exact hi.cl d hd
  | newLocal c k =>
    refine hrest rfl ?_
    rw [newLocal_clients]
    intro d hd
    rcases List.mem_cons.1 hd with rfl | hd
    · rw [hp.2.2.2.2.2.2.2.2.1]; exact List.nodup_nil
    · exact hi.cl d hd
  | destroy c =>
    refine ⟨?_, ?_, ?_⟩
    · rw [destroy_run_clients]; exact fun d hd => hi.cl d (List.mem_filter.1 hd).1
    · exact fun d hd => hi.ch d ((destroy_chans_sub t c).subset hd)
    · rw [destroy_cl2 hb.ch]
      split
      · exact fun m hm => hi.mem m (List.mem_filter.1 hm).1
      · exact hi.mem
  | create name f =>
    refine ⟨hi.cl, ?_, hi.mem⟩
    show ∀ c ∈ ((channelCreate t name).updChan t.nextRef f).chans, _
    have hnew : ∀ c ∈ (channelCreate t name).chans, c.modes.Nodup ∧ (c.ref = t.nextRef → c.modes = []) := by
      intro c hc
      rcases List.mem_cons.1 hc with rfl | hc
      · exact ⟨List.nodup_nil, fun _ => rfl⟩
      · refine ⟨hi.ch c hc, fun h => ?_⟩
        have := hb.ch.lt c hc
        omega
    exact hch _ _ _ (fun c hc => (hnew c hc).1) (fun c hc hr => hp.2.2.2.1 c ((hnew c hc).2 hr))
  | createJoin name r =>
    refine ⟨hi.cl, ?_, ?_⟩
    · intro c hc
      rcases List.mem_cons.1 hc with rfl | hc
      · exact List.nodup_nil
      · exact hi.ch c hc
    · intro m hm
      rcases List.mem_cons.1 hm with rfl | hm
      · exact List.nodup_nil
      · exact hi.mem m hm
  | join ch r =>
    refine ⟨hi.cl, hi.ch, ?_⟩
    intro m hm
    rcases List.mem_cons.1 hm with rfl | hm
    · exact List.nodup_nil
    · exact hi.mem m hm
  | remove ch r =>
    refine ⟨?_, ?_, ?_⟩
    · rw [run_clients rfl]; exact hi.cl
    · simp only [Act.run, deleteIfEmpty]
      split
      · exact fun c hc => hi.ch c (List.mem_filter.1 hc).1
      · exact hi.ch
    · simp only [Act.run]; rw [deleteIfEmpty_cl2]
      exact fun m hm => hi.mem m (List.mem_of_mem_eraseP hm)
  | chSoft ch f =>
    exact ⟨hi.cl, hch t ch f hi.ch (fun c hc _ => by rw [hp.modes c]; exact hi.ch c hc), hi.mem⟩
  | chMode ch m set =>
    simp only [Act.run]
    split
    · exact ⟨hi.cl, hch t ch _ hi.ch (fun c hc _ => modeAdd_nodup (hi.ch c hc)), hi.mem⟩
    · exact ⟨hi.cl, hch t ch _ hi.ch (fun c hc _ => modeDel_nodup (hi.ch c hc)), hi.mem⟩
  | chModes ch modes =>
    exact ⟨hi.cl, hch t ch _ hi.ch (fun c hc _ => hp.2.1.resolve_right hbad), hi.mem⟩
  | mmode ch r m set =>
    simp only [Act.run]
    split
    · refine ⟨hi.cl, hi.ch, ?_⟩
      intro m' hm'
      obtain ⟨n, hn, rfl⟩ := List.mem_map.1 hm'
      split
      · exact modeAdd_nodup (hi.mem n hn)
      · exact hi.mem n hn
    · refine ⟨hi.cl, hi.ch, ?_⟩
      intro m' hm'
      obtain ⟨n, hn, rfl⟩ := List.mem_map.1 hm'
      split
      · exact modeDel_nodup (hi.mem n hn)
      · exact hi.mem n hn
  | _ => exact hrest rfl (by rw [run_clients rfl]; exact hi.cl)

/-! ## Channels -/

/-- Channel names are proper and different. -/
structure ChanInv (s : Srv) : Prop where
  good : ∀ c ∈ s.chans, isValidChanName c.name = true ∧ c.name ≠ []
  hash : ∀ c ∈ s.chans, c.hash = Hash c.name
  uniq : s.chans.Pairwise (fun a b => caseEq a.name b.name = false)

theorem ChanInv.sub (hi : ChanInv s) (h : t.chans.Sublist s.chans) : ChanInv t :=
  ⟨fun c hc => hi.good c (h.subset hc), fun c hc => hi.hash c (h.subset hc), hi.uniq.sublist h⟩

theorem ChanInv.upd (hi : ChanInv s) {r : Nat} {f : Chan → Chan} (hf : KeepsCh f) : ChanInv (s.updChan r f) := by
  have e1 : ∀ c : Chan, (if c.ref = r then f c else c).name = c.name := by
    intro c; split
    · exact (hf c).2.1
    · rfl
  have e2 : ∀ c : Chan, (if c.ref = r then f c else c).hash = c.hash := by
    intro c; split
    · exact (hf c).2.2
    · rfl
  constructor
  · intro c hc
    obtain ⟨d, hd, rfl⟩ := mem_updChan.1 hc
    rw [e1]; exact hi.good d hd
  · intro c hc
    obtain ⟨d, hd, rfl⟩ := mem_updChan.1 hc
    rw [e1, e2]; exact hi.hash d hd
  · refine List.pairwise_map.2 (hi.uniq.imp ?_)
    intro a b hab
    rw [e1, e1]; exact hab

theorem channelSearch_none (hh : ∀ c ∈ s.chans, c.hash = Hash c.name) {name : Str} (h : channelSearch s name = none) :
    ∀ c ∈ s.chans, caseEq name c.name = false := by
  intro c hc
  have := List.find?_eq_none.1 h c hc
  cases hce : caseEq name c.name with
  | false => rfl
  | true =>
    exfalso; apply this
    have hH : Hash name = Hash c.name := C35_hash_case _ _ ((sameCase_iff _ _).2 ((caseEq_iff _ _).1 hce))
    simp [hce, hH, hh c hc]

theorem validChanName_len {name : Str} (h : isValidChanName name = true) : name.length < CHANNEL_NAME_LEN := by
  simp only [isValidChanName, Bool.and_eq_true, decide_eq_true_eq] at h
  exact h.1.2

theorem ChanInv.create {name : Str} (hi : ChanInv s) (hv : isValidChanName name = true) (hne : name ≠ [])
    (hs : channelSearch s name = none) : ChanInv (channelCreate s name) := by
  have hcp : strlcpy CHANNEL_NAME_LEN name = name := strlcpy_of_lt (validChanName_len hv)
  have hname : (newChan s name).name = name := hcp
  constructor
  · intro c hc
    rcases List.mem_cons.1 hc with rfl | hc
    · rw [hname]; exact ⟨hv, hne⟩
    · exact hi.good c hc
  · intro c hc
    rcases List.mem_cons.1 hc with rfl | hc
    · rfl
    · exact hi.hash c hc
  · refine List.pairwise_cons.2 ⟨fun c hc => ?_, hi.uniq⟩
    rw [hname]; exact channelSearch_none hi.hash hs c hc

theorem ChanInv.act {a : Act} (hbad : ¬ x.bad) (hi : ChanInv t) (hp : Okay x t a) : ChanInv (a.run t) := by
  cases a with
  | destroy c => exact hi.sub (destroy_chans_sub t c)
  | create name f =>
    have := hp.2.2.1.resolve_right hbad
    exact (hi.create this.1 this.2 hp.1).upd hp.2.1
  | createJoin name r => exact (hi.create hp.1 (hp.2.2.1.resolve_right hbad) hp.2.1).sub (List.Sublist.refl _)
  | join ch r => exact hi.sub (List.Sublist.refl _)
  | remove ch r =>
    refine hi.sub ?_
    simp only [Act.run, deleteIfEmpty]
    split
    · exact List.filter_sublist
    · exact List.Sublist.refl _
  | chSoft ch f => exact hi.upd hp.keeps
  | chMode ch m set =>
    simp only [Act.run]
    split
    · exact hi.upd (fun c => ⟨rfl, rfl, rfl⟩)
    · exact hi.upd (fun c => ⟨rfl, rfl, rfl⟩)
  | chModes ch modes => exact hi.upd (fun c => ⟨rfl, rfl, rfl⟩)
  | mmode ch r m set =>
    refine hi.sub ?_
    simp only [Act.run]
    split <;> exact List.Sublist.refl _
  | _ => refine hi.sub ?_; rw [(run_chans rfl t).1]; exact List.Sublist.refl _

/-- Channels have members or are persistent. -/
def NonEmpty (s : Srv) : Prop := ∀ c ∈ s.chans, membersOf s c.ref ≠ [] ∨ 'P' ∈ c.modes

theorem chan_of_mem (hi : ChInv s) {c : Chan} (h : c ∈ s.chans) : s.chan c.ref = c := by
  have : s.chan? c.ref = some c := by
    cases hf : s.chan? c.ref with
    | none =>
      have := List.find?_eq_none.1 hf c h
      simp at this
    | some d =>
      have hm := List.mem_of_find?_eq_some hf
      have hr : d.ref = c.ref := by simpa using List.find?_some hf
      have key : ∀ l : List Chan, l.Pairwise (fun a b => b.ref < a.ref) → d ∈ l → c ∈ l → d = c := by
        intro l
        induction l with
        | nil => intro _ h; cases h
        | cons y l ih =>
          intro hp h1 h2
          obtain ⟨g1, g2⟩ := List.pairwise_cons.1 hp
          rcases List.mem_cons.1 h1 with e1 | h1'
          · rcases List.mem_cons.1 h2 with e2 | h2'
            · rw [e1, e2]
            · have := g1 _ h2'; rw [e1] at hr; omega
          · rcases List.mem_cons.1 h2 with e2 | h2'
            · have := g1 _ h1'; rw [e2] at hr; omega
            · exact ih g2 h1' h2'
      rw [key _ hi.ord hm h]
  simp [Srv.chan, this]

theorem NonEmpty.drop (hi : ChInv s) (h : NonEmpty s) (ch r : Nat) : NonEmpty (dropMember s ch r) := by
  have hcl2 := dropMember_cl2 hi ch r
  intro c hc
  have hsub : c ∈ s.chans := by
    revert hc
    simp only [dropMember, deleteIfEmpty]
    split
    · split
      · exact fun hc => (List.mem_filter.1 hc).1
      · exact fun hc => hc
    · exact fun hc => hc
  by_cases hcr : c.ref = ch
  · -- the channel left
    subst hcr
    revert hc
    simp only [dropMember]
    split
    · simp only [deleteIfEmpty]
      split
      · intro hc
        have := (List.mem_filter.1 hc).2
        simp at this
      · rename_i hn
        intro _
        simp only [Bool.and_eq_true, Bool.not_eq_true', List.isEmpty_iff, not_and, Bool.not_eq_false] at hn
        have hchan : (unlinkMember s c.ref r).chan c.ref = c := chan_of_mem hi hsub
        by_cases hP : 'P' ∈ c.modes
        · exact .inr hP
        · left
          apply hn
          rw [hchan]
          simpa [Chan.hasMode, hasChar] using hP
    · intro _; exact h c hsub
  · rcases h c hsub with h1 | h1
    · left
      obtain ⟨m, hm⟩ := List.exists_mem_of_ne_nil _ h1
      obtain ⟨m', hm', e1, e2⟩ := mem_membersOf.1 hm
      refine List.ne_nil_of_mem (a := m) (mem_membersOf.2 ⟨m', ?_, e1, e2⟩)
      rw [hcl2]
      refine List.mem_filter.2 ⟨hm', ?_⟩
      have : (m'.chan == ch) = false := by simp [e1, hcr]
      simp [this]
    · exact .inr h1

theorem NonEmpty.quit (hi : ChInv s) (h : NonEmpty s) (r : Nat) (l : List Chan) : NonEmpty (quitAll s r l) := by
  induction l generalizing s with
  | nil => exact h
  | cons c l ih => exact ih (hi.drop c.ref r) (h.drop hi c.ref r)

theorem NonEmpty.of_eq (h : NonEmpty s) (h1 : t.chans = s.chans) (h2 : t.cl2 = s.cl2) : NonEmpty t := by
  intro c hc
  rw [h1] at hc
  have : membersOf t c.ref = membersOf s c.ref := by simp only [membersOf, h2]
  rw [this]; exact h c hc

theorem NonEmpty.act {a : Act} (hl : ¬ x.loose) (hb : Base t) (hi : NonEmpty t) (hp : Okay x t a) :
    NonEmpty (a.run t) := by
  have hupd : ∀ (r : Nat) (f : Chan → Chan), (∀ c ∈ t.chans, c.ref = r → (f c).ref = c.ref ∧
      ('P' ∈ c.modes → 'P' ∈ (f c).modes ∨ membersOf t r ≠ [])) → NonEmpty (t.updChan r f) := by
    intro r f hf c hc
    obtain ⟨d, hd, rfl⟩ := mem_updChan.1 hc
    split
    · rename_i hr
      obtain ⟨h1, h2⟩ := hf d hd hr
      rw [h1]
      rcases hi d hd with h | h
      · exact .inl h
      · rcases h2 h with h | h
        · exact .inr h
        · exact .inl (by rw [← hr] at h; exact h)
    · exact hi d hd
  cases a with
  | destroy c =>
    have hcore := destroySelf_core t c none false
    have h0 : ChInv (dropCl t c.ref) := hb.ch.of_eq rfl rfl (Nat.le_refl _)
    have hq : NonEmpty (quitAll (dropCl t c.ref) c.ref t.chans) := NonEmpty.quit h0 (hi.of_eq rfl rfl) _ _
    by_cases hc : c.type = .user ∨ c.type = .service
    · rw [if_pos hc] at hcore
      refine hq.of_eq ?_ ?_
      · rw [destroy_chans, if_pos hc]
      · rw [show ((Act.destroy c).run t).cl2 = (destroySelf t c none false).cl2 from rfl, core_cl2 hcore]
        obtain ⟨a', b', h2⟩ := registerWhowas_eq (quitAll (dropCl t c.ref) c.ref t.chans) c
        rw [h2]
    · refine hi.of_eq ?_ ?_
      · rw [destroy_chans, if_neg hc]
      · rw [destroy_cl2 hb.ch, if_neg hc]
  | create name f =>
    intro c hc
    obtain ⟨d, hd, rfl⟩ := mem_updChan.1 hc
    rcases List.mem_cons.1 hd with rfl | hd
    · right
      rw [if_pos (show (newChan t name).ref = t.nextRef from rfl)]
      exact hp.2.2.2.2.1.resolve_right hl _ rfl
    · have := hb.ch.lt d hd
      rw [if_neg (by omega)]
      exact hi d hd
  | createJoin name r =>
    intro c hc
    rcases List.mem_cons.1 hc with rfl | hc
    · left
      exact List.ne_nil_of_mem (a := r) (mem_membersOf.2 ⟨_, List.mem_cons_self, rfl, rfl⟩)
    · rcases hi c hc with h | h
      · left
        obtain ⟨m, hm⟩ := List.exists_mem_of_ne_nil _ h
        obtain ⟨m', hm', e1, e2⟩ := mem_membersOf.1 hm
        exact List.ne_nil_of_mem (a := m) (mem_membersOf.2 ⟨m', List.mem_cons_of_mem _ hm', e1, e2⟩)
      · exact .inr h
  | join ch r =>
    intro c hc
    rcases hi c hc with h | h
    · left
      obtain ⟨m, hm⟩ := List.exists_mem_of_ne_nil _ h
      obtain ⟨m', hm', e1, e2⟩ := mem_membersOf.1 hm
      exact List.ne_nil_of_mem (a := m) (mem_membersOf.2 ⟨m', List.mem_cons_of_mem _ hm', e1, e2⟩)
    · exact .inr h
  | remove ch r =>
    have := NonEmpty.drop hb.ch hi ch r
    simp only [dropMember] at this
    rw [if_pos (show isMemberOf t ch r = true from hp.1)] at this
    exact this
  | chSoft ch f => exact hupd ch f (fun c _ _ => ⟨(hp.keeps c).1, fun h => .inl (by rw [hp.modes c]; exact h)⟩)
  | chMode ch m set =>
    simp only [Act.run]
    split
    · refine hupd ch _ (fun c _ _ => ⟨rfl, fun h => .inl ?_⟩)
      show 'P' ∈ (modeAdd c.modes m).1
      simp only [modeAdd]
      split
      · exact h
      · simp only [strlcat]
        split
        · split <;> exact List.mem_append_left _ h
        · exact h
    · rename_i hset
      have hset : set = false := by simpa using hset
      refine hupd ch _ (fun c _ _ => ⟨rfl, fun h => ?_⟩)
      by_cases hm : m = 'P'
      · exact .inr ((hp.1 hm hset).resolve_right hl)
      · left
        show 'P' ∈ (modeDel c.modes m).1
        simp only [modeDel]
        split
        · exact (List.mem_erase_of_ne (Ne.symm hm)).2 h
        · exact h
  | chModes ch modes =>
    refine hupd ch _ (fun c hc hr => ⟨rfl, fun h => ?_⟩)
    exfalso
    have h1 := hp.2.2
    rw [← hr, chan_of_mem hb.ch hc] at h1
    rw [h1] at h; cases h
  | mmode ch r m set =>
    have hm : ∀ f : Cl2Chan → Cl2Chan, (∀ m, (f m).chan = m.chan ∧ (f m).client = m.client) →
        NonEmpty { t with cl2 := t.cl2.map f } := by
      intro f hf c hc
      rw [membersOf_map t f hf]; exact hi c hc
    simp only [Act.run]
    split
    · exact hm _ (fun m => by split <;> exact ⟨rfl, rfl⟩)
    · exact hm _ (fun m => by split <;> exact ⟨rfl, rfl⟩)
  | _ => exact hi.of_eq (run_chans rfl t).1 (run_chans rfl t).2

end Ngircd
