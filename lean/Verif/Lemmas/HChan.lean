import Verif.Lemmas.HMode2

/-!
# The channel commands as runs of guarded actions
-/

set_option linter.unusedSimpArgs false

namespace Ngircd

variable {x : Ctx} {s t u : Srv}

/-- Steps that do not touch clients. -/
def KSteps (x : Ctx) (s t : Srv) : Prop :=
  Steps (Okay x) s t ∧ t.clients = s.clients ∧ t.conf = s.conf ∧ t.this = s.this

theorem KSteps.rfl' : KSteps x s s := ⟨.rfl', rfl, rfl, rfl⟩
theorem KSteps.same (h : t.core = s.core) : KSteps x s t :=
  ⟨.same h, core_clients h, core_conf h, core_this h⟩
theorem KSteps.trans (h : KSteps x s t) (h' : KSteps x t u) : KSteps x s u :=
  ⟨h.1.trans h'.1, h'.2.1.trans h.2.1, h'.2.2.1.trans h.2.2.1, h'.2.2.2.trans h.2.2.2⟩
theorem KSteps.congr_right (h : KSteps x s t) (hu : u.core = t.core) : KSteps x s u :=
  h.trans (.same hu)
theorem CSteps.k {ch : Nat} (h : CSteps x ch s t) : KSteps x s t := ⟨h.1, h.2.2.1, h.2.2.2.1, h.2.2.2.2⟩
theorem KSteps.chSoft {ch : Nat} {f : Chan → Chan} (hf : SoftCh x f) :
    KSteps x s (s.updChan ch f) := ⟨.chSoft hf, rfl, rfl, rfl⟩
theorem KSteps.foldl {α : Type} (f : Srv → α → Srv) (h : ∀ s a, KSteps x s (f s a)) (l : List α)
    (s : Srv) : KSteps x s (l.foldl f s) := by
  induction l generalizing s with
  | nil => exact .rfl'
  | cons a l ih => exact (h s a).trans (ih _)
theorem KSteps.cl (h : KSteps x s t) (r : Nat) : t.cl r = s.cl r := by
  simp only [Srv.cl, Srv.cl?, h.2.1]

theorem KSteps.mmodeAdd (hx : x.edits) (ch r : Nat) (m : Char) : KSteps x s (userModeAdd s ch r m).1 :=
  ⟨.one (.mmode ch r m true) hx rfl, rfl, rfl, rfl⟩

theorem KSteps.chModeAdd (hx : x.edits) (ch : Nat) (m : Char) : KSteps x s (channelModeAdd s ch m).1 :=
  ⟨.one (.chMode ch m true) ⟨fun _ h => (by cases h), hx⟩ rfl, rfl, rfl, rfl⟩

theorem KSteps.chModeDel (hx : x.edits) (ch : Nat) (m : Char) (hm : m ≠ 'P') : KSteps x s (channelModeDel s ch m).1 :=
  ⟨.one (.chMode ch m false) ⟨fun h _ => absurd h hm, hx⟩ rfl, rfl, rfl, rfl⟩

theorem channelSearch_mem {n : Str} {c : Chan} (h : channelSearch s n = some c) : c ∈ s.chans :=
  List.mem_of_find?_eq_some h

theorem chan_eq_of_ref (hi : ChInv s) {a b : Chan} (ha : a ∈ s.chans) (hb : b ∈ s.chans)
    (he : a.ref = b.ref) : a = b := by
  have := hi.ord
  generalize s.chans = l at this ha hb
  induction l with
  | nil => cases ha
  | cons x l ih =>
    obtain ⟨hx, hl⟩ := List.pairwise_cons.1 this
    rcases List.mem_cons.1 ha with rfl | ha'
    · rcases List.mem_cons.1 hb with rfl | hb'
      · rfl
      · have := hx _ hb'; omega
    · rcases List.mem_cons.1 hb with rfl | hb'
      · have := hx _ ha'; omega
      · exact ih hl ha' hb'

theorem updChan_const (hi : ChInv s) {c : Chan} (hc : c ∈ s.chans) (g : Chan → Chan) :
    s.updChan c.ref (fun _ => g c) = s.updChan c.ref g := by
  simp only [Srv.updChan]
  congr 1
  refine List.map_congr_left (fun d hd => ?_)
  split
  · rename_i he; rw [chan_eq_of_ref hi hd hc he]
  · rfl

theorem deleteIfEmpty_fields (s : Srv) (ch : Nat) :
    (deleteIfEmpty s ch).clients = s.clients ∧ (deleteIfEmpty s ch).conf = s.conf ∧
    (deleteIfEmpty s ch).this = s.this := by
  simp only [deleteIfEmpty]; split <;> exact ⟨rfl, rfl, rfl⟩

theorem KSteps.removeClient (ty : Removal) (ch : Nat) (c o : Client) (r : Str) (b : Bool)
    (hw : x.peer ∨ (c.ref = x.cl ∧ (x.is "PART" ∨ x.is "JOIN" ∨ x.fresh)) ∨ x.is "KICK") :
    KSteps x s (removeClient s ty ch c o r b).1 := by
  have hcore := removeClient_core s ty ch c o r b
  split at hcore
  · rename_i hm
    have hf := deleteIfEmpty_fields (unlinkMember s ch c.ref) ch
    refine ⟨.one (.remove ch c.ref) ⟨hm, hw⟩ hcore, ?_, ?_, ?_⟩
    · exact (core_clients hcore).trans hf.1
    · exact (core_conf hcore).trans hf.2.1
    · exact (core_this hcore).trans hf.2.2
  · exact .same hcore

theorem Hnd.sender_may {cl r : Nat} {req : Request} (h : Hnd x s cl req) (hx : x.is "PART") (hg : getSender s cl req = .ok r) :
    x.peer ∨ ((s.cl r).ref = x.cl ∧ (x.is "PART" ∨ x.is "JOIN" ∨ x.fresh)) ∨ x.is "KICK" := by
  rcases getSender_ok hg with ⟨_, rfl⟩ | ⟨h1, _⟩
  · exact .inr (.inl ⟨h.mem.2.trans h.xcl.symm, .inl hx⟩)
  · exact .inl (h.peer h1)

theorem channelPart_steps (c o : Client) (n r : Str) (hw : x.peer ∨ (c.ref = x.cl ∧ (x.is "PART" ∨ x.is "JOIN" ∨ x.fresh)) ∨ x.is "KICK") : KSteps x s (channelPart s c o n r).1 := by
  simp only [channelPart]
  split
  · exact .same rfl
  · split
    · exact .same rfl
    · exact .removeClient _ _ _ _ _ _ hw

theorem partLoop_steps (cl target : Nat) (r : Str) (ns : List Str) (s : Srv) (hw : x.peer ∨ ((s.cl target).ref = x.cl ∧ (x.is "PART" ∨ x.is "JOIN" ∨ x.fresh)) ∨ x.is "KICK") :
    KSteps x s (partLoop cl target r ns s) := by
  induction ns generalizing s with
  | nil => exact .rfl'
  | cons n ns ih =>
    simp only [partLoop]
    have h1 := channelPart_steps (x := x) (s := s) (s.cl target) (s.cl cl) n r hw
    exact h1.trans (ih _ (by rw [h1.cl]; exact hw))

theorem partAll_steps (n : Nat) (s : Srv) (cl target : Nat) (hw : x.peer ∨ ((s.cl target).ref = x.cl ∧ (x.is "PART" ∨ x.is "JOIN" ∨ x.fresh)) ∨ x.is "KICK") : KSteps x s (partAll n s cl target) := by
  induction n generalizing s with
  | zero => exact .rfl'
  | succ n ih =>
    simp only [partAll]
    split
    · exact .rfl'
    · rename_i ch _ _
      have h1 := channelPart_steps (x := x) (s := s) (s.cl target) (s.cl cl) (s.chan ch).name (s.cl target).ID hw
      exact h1.trans (ih _ (by rw [h1.cl]; exact hw))

theorem ircPART_steps {cl : Nat} {req : Request} (h : Hnd x s cl req) (hx : x.is "PART") : KSteps x s (ircPART s cl req).1 := by
  simp only [ircPART]
  split
  · rename_i h; exact .same (getSender_err h)
  · split
    · exact .same rfl
    · rename_i hg _ _
      exact partLoop_steps _ _ _ _ _ (h.sender_may hx hg)

theorem channelKick_steps (hx : x.is "KICK") (p t o : Client) (n r : Str) : KSteps x s (channelKick s p t o n r) := by
  simp only [channelKick]
  split
  · exact .same rfl
  · repeat' split
    all_goals first | exact .same rfl | exact .removeClient _ _ _ _ _ _ (.inr (.inr hx))

theorem kickLoop_steps (hx : x.is "KICK") (p f : Nat) (r : Str) (l : List (Str × Str)) (s : Srv) :
    KSteps x s (kickLoop p f r l s) := by
  induction l generalizing s with
  | nil => exact .rfl'
  | cons a l ih =>
    obtain ⟨ch, n⟩ := a
    simp only [kickLoop]
    refine KSteps.trans ?_ (ih _)
    simp only [tryKick]
    split
    · exact .same rfl
    · exact channelKick_steps hx _ _ _ _ _

theorem ircKICK_steps (hx : x.is "KICK") (cl : Nat) (req : Request) : KSteps x s (ircKICK s cl req).1 := by
  simp only [ircKICK]
  split
  · rename_i h; exact .same (getSender_err h)
  · split
    · exact kickLoop_steps hx _ _ _ _ _
    · split
      · exact kickLoop_steps hx _ _ _ _ _
      · exact .same rfl

theorem channelSetTopic_steps (hx : x.topics) (ch : Nat) (c : Option Client) (t : Str) :
    KSteps x s (channelSetTopic s ch c t) :=
  .chSoft ⟨fun _ => ⟨rfl, rfl, rfl⟩, fun _ => rfl, fun _ h => h,
    .inr (fun _ _ => ⟨rfl, rfl, rfl, rfl, rfl⟩), .inr (.inr (fun _ => rfl)), .inl hx⟩

theorem topicSet_steps (hx : x.topics) (cl f : Nat) (ch : Chan) (n t : Str) : KSteps x s (topicSet s cl f ch n t) := by
  simp only [topicSet]
  generalize (if s.conf.operServerMode = true then s.this else f) = f'
  generalize hs1 : (if ch.isLocal then s else _) = s1
  have h1 : s1.core = s.core := by rw [← hs1]; split <;> rfl
  generalize hs2 : (if t ≠ ch.topic then _ else s1) = s2
  have h2 : s2.core = s1.core := by rw [← hs2]; split <;> rfl
  refine KSteps.trans (.same (h2.trans h1)) ?_
  split
  · exact (channelSetTopic_steps hx ch.ref (some (s2.cl f')) t).congr_right rfl
  · exact channelSetTopic_steps hx ch.ref _ _

theorem ircTOPIC_steps (hx : x.topics) (cl : Nat) (req : Request) : KSteps x s (ircTOPIC s cl req).1 := by
  simp only [ircTOPIC]
  split
  · rename_i h; exact .same (getSender_err h)
  · split
    · exact .same rfl
    · repeat' split
      all_goals first | exact .same rfl | exact topicSet_steps hx _ _ _ _ _

theorem ircINVITE_steps (hx : x.is "INVITE") (cl : Nat) (req : Request) : KSteps x s (ircINVITE s cl req).1 := by
  simp only [ircINVITE]
  split
  · rename_i h; exact .same (getSender_err h)
  · split
    · exact .same rfl
    · split
      · exact .same rfl
      · split
        · exact .same rfl
        · split
          · exact .same (core_inviteSend _ _ _ _ _)
          · split
            · exact .same rfl
            · refine KSteps.congr_right ?_ (core_inviteSend _ _ _ _ _)
              exact .chSoft ⟨fun _ => ⟨rfl, rfl, rfl⟩, fun _ => rfl,
                fun c h => h.congr ⟨listsCheck_once _ (fun e he => h e (.inl he)), rfl⟩,
                .inr (fun c h => ⟨rfl, rfl, listsCheck_once _ (fun e he => h e (.inl he)), rfl, rfl⟩),
                .inr (.inl hx), .inr (fun _ => rfl)⟩

/-! ## JOIN -/

theorem joinAllowed_steps (hx : x.edits) (hb : Base s) (cl : Nat) {ch : Chan} (hc : ch ∈ s.chans) (n k : Str) :
    KSteps x s (joinAllowed s cl ch n k).1 := by
  simp only [joinAllowed]
  split
  · exact .rfl'
  · rw [updChan_const hb.ch hc (joinConsume s (s.cl cl))]
    have h : KSteps x s (s.updChan ch.ref (joinConsume s (s.cl cl))) :=
      .chSoft (.edit hx (fun _ => ⟨rfl, rfl, rfl⟩) (fun _ => rfl)
        (fun c h => h.congr (h.consume (m := masksOf s (s.cl cl)) (.inr rfl) (.inr rfl))) (fun _ => rfl))
    split
    · exact h
    · exact h.congr_right rfl

theorem joinChecks_steps (hx : x.edits) (hb : Base s) (cl : Nat) (n k : Str) : KSteps x s (joinChecks s cl n k).1 := by
  simp only [joinChecks]
  split
  · rename_i ch hch
    split
    · exact .rfl'
    · split
      · exact .same rfl
      · have := joinAllowed_steps (x := x) hx hb cl (channelSearch_mem hch) n k
        generalize joinAllowed s cl ch n k = r at this ⊢
        obtain ⟨s', b⟩ := r
        cases b <;> exact this
  · repeat' split
    all_goals exact .same rfl

theorem joinSetModes_steps (hx : x.edits) (ch t : Nat) (f : Str) : KSteps x s (joinSetModes s ch t f) := by
  simp only [joinSetModes]
  have h := KSteps.foldl (x := x) (fun s m => (userModeAdd s ch t m).1) (fun s m => .mmodeAdd hx ch t m) f s
  split
  · exact h.trans (.mmodeAdd hx _ _ _)
  · exact h

/-- Who may join: an existing client, a user or service unless the peer is bad. -/
def Joiner (x : Ctx) (s : Srv) (r : Nat) : Prop :=
  (∃ c ∈ s.clients, c.ref = r) ∧ (s.cl r).ref = r ∧
  (((s.cl r).type = .user ∨ (s.cl r).type = .service) ∨ x.bad) ∧
  (x.peer ∨ (r = x.cl ∧ (x.is "JOIN" ∨ x.fresh)))

theorem Joiner.edits {r : Nat} (h : Joiner x s r) : x.edits := by
  rcases h.2.2.2 with h | ⟨_, h | h⟩
  · exact .inl h
  · exact .inr (.inr (.inl h))
  · exact .inr (.inr (.inr (.inl h)))

theorem Joiner.congr {r : Nat} (h : Joiner x s r) (hk : t.clients = s.clients) : Joiner x t r := by
  have hc : t.cl r = s.cl r := by simp only [Srv.cl, Srv.cl?, hk]
  unfold Joiner
  rw [hk, hc]; exact h

theorem channelJoin_steps {c : Client} (hj : Joiner x s c.ref) {n : Str}
    (hn : n ≠ [] ∨ x.bad) : KSteps x s (channelJoin s c n).1 := by
  simp only [channelJoin]
  split
  · exact .same rfl
  · rename_i hv
    split
    · rename_i ch hch
      split
      · exact .rfl'
      · rename_i hm
        exact ⟨.one (.join ch.ref c.ref) ⟨⟨ch, channelSearch_mem hch, rfl⟩, by simpa using hm, hj.1, hj.2.2⟩ rfl,
          rfl, rfl, rfl⟩
    · rename_i hs
      exact ⟨.one (.createJoin n c.ref) ⟨by simpa using hv, hs, hn, hj.1, hj.2.2⟩ rfl, rfl, rfl, rfl⟩

theorem joinDo_steps {cl target : Nat} {n f : Str} {w : Bool} (hj : Joiner x s target)
    (hn : n ≠ [] ∨ x.bad) : KSteps x s (joinDo s cl target n f w) := by
  have h1 : KSteps x s (channelJoin s (s.cl target) n).1 :=
    channelJoin_steps (by rw [hj.2.1]; exact hj) hn
  simp only [joinDo]
  generalize channelJoin s (s.cl target) n = r at h1 ⊢
  obtain ⟨s1, b⟩ := r
  cases b with
  | false => exact h1
  | true =>
    simp only
    split
    · exact h1.congr_right rfl
    · rename_i ch hch
      generalize hs2 : (if w && ch.isModeless then
        (channelModeAdd (channelModeAdd s1 ch.ref 't').1 ch.ref 'n').1 else s1) = s2
      have h2 : KSteps x s1 s2 := by
        rw [← hs2]; split
        · exact (KSteps.chModeAdd hj.edits _ _).trans (.chModeAdd hj.edits _ _)
        · exact .rfl'
      have h3 := joinSetModes_steps (x := x) (s := s2) hj.edits ch.ref target f
      refine (h1.trans (h2.trans h3)).trans ?_
      split
      · refine .same ?_
        rw [core_sendChannelInfo, core_writePrefix, core_joinForward]
      · exact .same (core_joinForward _ _ _ _ _)

theorem joinOne_steps (hb : Base s) {cl target : Nat} {n k : Str} (hj : Joiner x s target)
    (hn : ((s.cl cl).type = .server → cutAt n '\x07' ≠ []) ∧ n ≠ [] ∨ x.bad) :
    KSteps x s (joinOne s cl target n k) := by
  simp only [joinOne]
  split
  · have h1 := joinChecks_steps (x := x) hj.edits hb cl n k
    generalize joinChecks s cl n k = r at h1 ⊢
    obtain ⟨s1, o⟩ := r
    cases o with
    | none => exact h1
    | some f =>
      exact h1.trans (joinDo_steps (hj.congr h1.2.1) (hn.elim (fun h => .inl h.2) .inr))
  · have hn' : (if (s.cl cl).type = .server then cutAt n '\x07' else n) ≠ [] ∨ x.bad := by
      rcases hn with ⟨h1, h2⟩ | hbad
      · left; split
        · exact h1 ‹_›
        · exact h2
      · exact .inr hbad
    split
    · rename_i ch hch
      refine KSteps.trans (t := s.updChan ch.ref
        (fun c => { c with invites := (listsCheck c.invites (masksOf s (s.cl target))).1 }))
        (.chSoft (.edit hj.edits (fun _ => ⟨rfl, rfl, rfl⟩) (fun _ => rfl) (fun _ h => h) (fun _ => rfl))) ?_
      exact joinDo_steps (hj.congr rfl) hn'
    · exact joinDo_steps hj hn'

theorem joinLoop_steps {cl target : Nat} (ns ks : List Str) (s : Srv) (hb : Base s) (hj : Joiner x s target)
    (hn : (∀ n ∈ ns, ((s.cl cl).type = .server → cutAt n '\x07' ≠ []) ∧ n ≠ []) ∨ x.bad) :
    KSteps x s (joinLoop cl target ns ks s) := by
  induction ns generalizing ks s with
  | nil => cases ks <;> exact .rfl'
  | cons n ns ih =>
    simp only [joinLoop]
    have h1 := joinOne_steps (x := x) hb (cl := cl) (target := target) (n := n) (k := ks.headD []) hj
      (hn.elim (fun h => .inl (h n List.mem_cons_self)) .inr)
    refine h1.trans (ih ks.tail _ (h1.1.base hb) (hj.congr h1.2.1) ?_)
    refine hn.elim (fun h => .inl (fun m hm => ?_)) .inr
    rw [h1.cl]
    exact h m (List.mem_cons_of_mem _ hm)

theorem strtok_ne_nil {a d m : Str} (h : m ∈ strtok a d) : m ≠ [] := by
  unfold strtok at h
  generalize (fun c => d.contains c) = p at h
  have : ∀ (a cur : Str), m ∈ strtokAux p a cur → m ≠ [] := by
    intro a
    induction a with
    | nil =>
      intro cur h
      simp only [strtokAux] at h
      split at h
      · cases h
      · rename_i hc
        simp only [List.mem_singleton] at h
        subst h
        simpa using hc
    | cons c cs ih =>
      intro cur h
      simp only [strtokAux] at h
      split at h
      · split at h
        · exact ih _ h
        · rename_i hc
          rcases List.mem_cons.1 h with rfl | h
          · simpa using hc
          · exact ih _ h
      · exact ih _ h
  exact this a [] h

theorem ircJOIN_steps {cl : Nat} {req : Request} (hb : Base s)
    (hj : ∀ r, getSender s cl req = .ok r → Joiner x s r)
    (hn : ((s.cl cl).type = .server → ∀ n ∈ strtok (req.arg 0) [','], cutAt n '\x07' ≠ []) ∨ x.bad) :
    KSteps x s (ircJOIN s cl req).1 := by
  simp only [ircJOIN]
  split
  · rename_i h; exact .same (getSender_err h)
  · rename_i target ht
    split
    · have := hj _ ht
      exact partAll_steps _ _ _ _ (this.2.2.2.elim .inl (fun h => .inr (.inl ⟨this.2.1.trans h.1, .inr h.2⟩)))
    · split
      · exact .same rfl
      · refine joinLoop_steps _ _ _ hb (hj _ ht) ?_
        refine hn.elim (fun h => .inl (fun n hm => ⟨fun hs => h hs n hm, strtok_ne_nil hm⟩)) .inr

theorem cl_ref_of_search (hb : Base s) {n : Str} {c : Client} (h : clientSearch s n = some c) :
    s.cl c.ref = c := cl_of_mem hb.cl.ord (clientSearch_mem h)

theorem ircJOIN_hnd {cl : Nat} {req : Request} (h : Hnd x s cl req)
    (ht : (s.cl cl).type = .user ∨ (s.cl cl).type = .server) (hm : Spec.Is req "JOIN") :
    KSteps x s (ircJOIN s cl req).1 := by
  refine ircJOIN_steps h.base ?_ ?_
  · intro r hr
    rcases getSender_ok hr with ⟨h1, rfl⟩ | ⟨h1, p, c, hp, hc, rfl⟩
    · have hu : (s.cl r).type = .user := ht.resolve_right h1
      exact ⟨⟨_, h.mem.1, h.mem.2⟩, h.mem.2, .inl (.inl hu),
        .inr ⟨h.xcl.symm, .inl (by unfold Ctx.is; rw [h.cmd]; exact hm)⟩⟩
    · have hcl := cl_ref_of_search h.base hc
      refine ⟨⟨c, clientSearch_mem hc, rfl⟩, by rw [hcl], ?_⟩
      rw [hcl]
      exact ⟨h.polite.elim .inr (fun hp' => .inl ((hp'.join h1 hm).1 p c hp hc)), .inl (h.peer h1)⟩
  · exact h.polite.elim .inr (fun hp => .inl (fun hs => (hp.join hs hm).2))

/-! ## CHANINFO -/

theorem chaninfoModes_steps (cl f ch : Nat) {req : Request} (hp : x.peer)
    (hn : (strlcpy CHANNEL_MODE_LEN (req.arg 1).tail).Nodup ∨ x.bad) :
    KSteps x s (chaninfoModes s cl f ch req) := by
  simp only [chaninfoModes]
  split
  · rename_i hc
    simp only [Bool.and_eq_true, List.isEmpty_iff] at hc
    refine KSteps.trans (t := channelSetModes s ch (req.arg 1).tail)
      ⟨.one (.chModes ch (req.arg 1).tail) ⟨hp, hn, hc.2⟩ rfl, rfl, rfl, rfl⟩ ?_
    generalize channelSetModes s ch (req.arg 1).tail = s1
    refine KSteps.trans (t := if req.argc = 5 then _ else _) ?_ (.same (core_writeChannelPrefix _ _ _ _ _ _))
    split
    · generalize hs2 : (if (s1.chan ch).hasMode 'k' then channelSetKey s1 ch (req.arg 2) else s1) = s2
      have h2 : KSteps x s1 s2 := by
        rw [← hs2]; split
        · exact .chSoft (.edit (.inl hp) (fun _ => ⟨rfl, rfl, rfl⟩) (fun _ => rfl) (fun _ h => h) (fun _ => rfl))
        · exact .rfl'
      refine h2.trans ?_
      split
      · exact .chSoft (.edit (.inl hp) (fun _ => ⟨rfl, rfl, rfl⟩) (fun _ => rfl) (fun _ h => h) (fun _ => rfl))
      · exact .rfl'
    · exact (KSteps.chModeDel (.inl hp) _ _ (by decide)).trans (.chModeDel (.inl hp) _ _ (by decide))
  · exact .rfl'

theorem chaninfoTopic_steps (hx : x.topics) (cl f ch : Nat) (req : Request) :
    KSteps x s (chaninfoTopic s cl f ch req) := by
  simp only [chaninfoTopic]
  generalize (if req.argc = 5 then req.arg 4 else if req.argc = 3 then req.arg 2 else []) = topic
  split
  · exact (channelSetTopic_steps hx ch (some (s.cl cl)) topic).congr_right rfl
  · exact .rfl'

theorem ircCHANINFO_steps {cl : Nat} {req : Request} (h : Hnd x s cl req)
    (ht : (s.cl cl).type = .server) (hm : Spec.Is req "CHANINFO") :
    KSteps x s (ircCHANINFO s cl req).1 := by
  simp only [ircCHANINFO]
  split
  · exact .same rfl
  · split
    · rename_i hg; exact .same (getSender_err hg)
    · rename_i f hf
      generalize hr : chaninfoChan s (req.arg 0) = r
      have h1 : KSteps x s r.1 := by
        rw [← hr]
        unfold chaninfoChan
        cases hs : channelSearch s (req.arg 0) with
        | some c => exact .rfl'
        | none =>
          refine ⟨.one (.create (req.arg 0) id) ⟨hs, fun _ => ⟨rfl, rfl, rfl⟩, ?_, ?_, ?_, fun _ h => h, .inl (h.peer ht)⟩ ?_, rfl, rfl, rfl⟩
          · exact h.polite.elim .inr (fun hp => .inl (hp.chaninfo ht hm).1)
          · intro c hc; rw [id, hc]; exact List.nodup_nil
          · refine h.tidy.elim .inr (fun htd => ?_)
            obtain ⟨ch, hch⟩ := htd.chaninfo hm
            rw [hs] at hch; cases hch
          · simp only [Act.run, Srv.updChan, id, ite_self, List.map_id']
      have h2 := chaninfoModes_steps (x := x) (s := r.1) cl f r.2 (req := req) (h.peer ht)
        (h.polite.elim .inr (fun hp => .inl (hp.chaninfo ht hm).2))
      have h3 := chaninfoTopic_steps (x := x) (s := chaninfoModes r.1 cl f r.2 req) (.inl (h.peer ht)) cl f r.2 req
      exact ((h1.trans h2).trans h3).congr_right rfl

end Ngircd
