import Verif.Lemmas.Join

/-!
# What a MODE command of a user does to a channel
-/

set_option linter.unusedSimpArgs false

namespace Ngircd
open Spec

variable {s t u : Srv} {cl ch : Nat}

/-- What has become of `s` while a MODE of the user `cl` on the channel `ch` is being handled. -/
structure MR (s t : Srv) (cl ch : Nat) : Prop where
  clients : t.clients = s.clients
  conf : t.conf = s.conf
  this : t.this = s.this
  chans : ∀ d ∈ t.chans, ∃ c ∈ s.chans, ChannelChange s cl c d ∧ (d = c ∨ c.ref = ch)
  chans' : ∀ c ∈ s.chans, ∃ d ∈ t.chans, ChannelChange s cl c d ∧ (d = c ∨ c.ref = ch)
  cl2 : ∀ b ∈ t.cl2, ∃ a ∈ s.cl2, RankChange s cl a b ∧ (b = a ∨ a.chan = ch)
  cl2' : ∀ a ∈ s.cl2, ∃ b ∈ t.cl2, RankChange s cl a b ∧ (b = a ∨ a.chan = ch)

theorem Spec.ChannelChange.rfl' (s : Srv) (r : Nat) (c : Chan) : ChannelChange s r c c :=
  ⟨rfl, .inl rfl, fun _ h => .inl h, fun _ h => .inl h⟩

theorem Spec.RankChange.rfl' (s : Srv) (r : Nat) (c : Cl2Chan) : RankChange s r c c :=
  ⟨rfl, rfl, .inl rfl, fun _ h => .inl h, fun _ h => .inl h⟩

theorem MR.rfl' : MR s s cl ch :=
  ⟨rfl, rfl, rfl, fun c hc => ⟨c, hc, .rfl' _ _ _, .inl rfl⟩, fun c hc => ⟨c, hc, .rfl' _ _ _, .inl rfl⟩,
    fun c hc => ⟨c, hc, .rfl' _ _ _, .inl rfl⟩, fun c hc => ⟨c, hc, .rfl' _ _ _, .inl rfl⟩⟩

theorem MR.core (h : MR s t cl ch) (hc : u.core = t.core) : MR s u cl ch := by
  refine ⟨(core_clients hc).trans h.clients, (core_conf hc).trans h.conf, (core_this hc).trans h.this, ?_, ?_, ?_, ?_⟩
  · rw [core_chans hc]; exact h.chans
  · rw [core_chans hc]; exact h.chans'
  · rw [core_cl2 hc]; exact h.cl2
  · rw [core_cl2 hc]; exact h.cl2'

/-- Changing the channel. -/
theorem MR.upd (h : MR s t cl ch) (hhalf : IsHalf s ch cl) {f : Chan → Chan}
    (hrest : ∀ d, f d = { d with modes := (f d).modes, key := (f d).key, maxusers := (f d).maxusers, bans := (f d).bans, excepts := (f d).excepts, invites := (f d).invites })
    (hset : ∀ d, ∀ m ∈ (f d).modes, m ∈ d.modes ∨ MaySet s ch cl m)
    (hunset : ∀ d : Chan, ∀ m ∈ d.modes, m ∈ (f d).modes ∨ MayUnset s ch cl m) :
    MR s (t.updChan ch f) cl ch := by
  have key : ∀ c d, ChannelChange s cl c d → d.ref = ch →
      ChannelChange s cl c (f d) ∧ c.ref = ch := by
    intro c d g hd
    have hcr : c.ref = ch := by rw [← hd, g.rest]
    refine ⟨⟨?_, .inr (by rw [hcr]; exact hhalf), ?_, ?_⟩, hcr⟩
    · refine (hrest d).trans ?_
      have h2 := g.rest
      have e1 := congrArg Chan.ref h2
      have e2 := congrArg Chan.name h2
      have e3 := congrArg Chan.hash h2
      have e4 := congrArg Chan.topic h2
      have e5 := congrArg Chan.topicTime h2
      have e6 := congrArg Chan.topicWho h2
      have e7 := congrArg Chan.creationTime h2
      have e8 := congrArg Chan.keyfile h2
      simp only at e1 e2 e3 e4 e5 e6 e7 e8
      simp only [e1, e2, e3, e4, e5, e6, e7, e8]
    · intro m hm
      rcases hset d m hm with g1 | g1
      · exact g.set m g1
      · right; rw [hcr]; exact g1
    · intro m hm
      rcases g.unset m hm with g1 | g1
      · rcases hunset d m g1 with g2 | g2
        · exact .inl g2
        · right; rw [hcr]; exact g2
      · exact .inr g1
  refine ⟨h.clients, h.conf, h.this, ?_, ?_, h.cl2, h.cl2'⟩
  · intro d hd
    obtain ⟨d0, hd0, rfl⟩ := mem_updChan.1 hd
    obtain ⟨c, hc, g1, g2⟩ := h.chans d0 hd0
    by_cases he : d0.ref = ch
    · rw [if_pos he]
      obtain ⟨k1, k2⟩ := key c d0 g1 he
      exact ⟨c, hc, k1, .inr k2⟩
    · rw [if_neg he]; exact ⟨c, hc, g1, g2⟩
  · intro c hc
    obtain ⟨d0, hd0, g1, g2⟩ := h.chans' c hc
    refine ⟨_, mem_updChan.2 ⟨d0, hd0, rfl⟩, ?_⟩
    by_cases he : d0.ref = ch
    · rw [if_pos he]
      obtain ⟨k1, k2⟩ := key c d0 g1 he
      exact ⟨k1, .inr k2⟩
    · rw [if_neg he]; exact ⟨g1, g2⟩

/-- Changing a rank. -/
theorem MR.rank (h : MR s t cl ch) {m : Char} {r : Nat} (set : Bool) (hm : MayRank s ch cl m) :
    MR s (if set then userModeAdd t ch r m else userModeDel t ch r m).1 cl ch := by
  have key : ∀ a b g, RankChange s cl a b → b.chan = ch → (∀ k ∈ g, k ∈ b.modes ∨ k = m) →
      (∀ k ∈ b.modes, k ∈ g ∨ k = m) → RankChange s cl a { b with modes := g } ∧ a.chan = ch := by
    intro a b g hr hb h1 h2
    have ha : a.chan = ch := by rw [← hb, hr.chan]
    refine ⟨⟨hr.chan, hr.client, .inr (by rw [ha]; exact hm.2.1), ?_, ?_⟩, ha⟩
    · intro k hk
      rcases h1 k hk with g1 | rfl
      · exact hr.give k g1
      · right; rw [ha]; exact hm
    · intro k hk
      rcases hr.take k hk with g1 | g1
      · rcases h2 k g1 with g2 | rfl
        · exact .inl g2
        · right; rw [ha]; exact hm
      · exact .inr g1
  have hmap : ∀ f : Str → Str, (∀ l, (∀ k ∈ f l, k ∈ l ∨ k = m) ∧ (∀ k ∈ l, k ∈ f l ∨ k = m)) →
      MR s { t with cl2 := t.cl2.map (fun x => if x.chan = ch ∧ x.client = r then { x with modes := f x.modes } else x) } cl ch := by
    intro f hf
    refine ⟨h.clients, h.conf, h.this, h.chans, h.chans', ?_, ?_⟩
    · intro b hb
      obtain ⟨b0, hb0, rfl⟩ := List.mem_map.1 hb
      obtain ⟨a, ha, g1, g2⟩ := h.cl2 b0 hb0
      split
      · rename_i he
        obtain ⟨k1, k2⟩ := key a b0 _ g1 he.1 (hf b0.modes).1 (hf b0.modes).2
        exact ⟨a, ha, k1, .inr k2⟩
      · exact ⟨a, ha, g1, g2⟩
    · intro a ha
      obtain ⟨b0, hb0, g1, g2⟩ := h.cl2' a ha
      refine ⟨_, List.mem_map.2 ⟨b0, hb0, rfl⟩, ?_⟩
      split
      · rename_i he
        obtain ⟨k1, k2⟩ := key a b0 _ g1 he.1 (hf b0.modes).1 (hf b0.modes).2
        exact ⟨k1, .inr k2⟩
      · exact ⟨g1, g2⟩
  cases set with
  | true => exact hmap _ (fun l => ⟨fun k hk => mem_modeAdd hk, fun k hk => .inl (modeAdd_keeps hk)⟩)
  | false =>
    refine hmap _ (fun l => ⟨fun k hk => .inl (mem_modeDel hk), fun k hk => ?_⟩)
    by_cases he : k = m
    · exact .inr he
    · exact .inl (modeDel_keeps hk he)

/-- The rights collected so far are those the client had at the beginning. -/
structure RightsOf (s : Srv) (cl ch : Nat) (r : Rights) : Prop where
  machine : r.machine = false
  oper : r.oper = true → Override s cl
  owner : r.owner = true → IsOwner s ch cl
  admin : r.admin = true → IsAdmin s ch cl
  op : r.op = true → IsChop s ch cl
  halfop : r.halfop = true → IsHalf s ch cl

theorem RightsOf.top {r : Rights} (h : RightsOf s cl ch r) (ht : r.top = true) : Override s cl := by
  simp only [Rights.top, h.machine, Bool.or_false] at ht
  exact h.oper ht

theorem RightsOf.ownerR {r : Rights} (h : RightsOf s cl ch r) (ht : (r.oper || r.machine || r.owner) = true) :
    IsOwner s ch cl := by
  simp only [h.machine, Bool.or_false, Bool.or_eq_true] at ht
  exact ht.elim (fun g => .inl (h.oper g)) h.owner

theorem RightsOf.adminR {r : Rights} (h : RightsOf s cl ch r)
    (ht : (r.oper || r.machine || r.owner || r.admin) = true) : IsAdmin s ch cl := by
  rw [Bool.or_eq_true] at ht
  exact ht.elim (fun g => .inl (h.ownerR g)) h.admin

theorem RightsOf.chop {r : Rights} (h : RightsOf s cl ch r) (ht : r.chop = true) : IsChop s ch cl := by
  rw [Rights.chop, Bool.or_eq_true] at ht
  exact ht.elim (fun g => .inl (h.adminR g)) h.op

theorem RightsOf.half {r : Rights} (h : RightsOf s cl ch r) (ht : r.half = true) : IsHalf s ch cl := by
  rw [Rights.half, Bool.or_eq_true] at ht
  exact ht.elim (fun g => .inl (h.chop g)) h.halfop

theorem userHasMode_rank {m : Char} (h : userHasMode t ch cl m = true) : HasRank t ch cl m := by
  simp only [userHasMode, userModes, hasChar_iff] at h
  split at h
  · rename_i k hk
    have := List.find?_some hk
    simp only [Bool.and_eq_true, beq_iff_eq] at this
    exact ⟨k, List.mem_of_find?_eq_some hk, this.1, this.2, h⟩
  · cases h

theorem RightsOf.collect {r : Rights} (h : RightsOf s cl ch r) (hm : MR s t cl ch) :
    RightsOf s cl ch (collectRights t r ch cl) := by
  have key : ∀ {m : Char} {b : Bool}, (b || userHasMode t ch cl m) = true →
      b = true ∨ HasRank s ch cl m ∨ MayRank s ch cl m := by
    intro m b hb
    rw [Bool.or_eq_true] at hb
    refine hb.imp id (fun g => ?_)
    obtain ⟨k, hk, e1, e2, e3⟩ := userHasMode_rank g
    obtain ⟨a, ha, g1, -⟩ := hm.cl2 k hk
    have e4 : a.chan = ch := by rw [← e1, g1.chan]
    rcases g1.give m e3 with g2 | g2
    · exact .inl ⟨a, ha, e4, by rw [← e2, g1.client], g2⟩
    · right; rw [← e4]; exact g2
  simp only [collectRights]
  split
  · exact h
  · refine ⟨h.machine, h.oper, ?_, ?_, ?_, ?_⟩
    · intro g
      rcases key g with g | g | g
      · exact h.owner g
      · exact .inr g
      · exact g.2.2.1 rfl
    · intro g
      rcases key g with g | g | g
      · exact h.admin g
      · exact .inr g
      · exact g.2.2.2.1 rfl
    · intro g
      rcases key g with g | g | g
      · exact h.op g
      · exact .inr g
      · exact g.2.2.2.2 (.inl rfl)
    · intro g
      rcases key g with g | g | g
      · exact h.halfop g
      · exact .inr g
      · exact .inl (g.2.2.2.2 (.inr rfl))

/-- The state of the loop. -/
def MS (s : Srv) (cl ch : Nat) (st : CModeSt) : Prop := MR s st.s cl ch ∧ RightsOf s cl ch st.rights

theorem MS.core {st st' : CModeSt} (h : MS s cl ch st) (h1 : st'.s.core = st.s.core) (h2 : st'.rights = st.rights) :
    MS s cl ch st' := ⟨h.1.core h1, by rw [h2]; exact h.2⟩

/-- What an answer of the `switch` entitles to. -/
def ActOK (s : Srv) (cl ch : Nat) (set : Bool) (m : Char) : CAct → Prop
  | .exit => True
  | .skip => True
  | .chanMode _ => if set then MaySet s ch cl m else MayUnset s ch cl m
  | .memberMode _ => MayRank s ch cl m


theorem cmArgMode_MS {st : CModeSt} {o : Nat} {c : Chan} {m : Char} {req : Request}
    (h : MS s cl c.ref st) (hm : m = 'k' ∨ m = 'l') :
    MS s cl c.ref (cmArgMode st cl o c m req).1 ∧ (cmArgMode st cl o c m req).1.set = st.set ∧
    ActOK s cl c.ref st.set m (cmArgMode st cl o c m req).2 := by
  have hmem : m ∈ channelModes := by rcases hm with rfl | rfl <;> decide
  have hno : ∀ l : Str, l = "Rsz".toList ∨ l = "OP".toList ∨ l = "RszOP".toList → m ∉ l := by
    rintro l (rfl | rfl | rfl) <;> rcases hm with rfl | rfl <;> decide
  have hset : IsHalf s c.ref cl → MaySet s c.ref cl m := fun g =>
    ⟨hmem, g, fun k => absurd k (hno _ (.inl rfl)), fun k => absurd k (hno _ (.inr (.inl rfl)))⟩
  have hunset : IsHalf s c.ref cl → MayUnset s c.ref cl m := fun g =>
    ⟨hmem, g, fun k => absurd k (hno _ (.inr (.inr rfl)))⟩
  simp only [cmArgMode]
  split
  · exact ⟨h.core rfl rfl, rfl, trivial⟩
  split
  · rename_i hs
    have hs : st.set = false := by simpa using hs
    split
    · rename_i hh
      have hu := hunset (h.2.half hh)
      split
      · exact ⟨h.core rfl rfl, rfl, by rw [hs]; exact hu⟩
      · exact ⟨h.core rfl rfl, rfl, by rw [hs]; exact hu⟩
    · exact ⟨h.core rfl rfl, rfl, trivial⟩
  · rename_i hs
    have hs : st.set = true := by simpa using hs
    split
    · split <;> exact ⟨h.core rfl rfl, rfl, trivial⟩
    · rename_i a as hargs
      generalize (if m = 'k' then !a.isEmpty && !hasChar a ' '
        else decide (0 < atoi a) && decide (atoi a < 0xFFFF)) = valid
      cases valid
      · simp only [Bool.not_false, if_true]
        split <;> exact ⟨h.core rfl rfl, rfl, trivial⟩
      · simp only [Bool.not_true, Bool.false_eq_true, if_false]
        split
        · rename_i hh
          have hhalf := h.2.half hh
          have h1 : MR s (channelModeDel st.s c.ref m).1 cl c.ref := by
            refine h.1.upd hhalf (f := fun c => { c with modes := (modeDel c.modes m).1 }) (fun _ => rfl)
              (fun d k hk => .inl (mem_modeDel hk)) (fun d k hk => ?_)
            by_cases he : k = m
            · right; rw [he]; exact hunset hhalf
            · exact .inl (modeDel_keeps hk he)
          refine ⟨⟨?_, h.2⟩, rfl, by rw [hs]; exact hset hhalf⟩
          simp only
          split
          · exact h1.upd hhalf (f := fun c => { c with key := strlcpy 65 a }) (fun _ => rfl) (fun _ _ h => .inl h) (fun _ _ h => .inl h)
          · exact h1.upd hhalf (f := fun c => { c with maxusers := (atoi a).toNat }) (fun _ => rfl) (fun _ _ h => .inl h) (fun _ _ h => .inl h)
        · exact ⟨h.core rfl rfl, rfl, trivial⟩

theorem cmMemberMode_MS {st : CModeSt} {o : Nat} {c : Chan} {m : Char}
    (h : MS s cl c.ref st) (hm : m ∈ "qaohv".toList) :
    MS s cl c.ref (cmMemberMode st o c m).1 ∧ (cmMemberMode st o c m).1.set = st.set ∧
    ActOK s cl c.ref st.set m (cmMemberMode st o c m).2 := by
  simp only [cmMemberMode]
  cases hd : memberModeDeny st.rights m with
  | some e => exact ⟨h.core rfl rfl, rfl, trivial⟩
  | none =>
    simp only
    split
    · exact ⟨h.core rfl rfl, rfl, trivial⟩
    · split
      · rename_i hh
        split
        · refine ⟨h.core rfl rfl, rfl, hm, h.2.half hh, ?_, ?_, ?_⟩
          · rintro rfl
            simp only [memberModeDeny] at hd
            split at hd
            · cases hd
            · rename_i g
              exact h.2.ownerR (by
                revert g
                cases st.rights.oper <;> cases st.rights.machine <;> cases st.rights.owner <;> decide)
          · rintro rfl
            simp only [memberModeDeny] at hd
            split at hd
            · cases hd
            · split at hd
              · cases hd
              · rename_i g
                exact h.2.adminR (by
                  revert g
                  cases st.rights.oper <;> cases st.rights.machine <;> cases st.rights.owner <;>
                    cases st.rights.admin <;> decide)
          · intro hoh
            simp only [memberModeDeny] at hd
            split at hd
            · cases hd
            · split at hd
              · cases hd
              · split at hd
                · cases hd
                · rename_i g
                  rcases hoh with rfl | rfl <;> exact h.2.chop (by simpa using g)
        · exact ⟨h.core rfl rfl, rfl, trivial⟩
      · exact ⟨h.core rfl rfl, rfl, trivial⟩

theorem MR.list (h : MR s t cl ch) (hh : IsHalf s ch cl) (l : CList) (g : Chan → MaskList) :
    MR s (t.updChan ch (fun c => c.setList l (g c))) cl ch := by
  refine h.upd hh (f := fun c => c.setList l (g c)) ?_ ?_ ?_
  · intro d; cases l <;> rfl
  · intro d m hm; left; cases l <;> exact hm
  · intro d m hm; left; cases l <;> exact hm

theorem core_listChange (s : Srv) (b : Bool) (l : CList) (p c : Client) (ch : Chan) (m : Str) :
    (sendListChange s b l p c ch m).core = s.core := by
  simp only [sendListChange]
  rw [core_writeChannelPrefix, core_writeServers]
  split <;> rfl

theorem MR.chan_ref (h : MR s t cl ch) {c : Chan} (hc : c ∈ s.chans) : (t.chan c.ref).ref = c.ref := by
  obtain ⟨d, hd, g, -⟩ := h.chans' c hc
  have hr : d.ref = c.ref := by rw [g.rest]
  simp only [Srv.chan, Srv.chan?]
  cases hf : t.chans.find? (fun x => x.ref == c.ref) with
  | none => have := List.find?_eq_none.1 hf d hd; simp [hr] at this
  | some e => have := List.find?_some hf; simpa using this

theorem cmListMode_MS {st : CModeSt} {o : Nat} {c : Chan} {l : CList}
    (h : MS s cl c.ref st) (hc : (st.s.chan c.ref).ref = c.ref) {m : Char} :
    MS s cl c.ref (cmListMode st cl o c l).1 ∧ (cmListMode st cl o c l).1.set = st.set ∧
    ActOK s cl c.ref st.set m (cmListMode st cl o c l).2 := by
  simp only [cmListMode]
  split
  · exact ⟨h.core rfl rfl, rfl, trivial⟩
  · split
    · exact ⟨h.core (by simp) rfl, rfl, trivial⟩
    · split
      · rename_i hh
        have hhalf := h.2.half hh
        refine ⟨⟨?_, h.2⟩, rfl, trivial⟩
        simp only
        split
        · simp only [addToList]
          split
          · exact h.1
          · split
            · exact h.1.core rfl
            · rw [hc]
              exact (h.1.list hhalf l _).core (core_listChange ..)
        · simp only [delFromList]
          split
          · exact h.1
          · rw [hc]
            exact (h.1.list hhalf l _).core (core_listChange ..)
      · exact ⟨h.core rfl rfl, rfl, trivial⟩


theorem cmSwitch_MS {st : CModeSt} {o : Nat} {c : Chan} {m : Char} {req : Request} (hc : c ∈ s.chans)
    (h : MS s cl c.ref st) (hty : (s.cl cl).type ≠ .server) :
    MS s cl c.ref (cmSwitch st cl o c m req).1 ∧ (cmSwitch st cl o c m req).1.set = st.set ∧
    ActOK s cl c.ref st.set m (cmSwitch st cl o c m req).2 := by
  have hty' : (st.s.cl cl).type ≠ .server := by
    have : st.s.cl cl = s.cl cl := by simp only [Srv.cl, Srv.cl?, h.1.clients]
    rw [this]; exact hty
  simp only [cmSwitch]
  split
  · exact ⟨h.core rfl rfl, rfl, trivial⟩
  rename_i hR
  split
  · rename_i hm
    have hm : m ∈ "RsziVMmnNQt".toList := by simpa using hm
    split
    · rename_i hh
      refine ⟨h, rfl, ?_⟩
      have hhalf := h.2.half hh
      have hmem : m ∈ channelModes := by
        have : ∀ k ∈ "RsziVMmnNQt".toList, k ∈ channelModes := by decide
        exact this m hm
      have hop : m ∉ "OP".toList := by
        have : ∀ k ∈ "RsziVMmnNQt".toList, k ∉ "OP".toList := by decide
        exact this m hm
      have hch : m ∈ "Rsz".toList → IsChop s c.ref cl := by
        intro hr
        refine h.2.chop ?_
        simp only [Bool.and_eq_true, Bool.not_eq_true', not_and, Bool.not_eq_false] at hR
        exact hR (by simpa using hr)
      have hsplit : ∀ k ∈ "RszOP".toList, k ∈ "Rsz".toList ∨ k ∈ "OP".toList := by decide
      show if st.set = true then _ else _
      split
      · exact ⟨hmem, hhalf, hch, fun k => absurd k hop⟩
      · exact ⟨hmem, hhalf, fun k => hch ((hsplit m k).resolve_right hop)⟩
    · exact ⟨h.core rfl rfl, rfl, trivial⟩
  split
  · rename_i hkl
    exact cmArgMode_MS h hkl
  split
  · rename_i hOP
    have hmem : m ∈ channelModes := by rcases hOP with rfl | rfl <;> decide
    split
    · rename_i hs
      split
      · rename_i ht
        refine ⟨h, rfl, ?_⟩
        show if st.set = true then _ else _
        rw [if_pos hs]
        exact ⟨hmem, .inl (.inl (.inl (.inl (h.2.top ht)))), fun _ => .inl (.inl (.inl (h.2.top ht))), fun _ => h.2.top ht⟩
      · exact ⟨h.core rfl rfl, rfl, trivial⟩
    · rename_i hs
      split
      · rename_i ht
        refine ⟨h, rfl, ?_⟩
        show if st.set = true then _ else _
        rw [if_neg hs]
        exact ⟨hmem, .inl (h.2.chop ht), fun _ => h.2.chop ht⟩
      · exact ⟨h.core rfl rfl, rfl, trivial⟩
  split
  · rename_i hm
    exact cmMemberMode_MS h (by simpa using hm)
  split
  · exact cmListMode_MS h (h.1.chan_ref hc)
  split
  · exact cmListMode_MS h (h.1.chan_ref hc)
  split
  · exact cmListMode_MS h (h.1.chan_ref hc)
  exact ⟨h.core rfl rfl, rfl, trivial⟩

theorem cmApply_MS {st : CModeSt} {o : Nat} {c : Chan} {m : Char} {a : CAct}
    (h : MS s cl c.ref st) (ha : ActOK s cl c.ref st.set m a) : MS s cl c.ref (cmApply st o c m a) := by
  cases a with
  | exit => exact h
  | skip => exact h
  | chanMode add =>
    refine ⟨?_, h.2⟩
    simp only [cmApply]
    simp only [ActOK] at ha
    cases hs : st.set with
    | true =>
      rw [hs] at ha
      simp only [if_true] at ha ⊢
      refine h.1.upd ha.2.1 (f := fun c => { c with modes := (modeAdd c.modes m).1 }) (fun _ => rfl) ?_ ?_
      · intro d k hk
        refine (mem_modeAdd hk).imp id ?_
        rintro rfl; exact ha
      · intro d k hk; exact .inl (modeAdd_keeps hk)
    | false =>
      rw [hs] at ha
      simp only [Bool.false_eq_true, if_false] at ha ⊢
      refine h.1.upd ha.2.1 (f := fun c => { c with modes := (modeDel c.modes m).1 }) (fun _ => rfl) ?_ ?_
      · intro d k hk; exact .inl (mem_modeDel hk)
      · intro d k hk
        by_cases he : k = m
        · right; rw [he]; exact ha
        · exact .inl (modeDel_keeps hk he)
  | memberMode r =>
    simp only [cmApply]
    split
    · exact h.core rfl rfl
    · have := h.1.rank (r := r) st.set ha
      generalize (if st.set = true then userModeAdd st.s c.ref r m else userModeDel st.s c.ref r m) = q at this
      split
      · exact ⟨this, h.2⟩
      · exact ⟨this, h.2⟩

theorem cmChar_MS {st : CModeSt} {o : Nat} {c : Chan} {m : Char} {req : Request} (hc : c ∈ s.chans)
    (h : MS s cl c.ref st) (hty : (s.cl cl).type ≠ .server) : MS s cl c.ref (cmChar st cl o c m req).1 := by
  simp only [cmChar]
  split
  · split
    · exact h.core rfl rfl
    · exact h
  · have h2 : MS s cl c.ref { st with rights := collectRights st.s st.rights c.ref cl } :=
      ⟨h.1, h.2.collect h.1⟩
    have h3 := cmSwitch_MS (o := o) (m := m) (req := req) hc h2 hty
    generalize cmSwitch { st with rights := collectRights st.s st.rights c.ref cl } cl o c m req = r at h3
    obtain ⟨st', a⟩ := r
    obtain ⟨g1, g2, g3⟩ := h3
    have hap := cmApply_MS (o := o) g1 (by rw [g2]; exact g3)
    cases a with
    | exit => exact g1
    | skip => exact hap
    | chanMode x => exact hap
    | memberMode x => exact hap

theorem cmLoop_MS {o : Nat} {c : Chan} {req : Request} (hc : c ∈ s.chans) (hty : (s.cl cl).type ≠ .server)
    (n : Nat) (ptr : Str) (st : CModeSt) (h : MS s cl c.ref st) : MS s cl c.ref (cmLoop cl o c req n ptr st) := by
  induction n generalizing ptr st with
  | zero => exact h
  | succ n ih =>
    cases ptr with
    | nil =>
      simp only [cmLoop]
      split
      · exact h
      · split
        · exact h.core rfl rfl
        · exact ih _ _ (h.core rfl rfl)
    | cons m ms =>
      simp only [cmLoop]
      have h1 := cmChar_MS (o := o) (m := m) (req := req) hc h hty
      generalize cmChar st cl o c m req = r at h1
      obtain ⟨st', b⟩ := r
      cases b with
      | false => exact h1
      | true => exact ih _ _ h1

theorem channelMode_MR {o : Nat} {c : Chan} {req : Request} (hc : c ∈ s.chans)
    (hty : (s.cl cl).type = .user) (hmem : s.cl cl ∈ s.clients) (href : (s.cl cl).ref = cl) :
    MR s (channelMode s cl o c req) cl c.ref := by
  simp only [channelMode]
  split
  · exact MR.rfl'.core rfl
  · split
    · exact MR.rfl'.core rfl
    · split
      · exact MR.rfl'.core rfl
      · rename_i a rest _ _
        refine MR.core (t := (cmLoop cl o c req (argsSize (a :: rest) + 1)
          (if a.head? = some '-' ∨ a.head? = some '+' then a.drop 1 else a)
          { s := s, the := [if (a.head? != some '-') = true then '+' else '-'], set := a.head? != some '-',
            rights := { oper := (s.cl cl).hasMode 'o' && s.conf.operCanMode,
                        machine := (s.cl cl).type = .server || (s.cl cl).type = .service }, args := rest }).s) ?_ ?_
        · refine (cmLoop_MS hc (by rw [hty]; decide) _ _ _ ⟨MR.rfl', ?_⟩).1
          refine ⟨by simp [hty], ?_, (fun h => nomatch h), (fun h => nomatch h), (fun h => nomatch h), (fun h => nomatch h)⟩
          intro h
          simp only [Bool.and_eq_true] at h
          exact ⟨⟨_, hmem, href, hasChar_iff.1 h.1⟩, h.2⟩
        · exact core_cmFinish _ _ _ _

end Ngircd
