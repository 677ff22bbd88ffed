import Verif.Lemmas.Strict4

/-!
# What one event does to one client
-/

set_option linter.unusedSimpArgs false

namespace Ngircd

variable {x : Ctx} {s t u : Srv}

theorem mem_modeAdd {l : Str} {m k : Char} (h : k ∈ (modeAdd l m).1) : k ∈ l ∨ k = m := by
  simp only [modeAdd] at h
  split at h
  · exact .inl h
  · simp only [strlcat] at h
    split at h
    · split at h
      · rcases List.mem_append.1 h with h | h
        · exact .inl h
        · have := List.mem_of_mem_take h
          exact .inr (by simpa using this)
      · rcases List.mem_append.1 h with h | h
        · exact .inl h
        · exact .inr (by simpa using h)
    · exact .inl h

theorem modeAdd_keeps {l : Str} {m k : Char} (h : k ∈ l) : k ∈ (modeAdd l m).1 := by
  simp only [modeAdd]
  split
  · exact h
  · simp only [strlcat]
    split
    · split <;> exact List.mem_append_left _ h
    · exact h

theorem mem_modeDel {l : Str} {m k : Char} (h : k ∈ (modeDel l m).1) : k ∈ l := by
  simp only [modeDel] at h
  split at h
  · exact List.mem_of_mem_erase h
  · exact h

theorem modeDel_keeps {l : Str} {m k : Char} (h : k ∈ l) (hne : k ≠ m) : k ∈ (modeDel l m).1 := by
  simp only [modeDel]
  split
  · exact (List.mem_erase_of_ne hne).2 h
  · exact h

theorem run_nextRef (t : Srv) (a : Act) : t.nextRef ≤ (a.run t).nextRef := by
  cases a with
  | umode r m set => simp only [Act.run]; split <;> exact Nat.le_refl _
  | setType r ty =>
    simp only [Act.run, clientSetType]
    generalize hu : (t.updCl r fun c => if ty = .server then { c with type := ty, mytoken := genMyToken t } else { c with type := ty }) = u
    obtain ⟨_, _, h⟩ := adjustCounters_eq u (u.cl r)
    rw [h, ← hu]; exact Nat.le_refl _
  | newCl c =>
    simp only [Act.run, initNewClient]
    obtain ⟨_, _, h⟩ := adjustCounters_eq { t with clients := c :: t.clients, nextRef := t.nextRef + 1 } c
    rw [h]; exact Nat.le_succ _
  | newLocal c k =>
    simp only [Act.run, initNewClient]
    obtain ⟨_, _, h⟩ := adjustCounters_eq { t with clients := c :: t.clients, nextRef := t.nextRef + 1 } c
    rw [h]; exact Nat.le_succ _
  | destroy c => exact Nat.le_of_eq (destroySelf_fields t c none false).2.2.2.2.2.symm
  | whowas c =>
    obtain ⟨a', b', h2⟩ := registerWhowas_eq t c
    simp only [Act.run]; rw [h2]; exact Nat.le_refl _
  | create name f => exact Nat.le_succ _
  | createJoin name r => exact Nat.le_succ _
  | remove ch r => simp only [Act.run, deleteIfEmpty]; split <;> exact Nat.le_refl _
  | chMode ch m set => simp only [Act.run]; split <;> exact Nat.le_refl _
  | mmode ch r m set => simp only [Act.run]; split <;> exact Nat.le_refl _
  | _ => exact Nat.le_refl _

/-- The mode string after a change. -/
def modesAfter (l : Str) (m : Char) (set : Bool) : Str := if set then (modeAdd l m).1 else (modeDel l m).1

/-- What an action does to a client that was there before. -/
structure Kept (a : Act) (c d : Client) : Prop where
  ref : d.ref = c.ref
  conn : d.conn = c.conn
  modes : d.modes = c.modes ∨ ∃ m set, a = .umode c.ref m set ∧ d.modes = modesAfter c.modes m set
  type : d.type = c.type ∨ ∃ ty, a = .setType c.ref ty ∧ d.type = ty
  id : d.id = c.id ∨ ∃ id, a = .setId c.ref id

/-- Where the clients after an action come from. -/
theorem run_mem {a : Act} (hp : Okay x t a) {d : Client} (hd : d ∈ (a.run t).clients) :
    (∃ c ∈ t.clients, Kept a c d) ∨
    (d.ref = t.nextRef ∧ ((x.peer ∧ d.conn = none) ∨
      (d.modes = [] ∧ d.id = [] ∧ (d.type = .unknown ∨ d.type = .unknownServer) ∧ d.conn.isSome = true))) := by
  cases a with
  | soft r f =>
    obtain ⟨c, hc, rfl⟩ := mem_updCl.1 hd
    left
    refine ⟨c, hc, ?_⟩
    split
    · obtain ⟨h1, h2, h3, h4, h5, h6, h7, h8⟩ := hp.keeps c
      exact ⟨h1, h5, .inl h7, .inl h4, .inl h2⟩
    · exact ⟨rfl, rfl, .inl rfl, .inl rfl, .inl rfl⟩
  | umode r m set =>
    rw [umode_clients] at hd
    obtain ⟨c, hc, rfl⟩ := mem_updCl.1 hd
    left
    refine ⟨c, hc, ?_⟩
    split
    · rename_i hr
      subst hr
      exact ⟨rfl, rfl, .inr ⟨m, set, rfl, rfl⟩, .inl rfl, .inl rfl⟩
    · exact ⟨rfl, rfl, .inl rfl, .inl rfl, .inl rfl⟩
  | setId r id =>
    obtain ⟨c, hc, rfl⟩ := mem_updCl.1 hd
    left
    refine ⟨c, hc, ?_⟩
    split
    · rename_i hr
      subst hr
      refine ⟨setIdC_ref _ _ _, ?_, .inl ?_, .inl (setIdC_type _ _ _), .inr ⟨id, rfl⟩⟩ <;>
        (simp only [setIdC]; split <;> rfl)
    · exact ⟨rfl, rfl, .inl rfl, .inl rfl, .inl rfl⟩
  | setType r ty =>
    rw [setType_clients] at hd
    obtain ⟨c, hc, rfl⟩ := mem_updCl.1 hd
    left
    refine ⟨c, hc, ?_⟩
    split
    · rename_i hr
      subst hr
      refine ⟨?_, ?_, .inl ?_, .inr ⟨ty, rfl, ?_⟩, .inl ?_⟩ <;> (unfold typeC; split <;> rfl)
    · exact ⟨rfl, rfl, .inl rfl, .inl rfl, .inl rfl⟩
  | setIntro r tok =>
    obtain ⟨c, hc, rfl⟩ := mem_updCl.1 hd
    left
    refine ⟨c, hc, ?_⟩
    split <;> exact ⟨rfl, rfl, .inl rfl, .inl rfl, .inl rfl⟩
  | newCl c =>
    rw [newCl_clients] at hd
    rcases List.mem_cons.1 hd with rfl | hd
    · exact .inr ⟨hp.2.1, .inl ⟨hp.1, hp.2.2.1⟩⟩
    · exact .inl ⟨d, hd, rfl, rfl, .inl rfl, .inl rfl, .inl rfl⟩
  | newLocal c k =>
    rw [newLocal_clients] at hd
    rcases List.mem_cons.1 hd with rfl | hd
    · obtain ⟨h1, h2, h3, h4, h5, h6, h7, h8, h9, h10, _⟩ := hp
      exact .inr ⟨h1, .inr ⟨h9, h2, h5, by rw [h6]; rfl⟩⟩
    · exact .inl ⟨d, hd, rfl, rfl, .inl rfl, .inl rfl, .inl rfl⟩
  | destroy c =>
    rw [destroy_run_clients] at hd
    exact .inl ⟨d, (List.mem_filter.1 hd).1, rfl, rfl, .inl rfl, .inl rfl, .inl rfl⟩
  | _ =>
    rw [run_clients rfl t] at hd
    exact .inl ⟨d, hd, rfl, rfl, .inl rfl, .inl rfl, .inl rfl⟩

/-- The default modes do not change unless a new configuration is read. -/
theorem steps_defModes (h : Steps (Okay x) s t) (hn : x.newConf = none) :
    t.conf.defaultUserModes = s.conf.defaultUserModes := by
  refine h.inv (I := fun t => t.conf.defaultUserModes = s.conf.defaultUserModes) ?_ ?_ rfl
  · intro s t hc hi; rw [core_conf hc]; exact hi
  · intro t a hi hp
    by_cases hc : ∃ c, a = .conf c
    · obtain ⟨c, rfl⟩ := hc
      rcases hp.2.2.2.2 with h | ⟨c', h, _⟩
      · exact h.trans hi
      · rw [hn] at h; cases h
    · rw [run_conf t hc]; exact hi

/-- The modes a client may have got by an event. -/
def Earned (x : Ctx) (s : Srv) (r : Nat) (m : Char) : Prop :=
  m ∈ "bBCiIrswx".toList ∨
  (m ∈ "cqF".toList ∧ ((∃ c ∈ s.clients, c.ref = r ∧ 'o' ∈ c.modes) ∨
    (x.fresh ∧ 'o' ∈ s.conf.defaultUserModes) ∨ x.is "OPER")) ∨
  (m = 'a' ∧ x.is "AWAY") ∨ (m = 'o' ∧ x.is "OPER")

/-- How a client can have got a mode. -/
def ModeFrom (x : Ctx) (s : Srv) (r : Nat) (m : Char) : Prop :=
  (∃ c ∈ s.clients, c.ref = r ∧ m ∈ c.modes) ∨ x.peer ∨
  (x.fresh ∧ m ∈ s.conf.defaultUserModes) ∨ (r = x.cl ∧ Earned x s r m)

theorem steps_modes (h : Steps (Okay x) s t) (hb : Base s) (hn : x.newConf = none ∨ ¬ x.fresh) :
    ∀ c ∈ t.clients, ∀ m ∈ c.modes, ModeFrom x s c.ref m := by
  induction h with
  | refl hc =>
    intro c hcm m hm
    rw [core_clients hc] at hcm
    exact .inl ⟨c, hcm, rfl, hm⟩
  | @tail t s' a hst hp hcore ih =>
    intro d hd m hm
    rw [core_clients hcore] at hd
    have hbt := hst.base hb
    rcases run_mem hp hd with ⟨c, hc, hk⟩ | ⟨_, ⟨h, _⟩ | ⟨h, _⟩⟩
    · rw [hk.ref]
      rcases hk.modes with he | ⟨m', set, rfl, he⟩
      · rw [he] at hm; exact ih c hc m hm
      · rw [he] at hm
        have hold : m ∈ c.modes ∨ (m = m' ∧ set = true) := by
          unfold modesAfter at hm
          split at hm
          · rename_i hs
            exact (mem_modeAdd hm).imp id (fun h => ⟨h, hs⟩)
          · exact .inl (mem_modeDel hm)
        rcases hold with hold | ⟨rfl, rfl⟩
        · exact ih c hc m hold
        · rcases hp with hp | ⟨hf, hp, _⟩ | ⟨hr, hp⟩
          · exact .inr (.inl hp)
          · have hn' := hn.resolve_right (fun h => h hf)
            rw [steps_defModes hst hn'] at hp
            exact .inr (.inr (.inl ⟨hf, hp⟩))
          · rcases hp with ⟨_, hp⟩ | ⟨h, _⟩
            · have hcl : t.cl c.ref = c := cl_of_mem' hbt.cl.ord hc rfl
              rcases hp with hp | ⟨h1, h2⟩ | hp | hp
              · exact .inr (.inr (.inr ⟨hr, .inl hp⟩))
              · rw [hcl] at h2
                have h2 : 'o' ∈ c.modes := by simpa [Client.hasMode, hasChar] using h2
                rcases ih c hc 'o' h2 with g | g | g | ⟨_, g⟩
                · exact .inr (.inr (.inr ⟨hr, .inr (.inl ⟨h1, .inl g⟩)⟩))
                · exact .inr (.inl g)
                · exact .inr (.inr (.inr ⟨hr, .inr (.inl ⟨h1, .inr (.inl g)⟩)⟩))
                · refine .inr (.inr (.inr ⟨hr, .inr (.inl ⟨h1, .inr (.inr ?_)⟩)⟩))
                  rcases g with g | g | g | g
                  · exact absurd g (by decide)
                  · exact absurd g.1 (by decide)
                  · exact absurd g.1 (by decide)
                  · exact g.2
              · exact .inr (.inr (.inr ⟨hr, .inr (.inr (.inl hp))⟩))
              · exact .inr (.inr (.inr ⟨hr, .inr (.inr (.inr ⟨hp.1, hp.2.1⟩))⟩))
            · cases h
    · exact .inr (.inl h)
    · rw [h] at hm; cases hm

/-- How a client can have lost a mode. -/
def ModeLost (x : Ctx) (s : Srv) (r : Nat) (m : Char) : Prop :=
  x.peer ∨ (x.fresh ∧ m ∈ s.conf.defaultUserModes) ∨ (r = x.cl ∧ m ≠ 'r' ∧ m ≠ 'R')

theorem steps_lost (h : Steps (Okay x) s t) (hb : Base s) (hn : x.newConf = none ∨ ¬ x.fresh) :
    (∀ c0 ∈ s.clients, ∀ c ∈ t.clients, c.ref = c0.ref → ∀ m ∈ c0.modes, m ∈ c.modes ∨ ModeLost x s c.ref m) ∧
    s.nextRef ≤ t.nextRef := by
  induction h with
  | refl hc =>
    refine ⟨fun c0 h0 c hcm he m hm => ?_, Nat.le_of_eq (core_nextRef hc).symm⟩
    rw [core_clients hc] at hcm
    have h1 : s.cl c.ref = c := cl_of_mem' hb.cl.ord hcm rfl
    have h2 : s.cl c.ref = c0 := cl_of_mem' hb.cl.ord h0 he.symm
    rw [h1] at h2
    subst h2
    exact .inl hm
  | @tail t s' a hst hp hcore ih =>
    obtain ⟨ih, hle⟩ := ih
    refine ⟨fun c0 h0 d hd he m hm => ?_, ?_⟩
    · rw [core_clients hcore] at hd
      rcases run_mem hp hd with ⟨c, hc, hk⟩ | ⟨hr, _⟩
      · rw [hk.ref] at he ⊢
        rcases ih c0 h0 c hc he m hm with g | g
        · rcases hk.modes with hme | ⟨m', set, rfl, hme⟩
          · rw [hme]; exact .inl g
          · rw [hme]
            by_cases hmm : set = false ∧ m = m'
            · obtain ⟨rfl, rfl⟩ := hmm
              right
              rcases hp with hp | ⟨hf, hp, _⟩ | ⟨hr, hp⟩
              · exact .inl hp
              · have hn' := hn.resolve_right (fun h => h hf)
                rw [steps_defModes hst hn'] at hp
                exact .inr (.inl ⟨hf, hp⟩)
              · rcases hp with ⟨h, _⟩ | ⟨_, h⟩
                · cases h
                · exact .inr (.inr ⟨hr, h⟩)
            · left
              unfold modesAfter
              split
              · exact modeAdd_keeps g
              · rename_i hs
                refine modeDel_keeps g (fun e => hmm ⟨by simpa using hs, e⟩)
        · exact .inr g
      · have := hb.cl.lt c0 h0
        omega
    · rw [core_nextRef hcore]
      exact Nat.le_trans hle (run_nextRef t a)

end Ngircd
