import Verif.Lemmas.HMode

/-!
# The commands MODE and AWAY
-/

set_option linter.unusedSimpArgs false

namespace Ngircd

variable {x : Ctx} {s t u : Srv}

theorem SameMem.sameId {ch : Nat} (h : SameMem s t ch) : SameId s t :=
  ⟨h.2.2.1, fun r => by simp only [Srv.cl, Srv.cl?, h.2.1]; exact ⟨trivial, trivial⟩,
    fun n => by simp only [clientSearch, h.2.1]⟩

theorem getSender_err {cl : Nat} {req : Request} {s' : Srv} (h : getSender s cl req = .err s') :
    s'.core = s.core := by
  simp only [getSender] at h
  split at h
  · split at h
    · injection h with h; rw [← h]; exact core_needMoreParams _ _ _
    · split at h
      · injection h with h; rw [← h]; rfl
      · cases h
  · cases h

/-- The sender: the client itself, or, from a server, the client its prefix names. -/
theorem getSender_ok {cl r : Nat} {req : Request} (h : getSender s cl req = .ok r) :
    ((s.cl cl).type ≠ .server ∧ r = cl) ∨
    ((s.cl cl).type = .server ∧ ∃ p c, req.prefix? = some p ∧ clientSearch s p = some c ∧ r = c.ref) := by
  simp only [getSender] at h
  split at h
  · rename_i hs
    split at h
    · cases h
    · rename_i p hp
      split at h
      · cases h
      · rename_i c hc
        injection h with h
        exact .inr ⟨hs, p, c, hp, hc, h.symm⟩
  · rename_i hs
    injection h with h
    exact .inl ⟨hs, h.symm⟩

theorem ircMODE_gen {cl : Nat} {req : Request} {l : Str}
    (hl : ∀ m ∈ (req.argv.drop 1).flatten.drop 1, m ∈ l)
    (hU : ∀ cl' o t, (cl' = cl ∧ (∀ c, req.prefix?.bind (clientSearch s) = some c → c.ref ≠ s.this) ∨
        cl' = s.this ∧ ∃ c, req.prefix?.bind (clientSearch s) = some c ∧ c.ref = s.this) →
      getSender s cl req = .ok o → isValidNick s.conf.maxNickLength (req.arg 0) = true →
      clientSearch s (req.arg 0) = some t →
      ((s.cl cl').type = .user → t.ref = cl') → UModeOk x s cl' o t.ref l)
    (hx : ∀ ch, isValidChanName (req.arg 0) = true → channelSearch s (req.arg 0) = some ch → x.edits)
    (hP : ∀ ch, channelSearch s (req.arg 0) = some ch → LoseP x s ch.ref (req.argv.drop 1).flatten) :
    Steps (Okay x) s (ircMODE s cl req).1 ∧ SameId s (ircMODE s cl req).1 := by
  generalize hr : ircMODE s cl req = res
  simp only [ircMODE] at hr
  split at hr
  · rename_i s' hs'
    subst hr
    exact ⟨.same (getSender_err hs'), .of_core (getSender_err hs')⟩
  · rename_i o ho
    generalize hcl' : modeCl s cl req = cl' at hr
    have hc : (cl' = cl ∧ (∀ c, req.prefix?.bind (clientSearch s) = some c → c.ref ≠ s.this) ∨
        cl' = s.this ∧ ∃ c, req.prefix?.bind (clientSearch s) = some c ∧ c.ref = s.this) := by
      rw [← hcl']
      unfold modeCl
      cases hb : req.prefix?.bind (clientSearch s) with
      | none => exact .inl ⟨rfl, fun c hc => by cases hc⟩
      | some c =>
        by_cases h : c.ref = s.this
        · exact .inr ⟨by simp [h], c, rfl, h⟩
        · refine .inl ⟨by simp [h], fun d hd => ?_⟩
          injection hd with hd; subst hd; exact h
    split at hr
    · rename_i t ht
      subst hr
      have ht' : isValidNick s.conf.maxNickLength (req.arg 0) = true ∧
          clientSearch s (req.arg 0) = some t := by
        split at ht
        · exact ⟨‹_›, ht⟩
        · cases ht
      exact clientMode_steps hl (hU cl' o t hc ho ht'.1 ht'.2)
    · split at hr
      · rename_i ch hch
        subst hr
        obtain ⟨hv', hch'⟩ : isValidChanName (req.arg 0) = true ∧ channelSearch s (req.arg 0) = some ch := by
          split at hch
          · exact ⟨‹_›, hch⟩
          · cases hch
        have := channelMode_steps (cl := cl') (o := o) (ch := ch) (req := req) (hx ch hv' hch') (hP ch hch')
        exact ⟨this.1, this.2.sameId⟩
      · subst hr
        exact ⟨.same rfl, .of_core rfl⟩

theorem ircMODE_steps {cl : Nat} {req : Request} (h : Hnd x s cl req)
    (ht : (s.cl cl).type = .user ∨ (s.cl cl).type = .server) (hm : Spec.Is req "MODE") :
    Steps (Okay x) s (ircMODE s cl req).1 := by
  have hbind : ∀ c, req.prefix?.bind (clientSearch s) = some c → c.ref ≠ s.this := by
    intro c hc
    cases hp : req.prefix? with
    | none => rw [hp] at hc; cases hc
    | some p => rw [hp] at hc; exact h.pre_ne hp hc
  refine (ircMODE_gen (x := x) (cl := cl) (l := (req.argv.drop 1).flatten)
    (fun m hm => List.mem_of_mem_drop hm) ?_
    (fun _ _ _ => .inr (.inl (by unfold Ctx.is; rw [h.cmd]; exact hm))) ?_).1
  · intro cl' o t hc ho _ hts hself
    have hcl : cl' = cl := by
      rcases hc with hc | ⟨_, c, hc, hc'⟩
      · exact hc.1
      · exact absurd hc' (hbind c hc)
    subst hcl
    rcases ht with ht | ht
    · rcases getSender_ok ho with ⟨_, rfl⟩ | ⟨h1, _⟩
      · exact ⟨.inr (.inl ⟨ht, rfl, hself ht, h.xcl⟩)⟩
      · rw [ht] at h1; cases h1
    · exact ⟨.inl (h.peer ht)⟩
  · intro ch hch
    rcases h.tidy with ht | ht
    · exact .inl ht
    · rcases ht.mode hm ch hch with h1 | h1
      · exact .inr (.inl h1)
      · exact .inr (.inr h1)

theorem ircAWAY_steps {cl : Nat} {req : Request} (h : Hnd x s cl req) (ha : x.is "AWAY") :
    Steps (Okay x) s (ircAWAY s cl req).1 := by
  simp only [ircAWAY]
  split
  · refine Steps.trans (t := clientSetAway s cl (req.arg 0))
      (.soft (fun _ => ⟨rfl, rfl, rfl, rfl, rfl, rfl, rfl, rfl⟩)) ?_
    refine .one (.umode cl 'a' true) (.inr (.inr ⟨h.xcl.symm, .inl ⟨rfl, ?_⟩⟩)) rfl
    exact .inr (.inr (.inl ⟨rfl, ha⟩))
  · exact .one (.umode cl 'a' false) (.inr (.inr ⟨h.xcl.symm, .inr ⟨rfl, by decide, by decide⟩⟩)) rfl

end Ngircd
