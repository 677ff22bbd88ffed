import Verif.Lemmas.CalmMode

/-!
# Steps that go well: messages
-/

set_option linter.unusedSimpArgs false

namespace Ngircd
open Spec

variable {s t u : Srv} {c d f p : Client} {cl : Nat} {req : Request} {m : Msg}

/-- Lines can be sent to users and services, too. -/
structure Safe2 (s : Srv) (cl : Nat) : Prop extends Safe s cl where
  people : ∀ c ∈ s.clients, c.type = .user ∨ c.type = .service → c.ref ≠ s.this

theorem Safe2.calm (hs : Safe2 s cl) (h : Calm s t) : Safe2 t cl := by
  refine ⟨hs.toSafe.calm h.toMild, fun c hc ht => ?_⟩
  have : (c.ref, c.type) ∈ Ngircd.kinds s := by rw [← h.kinds]; exact List.mem_map.2 ⟨c, hc, rfl⟩
  obtain ⟨d, hd, e⟩ := List.mem_map.1 this
  have e1 : d.ref = c.ref := congrArg Prod.fst e
  have e2 : d.type = c.type := congrArg Prod.snd e
  rw [h.this, ← e1]
  exact hs.people d hd (by rw [e2]; exact ht)

theorem calm_msgToClient (hs : Safe2 s cl) (hd : d ∈ s.clients) {x k : Str} {cmd : String} {a b : Bool} :
    Calm s (msgToClient s cl (s.cl cl) d x cmd k a b).1 := by
  unfold msgToClient
  simp only
  split
  · split
    · exact hs.self
    · exact .refl _
  · rename_i hr
    have ht : d.type = .user ∨ d.type = .service := by
      apply Classical.byContradiction
      intro hn
      rw [not_or] at hn
      unfold msgRefusal at hr
      rw [if_pos (by simp [hn.1, hn.2])] at hr
      cases hr
    have hd' := hs.all d hd (hs.people d hd ht)
    have hme := hs.me
    split
    · exact Calm.writePrefix hd' (Calm.write hme (.refl _))
    · exact Calm.writePrefix hd' (.refl _)

theorem calm_channelWrite (hs : Safe2 s cl) {ch : Chan} {cmd : String} {b : Bool} {k : Str} :
    Calm s (channelWrite s ch (s.cl cl) c cmd b k) := by
  unfold channelWrite
  simp only
  split
  · split
    · exact calm_updChan
    · split
      · exact Calm.writeErr hs.me calm_updChan
      · exact Calm.writeErr hs.me calm_updChan
  · exact Calm.writeChannelPrefix calm_updChan

theorem calm_sendMessageMask (hs : Safe2 s cl) {cmd : String} {x k : Str} {b : Bool} : Calm s (sendMessageMask s (s.cl cl) cmd x k b) := by
  unfold sendMessageMask
  split
  · split
    · exact hs.self
    · exact .refl _
  · split
    · split
      · exact hs.self
      · exact .refl _
    · refine Calm.foldl (fun t a ha h => ?_) (.refl _)
      have hm := List.mem_filter.1 ha
      have ht : a.type = .user := by
        have := (Bool.and_eq_true _ _ ▸ hm.2).1
        exact of_decide_eq_true this
      exact Calm.writePrefix (hs.all a hm.1 (hs.people a hm.1 (.inl ht))) h

theorem msgClient_mem {x : Str} (h : msgClient s x = some d) : d ∈ s.clients := by
  unfold msgClient at h
  split at h
  · rename_i c hc
    injection h with h
    subst h
    split at hc
    · cases hc
    · exact List.mem_of_find?_eq_some hc
  · exact List.mem_of_find?_eq_some h

theorem calm_msgOne (hs : Safe2 s cl) {cmd : String} {x k : Str} {a b : Bool} : Calm s (msgOne s cl (s.cl cl) x cmd k a b).1 := by
  unfold msgOne
  split
  · exact calm_msgToClient hs (msgClient_mem ‹_›)
  · split
    · exact calm_channelWrite hs
    · split
      · exact calm_sendMessageMask hs
      · split
        · exact .refl _
        · exact hs.self

theorem calm_msgLoop {k : Str} {a b : Bool} {l : List Str} : ∀ {seen : List Str} {cmd : String} {s : Srv}, Safe2 s cl →
    Calm s (msgLoop cl cl k a b l seen cmd s) := by
  induction l with
  | nil => intro seen cmd s _; exact .refl _
  | cons x l ih =>
    intro seen cmd s hs
    unfold msgLoop
    split
    · exact hs.self
    · split
      · exact ih hs
      · have h1 := calm_msgOne hs (x := x) (cmd := cmd) (k := k) (a := a) (b := b)
        split
        · rename_i e; rw [e] at h1; exact h1
        · rename_i e; rw [e] at h1
          exact h1.trans (ih (hs.calm h1))

theorem calm_sendMessage (hs : Safe2 s cl) (ht : (s.cl cl).type ≠ .server) {cmd : String} {a b : Bool} : Calm s (sendMessage cmd a b s cl req).1 := by
  have hme := hs.me
  unfold sendMessage
  simp only
  have hf : msgFrom s cl req = some cl := by rw [msgFrom, if_neg ht]
  rw [hf]
  simp only
  split
  · calm
  · split
    · calm
    · split
      · calm
      · split
        · calm
        · exact calm_msgLoop hs

end Ngircd
