import Verif.Lemmas.Strict3
import Verif.Lemmas.Trace
import Verif.Spec.Channels

/-!
# Where channels and memberships come from
-/

set_option linter.unusedSimpArgs false

namespace Ngircd
open Spec

variable {x : Ctx} {s t u : Srv}

/-- No ban or exception anywhere is a one-shot entry. -/
def OnceInv (s : Srv) : Prop := ∀ c ∈ s.chans, Once c

theorem remove_chans (t : Srv) (ch r : Nat) : ((Act.remove ch r).run t).chans.Sublist t.chans := by
  simp only [Act.run, deleteIfEmpty]
  split
  · exact List.filter_sublist
  · exact List.Sublist.refl _

theorem remove_cl2 (t : Srv) (ch r : Nat) : ((Act.remove ch r).run t).cl2.Sublist t.cl2 := by
  simp only [Act.run]; rw [deleteIfEmpty_cl2]
  exact List.eraseP_sublist

theorem OnceInv.act {a : Act} (hi : OnceInv t) (hp : Okay x t a) : OnceInv (a.run t) := by
  have hupd : ∀ r f, (∀ c, Once c → Once (f c)) → OnceInv (t.updChan r f) := by
    intro r f hf c hc
    obtain ⟨d, hd, rfl⟩ := mem_updChan.1 hc
    split
    · exact hf d (hi d hd)
    · exact hi d hd
  cases a with
  | chSoft ch f => exact hupd ch f hp.once
  | chMode ch m set => simp only [Act.run]; split <;> exact hupd _ _ (fun _ h => h)
  | chModes ch modes => exact hupd _ _ (fun _ h => h)
  | mmode ch r m set => simp only [Act.run]; split <;> exact hi
  | remove ch r => exact fun c hc => hi c ((remove_chans t ch r).subset hc)
  | destroy c => exact fun d hd => hi d ((destroy_chans_sub t c).subset hd)
  | join ch r => exact hi
  | createJoin name r =>
    intro c hc
    rcases List.mem_cons.1 hc with rfl | hc
    · intro e he; rcases he with he | he <;> cases he
    · exact hi c hc
  | create name f =>
    intro c hc
    obtain ⟨d, hd, rfl⟩ := mem_updChan.1 hc
    have hd' : Once d := by
      rcases List.mem_cons.1 hd with rfl | hd
      · intro e he; rcases he with he | he <;> cases he
      · exact hi d hd
    split
    · exact hp.2.2.2.2.2.1 d hd'
    · exact hd'
  | _ => rw [OnceInv, (run_chans rfl t).1]; exact hi

theorem Reachable.once (h : Reachable s) : OnceInv s :=
  reach_inv_all (I := OnceInv) (fun s t hc hi => by rw [OnceInv, core_chans hc]; exact hi)
    (fun x t a _ hi hp => hi.act hp) (fun conf host now c hc => by cases hc) h

/-- What an event that may not change settings leaves of channels and memberships. -/
def ChKept (x : Ctx) (s t : Srv) : Prop :=
  (∀ d ∈ t.chans, ∃ c ∈ s.chans, SameSettings c d ∧ (x.is "INVITE" ∨ d.invites = c.invites) ∧
    (x.topics ∨ d.topic = c.topic)) ∧ ∀ m ∈ t.cl2, m ∈ s.cl2

theorem ChKept.rfl' : ChKept x s s :=
  ⟨fun d hd => ⟨d, hd, ⟨rfl, rfl, rfl, rfl, rfl, rfl, rfl, rfl⟩, .inr rfl, .inr rfl⟩, fun _ h => h⟩

theorem ChKept.sub (h1 : t.chans.Sublist s.chans) (h2 : t.cl2.Sublist s.cl2) : ChKept x s t :=
  ⟨fun d hd => (ChKept.rfl' (x := x) (s := s)).1 d (h1.subset hd), fun _ h => h2.subset h⟩

theorem ChKept.trans (h : ChKept x s t) (h' : ChKept x t u) : ChKept x s u := by
  refine ⟨fun d hd => ?_, fun m hm => h.2 m (h'.2 m hm)⟩
  obtain ⟨c, hc, g1, g2, g3⟩ := h'.1 d hd
  obtain ⟨b, hb, k1, k2, k3⟩ := h.1 c hc
  refine ⟨b, hb, ?_, ?_, ?_⟩
  · simp only [SameSettings] at g1 k1 ⊢
    rw [g1.1, g1.2.1, g1.2.2.1, g1.2.2.2.1, g1.2.2.2.2.1, g1.2.2.2.2.2.1, g1.2.2.2.2.2.2.1, g1.2.2.2.2.2.2.2]
    exact k1
  · rcases g2 with g2 | g2
    · exact .inl g2
    · rw [g2]; exact k2
  · rcases g3 with g3 | g3
    · exact .inl g3
    · rw [g3]; exact k3

theorem ChKept.act {a : Act} (hb : Base t) (hx : ¬ x.edits) (hi : OnceInv t) (hp : Okay x t a) : ChKept x t (a.run t) := by
  cases a with
  | chSoft ch f =>
    refine ⟨fun d hd => ?_, fun m hm => hm⟩
    obtain ⟨c, hc, rfl⟩ := mem_updChan.1 hd
    refine ⟨c, hc, ?_⟩
    split
    · obtain ⟨k1, k2, k3, k4, k5⟩ := hp.settings.resolve_left hx c (hi c hc)
      refine ⟨⟨(hp.keeps c).1, (hp.keeps c).2.1, hp.modes c, k1, k2, k3, k4, k5⟩, ?_, ?_⟩
      · exact (hp.invites.resolve_left hx).imp id (fun h => h c)
      · exact hp.topic.imp id (fun h => h c)
    · exact ⟨⟨rfl, rfl, rfl, rfl, rfl, rfl, rfl, rfl⟩, .inr rfl, .inr rfl⟩
  | chMode ch m set => exact absurd hp.2 hx
  | chModes ch modes => exact absurd (.inl hp.1) hx
  | mmode ch r m set => exact absurd hp hx
  | remove ch r => exact .sub (remove_chans t ch r) (remove_cl2 t ch r)
  | destroy c => 
    refine .sub (destroy_chans_sub t c) ?_
    rw [destroy_cl2 hb.ch]
    split
    · exact List.filter_sublist
    · exact List.Sublist.refl _
  | join ch r =>
    rcases hp.2.2.2.2 with h | ⟨_, h | h⟩
    · exact absurd (.inl h) hx
    · exact absurd (.inr (.inr (.inl h))) hx
    · exact absurd (.inr (.inr (.inr (.inl h)))) hx
  | createJoin name r =>
    rcases hp.2.2.2.2.2 with h | ⟨_, h | h⟩
    · exact absurd (.inl h) hx
    · exact absurd (.inr (.inr (.inl h))) hx
    · exact absurd (.inr (.inr (.inr (.inl h)))) hx
  | create name f =>
    rcases hp.2.2.2.2.2.2 with h | h
    · exact absurd (.inl h) hx
    · exact absurd (.inr (.inr (.inr (.inr h)))) hx
  | _ =>
    refine .sub ?_ ?_
    · rw [(run_chans rfl t).1]; exact List.Sublist.refl _
    · rw [(run_chans rfl t).2]; exact List.Sublist.refl _

theorem ChKept.of_core (h : u.core = t.core) (hk : ChKept x s t) : ChKept x s u :=
  hk.trans (.sub (by rw [core_chans h]; exact List.Sublist.refl _) (by rw [core_cl2 h]; exact List.Sublist.refl _))

theorem steps_chKept (hb : Base s) (hx : ¬ x.edits) (hi : OnceInv s) (h : Steps (Okay x) s t) : ChKept x s t := by
  have : ChKept x s t ∧ OnceInv t ∧ Base t := by
    refine h.inv (I := fun t => ChKept x s t ∧ OnceInv t ∧ Base t) ?_ ?_ ⟨.rfl', hi, hb⟩
    · intro t u hc hk
      exact ⟨hk.1.of_core hc, by rw [OnceInv, core_chans hc]; exact hk.2.1, hk.2.2.of_core hc⟩
    · intro t a hk hp
      exact ⟨hk.1.trans (.act hk.2.2 hx hk.2.1 hp), hk.2.1.act hp, hk.2.2.act hp⟩
  exact this.1

end Ngircd
