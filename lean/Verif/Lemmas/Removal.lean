import Verif.Lemmas.ChMode
import Verif.Props.Prefix
import Verif.Props.Oper

/-!
# Removing members from channels
-/

set_option linter.unusedSimpArgs false

namespace Ngircd
open Spec

variable {s t u : Srv} {P : Cl2Chan → Prop}

/-- `t` arises from `s` by removing memberships that satisfy `P`, and channels that became empty
thereby. -/
structure Rem (P : Cl2Chan → Prop) (s t : Srv) : Prop where
  clients : t.clients = s.clients
  conf : t.conf = s.conf
  this : t.this = s.this
  sub : t.cl2.Sublist s.cl2
  lost : ∀ m ∈ s.cl2, m ∈ t.cl2 ∨ P m
  chans : t.chans.Sublist s.chans
  gone : ∀ c ∈ s.chans, c ∈ t.chans ∨
    ((∀ m ∈ t.cl2, m.chan ≠ c.ref) ∧ 'P' ∉ c.modes ∧ ∃ m ∈ s.cl2, m.chan = c.ref)

theorem Rem.core (h : t.core = s.core) : Rem P s t where
  clients := core_clients h
  conf := core_conf h
  this := core_this h
  sub := by rw [core_cl2 h]; exact List.Sublist.refl _
  lost := fun m hm => .inl (by rw [core_cl2 h]; exact hm)
  chans := by rw [core_chans h]; exact List.Sublist.refl _
  gone := fun m hm => .inl (by rw [core_chans h]; exact hm)

theorem Rem.trans (h : Rem P s t) (h' : Rem P t u) : Rem P s u where
  clients := h'.clients.trans h.clients
  conf := h'.conf.trans h.conf
  this := h'.this.trans h.this
  sub := h'.sub.trans h.sub
  lost := fun m hm => (h.lost m hm).elim (h'.lost m) .inr
  chans := h'.chans.trans h.chans
  gone := by
    intro c hc
    rcases h.gone c hc with g | ⟨g1, g2, g3⟩
    · rcases h'.gone c g with k | ⟨k1, k2, m, k3, k4⟩
      · exact .inl k
      · exact .inr ⟨k1, k2, m, h.sub.subset k3, k4⟩
    · exact .inr ⟨fun m hm => g1 m (h'.sub.subset hm), g2, g3⟩

theorem Rem.cl (h : Rem P s t) (r : Nat) : t.cl r = s.cl r := by
  simp only [Srv.cl, Srv.cl?, h.clients]

theorem Rem.search (h : Rem P s t) (n : Str) : clientSearch t n = clientSearch s n := by
  simp only [clientSearch, h.clients]

theorem Rem.rank (h : Rem P s t) {ch r : Nat} {m : Char} (g : HasRank t ch r m) : HasRank s ch r m := by
  obtain ⟨e, he, g⟩ := g
  exact ⟨e, h.sub.subset he, g⟩

theorem Rem.mode (h : Rem P s t) {r : Nat} {m : Char} : HasUMode t r m ↔ HasUMode s r m := by
  simp only [HasUMode, h.clients]

theorem Rem.mono {Q : Cl2Chan → Prop} (h : Rem P s t) (hpq : ∀ m ∈ s.cl2, P m → Q m) : Rem Q s t :=
  { h with lost := fun m hm => (h.lost m hm).imp id (hpq m hm) }

theorem unlink_cl2 (hi : ChInv s) (ch r : Nat) :
    (unlinkMember s ch r).cl2 = s.cl2.filter (fun m => !(m.chan == ch && m.client == r)) := by
  have := dropMember_cl2 hi ch r
  simp only [dropMember] at this
  split at this
  · rwa [deleteIfEmpty_cl2] at this
  · rename_i hm
    have hm : isMemberOf s ch r = false := by simpa using hm
    simp only [unlinkMember]
    rw [← this]
    refine List.eraseP_of_forall_not ?_
    intro m hm' hp
    simp only [Bool.and_eq_true, beq_iff_eq] at hp
    exact isMemberOf_false.1 hm m hm' hp.1 hp.2

/-- Removing one member. -/
theorem removeClient_Rem (hi : ChInv s) {c : Chan} (hc : c ∈ s.chans) (ty : Removal) (x o : Client) (r : Str) (b : Bool) :
    Rem (fun m => m.chan = c.ref ∧ m.client = x.ref) s (removeClient s ty c.ref x o r b).1 ∧
    ∀ m ∈ (removeClient s ty c.ref x o r b).1.cl2, ¬ (m.chan = c.ref ∧ m.client = x.ref) := by
  have hcore := removeClient_core s ty c.ref x o r b
  split at hcore
  · rename_i hm
    have hcore : (removeClient s ty c.ref x o r b).1.core = (deleteIfEmpty (unlinkMember s c.ref x.ref) c.ref).core := hcore
    have hf := deleteIfEmpty_fields (unlinkMember s c.ref x.ref) c.ref
    have h2 : (removeClient s ty c.ref x o r b).1.cl2 = s.cl2.filter (fun m => !(m.chan == c.ref && m.client == x.ref)) := by
      rw [core_cl2 hcore, deleteIfEmpty_cl2, unlink_cl2 hi]
    have h3 : (removeClient s ty c.ref x o r b).1.chans =
        if !c.hasMode 'P' && (membersOf (unlinkMember s c.ref x.ref) c.ref).isEmpty then
          s.chans.filter (fun d => d.ref != c.ref) else s.chans := by
      rw [core_chans hcore]
      have : (unlinkMember s c.ref x.ref).chan c.ref = c := chan_of_mem hi hc
      simp only [deleteIfEmpty, this]
      split <;> rfl
    refine ⟨⟨?_, ?_, ?_, ?_, ?_, ?_, ?_⟩, ?_⟩
    · exact (core_clients hcore).trans hf.1
    · exact (core_conf hcore).trans hf.2.1
    · exact (core_this hcore).trans hf.2.2
    · rw [h2]; exact List.filter_sublist
    · intro m hm
      rw [h2]
      by_cases hp : m.chan = c.ref ∧ m.client = x.ref
      · exact .inr hp
      · refine .inl (List.mem_filter.2 ⟨hm, ?_⟩)
        simp only [Bool.not_eq_true', Bool.and_eq_false_iff, beq_eq_false_iff_ne]
        exact Decidable.not_and_iff_or_not.1 hp
    · rw [h3]; split
      · exact List.filter_sublist
      · exact List.Sublist.refl _
    · intro d hd
      rw [h3]
      split
      · rename_i he
        simp only [Bool.and_eq_true, Bool.not_eq_true'] at he
        by_cases hr : d.ref = c.ref
        · refine .inr ⟨?_, ?_, ?_⟩
          · intro m hm hch
            rw [h2, ← unlink_cl2 hi] at hm
            have : m.client ∈ membersOf (unlinkMember s c.ref x.ref) c.ref :=
              mem_membersOf.2 ⟨m, hm, hch.trans hr, rfl⟩
            rw [List.isEmpty_iff.1 he.2] at this; cases this
          · rw [chan_eq_of_ref hi hd hc hr]
            intro hP
            have : c.hasMode 'P' = true := by simp [Chan.hasMode, hasChar_iff, hP]
            rw [this] at he; cases he.1
          · obtain ⟨m, hm, g1, g2⟩ := isMemberOf_iff.1 hm
            exact ⟨m, hm, g1.trans hr.symm⟩
        · exact .inl (List.mem_filter.2 ⟨hd, by simpa using hr⟩)
      · exact .inl hd
    · intro m hm
      rw [h2] at hm
      have := (List.mem_filter.1 hm).2
      simp only [Bool.not_eq_true', Bool.and_eq_false_iff, beq_eq_false_iff_ne] at this
      exact Decidable.not_and_iff_or_not.2 this
  · rename_i hm
    refine ⟨.core hcore, ?_⟩
    rw [core_cl2 hcore]
    rintro m hm' ⟨g1, g2⟩
    exact hm (isMemberOf_iff.2 ⟨m, hm', g1, g2⟩)

theorem channelSearch_sub (h : Rem P s t) {n : Str} {c : Chan} (hs : channelSearch t n = some c) : c ∈ s.chans :=
  h.chans.subset (channelSearch_mem hs)

end Ngircd
