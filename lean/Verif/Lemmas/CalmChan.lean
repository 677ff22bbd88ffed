import Verif.Lemmas.CalmQuery
import Verif.Lemmas.Strict

/-!
# Steps that go well: the channel commands
-/

set_option linter.unusedSimpArgs false

namespace Ngircd
open Spec

variable {s t u : Srv} {c d f p : Client} {cl : Nat} {req : Request} {m : Msg}

/-- Lines can be sent to the client `cl` and to all clients but this server. -/
structure Safe (s : Srv) (cl : Nat) : Prop where
  me : Routed s (s.cl cl)
  all : ∀ c ∈ s.clients, c.ref ≠ s.this → Routed s c

theorem Ready.safe (hr : Ready s cl req) : Safe s cl := ⟨hr.me, hr.all⟩

theorem Safe.calm (hs : Safe s cl) (h : Mild s t) : Safe t cl := by
  refine ⟨h.routed (h.clw cl) hs.me, fun c hc hne => ?_⟩
  obtain ⟨d, hd, e⟩ := h.mem hc
  refine h.routed e (hs.all d hd ?_)
  rw [← h.this, ← show c.ref = d.ref from congrArg Prod.fst e]
  exact hne

/-- One step after the other. -/
theorem Safe.next (hs : Safe s cl) (h : Calm s t) (h' : Safe t cl → Calm t u) : Calm s u := h.trans (h' (hs.calm h.toMild))

theorem Safe.found (hs : Safe s cl) {n : Str} (h : clientSearch s n = some c) (hne : c.ref ≠ s.this) : Routed s c :=
  hs.all c (List.mem_of_find?_eq_some h) hne

theorem kinds_find {l l' : List Client} (h : l.map (fun c => (c.ref, c.type)) = l'.map (fun c => (c.ref, c.type))) (r : Nat) (z : Client) :
    ((l.find? (fun c => c.ref == r)).getD z).type = ((l'.find? (fun c => c.ref == r)).getD z).type := by
  induction l generalizing l' with
  | nil =>
    cases l' with
    | nil => rfl
    | cons b l' => cases h
  | cons a l ih =>
    cases l' with
    | nil => cases h
    | cons b l' =>
      simp only [List.map_cons, List.cons.injEq, Prod.mk.injEq] at h
      rw [List.find?_cons, List.find?_cons, h.1.1]
      cases b.ref == r
      · exact ih h.2
      · exact h.1.2

theorem Calm.kind (h : Calm s t) (r : Nat) : (t.cl r).type = (s.cl r).type := kinds_find h.kinds r _

/-- A change of a client that keeps its way. -/
theorem Mild.upd {r : Nat} {g : Client → Client} (hg : ∀ c, (g c).way = c.way) : Mild s (s.updCl r g) := by
  refine ⟨rfl, ?_, id⟩
  simp only [Srv.updCl, List.map_map]
  refine List.map_congr_left (fun c _ => ?_)
  simp only [Function.comp]
  split
  · exact hg c
  · rfl

/-- A change of a client that keeps its way and kind. -/
theorem Calm.upd {r : Nat} {g : Client → Client} (hg : ∀ c, (g c).way = c.way) (ht : ∀ c, (g c).type = c.type) : Calm s (s.updCl r g) := by
  refine ⟨Mild.upd hg, ?_⟩
  simp only [Ngircd.kinds, Srv.updCl, List.map_map]
  refine List.map_congr_left (fun c _ => ?_)
  simp only [Function.comp]
  split
  · rw [ht c, show (g c).ref = c.ref from congrArg Prod.fst (hg c)]
  · rfl

theorem Safe.foldl (hs : Safe s cl) {α : Type} {g : Srv → α → Srv} {l : List α} (hg : ∀ t a, a ∈ l → Safe t cl → Calm t (g t a)) : Calm s (l.foldl g s) :=
  Calm.foldl (fun t a ha h => h.trans (hg t a ha (hs.calm h.toMild))) (Calm.refl s)

theorem Safe.self (hs : Safe s cl) : Calm s (writePrefix s (s.cl cl) p m) := Calm.writePrefix hs.me (Calm.refl _)

theorem calm_updChan {r : Nat} {g : Chan → Chan} : Calm s (s.updChan r g) := .of_eq rfl rfl rfl

/-! ## JOIN -/

theorem calm_channelJoin (hs : Safe s cl) {n : Str} : Calm s (channelJoin s (s.cl cl) n).1 := by
  unfold channelJoin
  split
  · exact hs.self
  · split
    · split
      · exact .refl _
      · exact .of_eq rfl rfl rfl
    · exact .of_eq rfl rfl rfl

/-- After joining the channel is there. -/
theorem join_search {n : Str} (h : (channelJoin s c n).2 = true) : (channelSearch (channelJoin s c n).1 n).isSome = true := by
  unfold channelJoin at h ⊢
  split at h
  · cases h
  · rename_i hv
    rw [if_neg hv]
    cases hc : channelSearch s n with
    | some ch =>
      rw [hc] at h
      simp only at h ⊢
      split at h
      · cases h
      · rename_i hm
        rw [if_neg hm]
        show (channelSearch s n).isSome = true
        rw [hc]; rfl
    | none =>
      show (List.find? _ (newChan s n :: s.chans)).isSome = true
      have hl : n.length < CHANNEL_NAME_LEN := by
        have : isValidChanName n = true := by simpa using hv
        simp only [isValidChanName, Bool.and_eq_true, decide_eq_true_eq] at this
        exact this.1.2
      have e : strlcpy CHANNEL_NAME_LEN n = n := by
        rw [strlcpy]
        exact List.take_of_length_le (by omega)
      rw [List.find?_cons]
      simp only [newChan, e, beq_self_eq_true, Bool.true_and, caseEq_refl']
      rfl

theorem calm_joinAllowed (hs : Safe s cl) {ch : Chan} {n k : Str} : Calm s (joinAllowed s cl ch n k).1 := by
  unfold joinAllowed
  simp only
  split
  · exact .refl _
  · split
    · exact calm_updChan
    · exact Calm.writeErr hs.me calm_updChan

theorem calm_joinChecks (hs : Safe s cl) {n k : Str} : Calm s (joinChecks s cl n k).1 := by
  unfold joinChecks
  simp only
  split
  · split
    · exact .refl _
    · split
      · exact hs.self
      · have := calm_joinAllowed hs (ch := ‹Chan›) (n := n) (k := k)
        split
        · rename_i e; rw [e] at this; exact this
        · rename_i e; rw [e] at this; exact this
  · split
    · exact hs.self
    · split
      · exact hs.self
      · exact .refl _

theorem calm_joinSetModes {ch r : Nat} {fl : Str} : Calm s (joinSetModes s ch r fl) := by
  have h1 : Calm s (fl.foldl (fun s m => (userModeAdd s ch r m).1) s) :=
    Calm.foldl (fun t a _ h => h.trans (.of_eq rfl rfl rfl)) (.refl _)
  unfold joinSetModes
  simp only
  split
  · exact h1.trans (.of_eq rfl rfl rfl)
  · exact h1

theorem calm_joinForward {a : Nat} {ch : Chan} {n : Str} : Calm s (joinForward s a c ch n) := by
  unfold joinForward
  simp only
  calm

theorem calm_sendChannelInfo (hc : Routed s c) {ch : Chan} : Calm s (sendChannelInfo s c ch) := by
  unfold sendChannelInfo
  simp only [sendNAMES]
  calm

theorem calm_joinDo (hs : Safe s cl) {n fl : Str} {w : Bool} : Calm s (joinDo s cl cl n fl w) := by
  have h1 := calm_channelJoin hs (n := n)
  have h2 := join_search (s := s) (c := s.cl cl) (n := n)
  unfold joinDo
  split
  · rename_i e; rw [e] at h1; exact h1
  · rename_i e
    rw [e] at h1 h2
    have h3 := h2 rfl
    split
    · rename_i e2; rw [e2] at h3; cases h3
    · rename_i ch _
      refine hs.next h1 (fun hs => ?_)
      have h4 : ∀ x : Srv, Calm x (if (w && ch.isModeless) = true then (channelModeAdd (channelModeAdd x ch.ref 't').1 ch.ref 'n').1 else x) := by
        intro x
        split
        · exact .of_eq rfl rfl rfl
        · exact .refl _
      simp only
      refine hs.next (h4 _) (fun hs => ?_)
      refine hs.next (calm_joinSetModes (ch := ch.ref) (r := cl) (fl := fl)) (fun hs => ?_)
      have tail : ∀ v : Srv, Safe v cl → Calm v (if ((joinForward v cl (v.cl cl) (v.chan ch.ref) n).cl cl).type = .user then
          sendChannelInfo (writePrefix (joinForward v cl (v.cl cl) (v.chan ch.ref) n) ((joinForward v cl (v.cl cl) (v.chan ch.ref) n).cl cl)
            ((joinForward v cl (v.cl cl) (v.chan ch.ref) n).cl cl) ⟨"JOIN", [n]⟩)
            ((writePrefix (joinForward v cl (v.cl cl) (v.chan ch.ref) n) ((joinForward v cl (v.cl cl) (v.chan ch.ref) n).cl cl)
            ((joinForward v cl (v.cl cl) (v.chan ch.ref) n).cl cl) ⟨"JOIN", [n]⟩).cl cl)
            ((writePrefix (joinForward v cl (v.cl cl) (v.chan ch.ref) n) ((joinForward v cl (v.cl cl) (v.chan ch.ref) n).cl cl)
            ((joinForward v cl (v.cl cl) (v.chan ch.ref) n).cl cl) ⟨"JOIN", [n]⟩).chan ch.ref)
          else joinForward v cl (v.cl cl) (v.chan ch.ref) n) := by
        intro v hv
        refine hv.next (t := joinForward v cl (v.cl cl) (v.chan ch.ref) n) calm_joinForward (fun hs => ?_)
        split
        · exact hs.next hs.self (fun hs => calm_sendChannelInfo hs.me)
        · exact .refl _
      exact tail _ hs

theorem calm_joinOne (hs : Safe s cl) {n k : Str} : Calm s (joinOne s cl cl n k) := by
  unfold joinOne
  split
  · have h1 := calm_joinChecks hs (n := n) (k := k)
    split
    · rename_i e; rw [e] at h1; exact h1
    · rename_i e; rw [e] at h1
      exact hs.next h1 (fun hs => calm_joinDo hs)
  · simp only
    split
    · exact hs.next calm_updChan (fun hs => calm_joinDo hs)
    · exact calm_joinDo hs

theorem calm_joinLoop {ns : List Str} : ∀ {ks : List Str} {s : Srv}, Safe s cl → Calm s (joinLoop cl cl ns ks s) := by
  induction ns with
  | nil => intro ks s _; exact .refl _
  | cons n ns ih => intro ks s hs; exact hs.next (calm_joinOne hs) (fun hs => ih hs)

/-- Local clients can be reached. -/
def LocalsRouted (s : Srv) : Prop := ∀ c ∈ s.clients, c.conn.isSome = true → Routed s c

theorem calm_removeMsgs {k : Removal} {ch : Chan} {a b : Client} {x : Str} {i : Bool}
    (ha : a.conn.isSome = true → Routed s a) (hb : b.conn.isSome = true → Routed s b) : Calm s (removeMsgs s k ch a b x i) := by
  cases k with
  | quit => exact .refl _
  | kick =>
    have h1 : Calm s (writeChannelPrefix (if i = true then writeServers s (some (nextHop s b).ref) b ⟨"KICK", [ch.name, a.ID, x]⟩ else s) a.ref ch.ref b false ⟨"KICK", [ch.name, a.ID, x]⟩) := by
      calm
    simp only [removeMsgs]
    split
    · rename_i h
      exact Calm.writePrefix (ha (Bool.and_eq_true _ _ ▸ h).1) h1
    · exact h1
  | part =>
    simp only [removeMsgs]
    split
    · rename_i h
      refine Calm.writePrefix (hb (Bool.and_eq_true _ _ ▸ h).1) ?_
      calm
    · calm

theorem calm_removeClient {k : Removal} {ch : Nat} {a b : Client} {x : Str} {i : Bool}
    (ha : a.conn.isSome = true → Routed s a) (hb : b.conn.isSome = true → Routed s b) : Calm s (removeClient s k ch a b x i).1 := by
  unfold removeClient
  split
  · exact .refl _
  · simp only
    have h0 : Calm s (unlinkMember s ch a.ref) := .of_eq rfl rfl rfl
    have hdel : ∀ u, Calm u (deleteIfEmpty u ch) := by
      intro u
      unfold deleteIfEmpty
      split
      · exact .of_eq rfl rfl rfl
      · exact .refl _
    exact (h0.trans (calm_removeMsgs (fun h => h0.routed rfl (ha h)) (fun h => h0.routed rfl (hb h)))).trans (hdel _)

theorem calm_channelPart (hs : Safe s cl) {n x : Str} : Calm s (channelPart s (s.cl cl) (s.cl cl) n x).1 := by
  unfold channelPart
  split
  · exact hs.self
  · split
    · exact hs.self
    · exact calm_removeClient (fun _ => hs.me) (fun _ => hs.me)

theorem calm_partAll {n : Nat} : ∀ {s : Srv}, Safe s cl → Calm s (partAll n s cl cl) := by
  induction n with
  | zero => intro s _; exact .refl _
  | succ n ih =>
    intro s hs
    unfold partAll
    split
    · exact .refl _
    · exact hs.next (calm_channelPart hs) (fun hs => ih hs)

theorem calm_ircJOIN (hs : Safe s cl) (ht : (s.cl cl).type ≠ .server) : Calm s (ircJOIN s cl req).1 := by
  unfold ircJOIN
  rw [getSender, if_neg ht]
  simp only
  split
  · exact calm_partAll hs
  · split
    · exact hs.self
    · exact calm_joinLoop hs

theorem calm_partLoop {x : Str} {ns : List Str} : ∀ {s : Srv}, Safe s cl → Calm s (partLoop cl cl x ns s) := by
  induction ns with
  | nil => intro s _; exact .refl _
  | cons n ns ih => intro s hs; exact hs.next (calm_channelPart hs) (fun hs => ih hs)

theorem calm_ircPART (hs : Safe s cl) (ht : (s.cl cl).type ≠ .server) : Calm s (ircPART s cl req).1 := by
  unfold ircPART
  rw [getSender, if_neg ht]
  simp only
  split
  · exact hs.self
  · exact calm_partLoop hs

theorem calm_ircTOPIC (hs : Safe s cl) (ht : (s.cl cl).type ≠ .server) : Calm s (ircTOPIC s cl req).1 := by
  unfold ircTOPIC
  rw [getSender, if_neg ht]
  simp only
  split
  · exact hs.self
  · split
    · exact hs.self
    · split
      · split
        · exact hs.self
        · exact Calm.write hs.me hs.self
      · split
        · exact hs.self
        · have hme := hs.me
          unfold topicSet
          simp only
          generalize (if s.conf.operServerMode = true then s.this else cl) = r
          rename_i ch _ _ _ _
          have h1 : Calm s (if ch.isLocal = true then s else writeServers s (some cl) (s.cl r) ⟨"TOPIC", [req.arg 0, req.arg 1]⟩) := by calm
          refine hs.next h1 (fun hs => ?_)
          have h2 : ∀ x : Srv, Calm x (if req.arg 1 ≠ ch.topic then writeChannelPrefix x cl ch.ref (x.cl r) false ⟨"TOPIC", [req.arg 0, req.arg 1]⟩ else x) := by
            intro x; calm
          refine hs.next (h2 _) (fun hs => ?_)
          have tail : ∀ v : Srv, Safe v cl → ∀ w : Srv, w = channelSetTopic v ch.ref (some (v.cl r)) (req.arg 1) →
              Calm v (if (w.cl cl).type = .user then writePrefix w (w.cl cl) (w.cl cl) ⟨"TOPIC", [req.arg 0, req.arg 1]⟩ else w) := by
            intro v hv w hw
            refine hv.next (t := w) (by rw [hw]; exact calm_updChan) (fun hs => ?_)
            split
            · exact hs.self
            · exact .refl _
          exact tail _ hs _ rfl

theorem calm_channelKick (hs : Safe s cl) (hl : d.conn.isSome = true → Routed s d) {n x : Str} :
    Calm s (channelKick s (s.cl cl) d (s.cl cl) n x) := by
  unfold channelKick
  split
  · exact hs.self
  · split
    · exact hs.self
    · split
      · exact hs.self
      · split
        · exact hs.self
        · split
          · exact hs.self
          · exact calm_removeClient hl (fun _ => hs.me)

theorem calm_kickLoop (hl : ∀ c ∈ s.clients, c.conn.isSome = true → c.ref ≠ s.this) {x : Str} {ns : List (Str × Str)} :
    ∀ {t : Srv}, Calm s t → Safe t cl → Calm t (kickLoop cl cl x ns t) := by
  induction ns with
  | nil => intro t _ _; exact .refl _
  | cons n ns ih =>
    intro t h hs
    have h1 : Calm t (tryKick t cl cl n.2 n.1 x) := by
      unfold tryKick
      split
      · exact hs.self
      · rename_i d hd
        have hm := List.mem_of_find?_eq_some hd
        refine calm_channelKick hs (fun hc => hs.all d hm ?_)
        obtain ⟨e, he, hw⟩ := h.mem hm
        rw [h.this, show d.ref = e.ref from congrArg Prod.fst hw]
        exact hl e he (by rw [← show d.conn = e.conn from congrArg (fun x => x.2.1) hw]; exact hc)
    exact hs.next h1 (fun hs => ih (h.trans h1) hs)

theorem calm_ircKICK (hs : Safe s cl) (hl : ∀ c ∈ s.clients, c.conn.isSome = true → c.ref ≠ s.this) (ht : (s.cl cl).type ≠ .server) :
    Calm s (ircKICK s cl req).1 := by
  unfold ircKICK
  rw [getSender, if_neg ht]
  simp only
  split
  · exact calm_kickLoop hl (.refl _) hs
  · split
    · exact calm_kickLoop hl (.refl _) hs
    · exact hs.self

theorem calm_ircINVITE (hs : Safe s cl) (hth : (s.cl s.this).type = .server) (hself : ∀ c ∈ s.clients, s.cl c.ref = c) (ht : (s.cl cl).type ≠ .server) :
    Calm s (ircINVITE s cl req).1 := by
  have key : ∀ (u : Srv) (d : Client) (a b : Str), Calm s u → Routed s d → Calm s (inviteSend u (s.cl cl) d a b) := by
    intro u d a b h hd
    have hme := hs.me
    simp only [inviteSend]
    calm
  unfold ircINVITE
  rw [getSender, if_neg ht]
  simp only
  split
  · exact hs.self
  · rename_i d hd
    split
    · exact hs.self
    · rename_i hu
      have hu : d.type = .user := Classical.byContradiction hu
      have hm := List.mem_of_find?_eq_some hd
      have hd' : Routed s d := hs.all d hm (fun e => by
        have := hself d hm
        rw [e] at this
        rw [this, hu] at hth; cases hth)
      split
      · exact hs.self
      · split
        · exact key _ _ _ _ (.refl _) hd'
        · split
          · exact hs.self
          · exact key _ _ _ _ calm_updChan hd'

end Ngircd
