import Verif.Spec.ModeLocal
import Verif.Lemmas.HMode
import Verif.Lemmas.Query

/-!
# A MODE command about a channel touches this channel only
-/

set_option linter.unusedSimpArgs false

namespace Ngircd
open Spec

variable {s t u : Srv} {ch : Nat}

theorem Spec.ButModes.trans {c d e : Chan} (h : ButModes c d) (k : ButModes d e) : ButModes c e := by
  obtain ⟨_⟩ := c; obtain ⟨_⟩ := d; obtain ⟨_⟩ := e
  simp only [ButModes, Chan.mk.injEq] at h k ⊢
  obtain ⟨h1, h2, h3, -, h5, h6, h7, h8, -, -, -, -, -, h14⟩ := h
  obtain ⟨k1, k2, k3, -, k5, k6, k7, k8, -, -, -, -, -, k14⟩ := k
  simp only [k1, k2, k3, k5, k6, k7, k8, k14, h1, h2, h3, h5, h6, h7, h8, h14, and_self]

theorem Spec.ButModes.ref {c d : Chan} (h : ButModes c d) : d.ref = c.ref := by
  unfold ButModes at h; rw [h]

theorem Spec.ChannelOnly.refl (s : Srv) : ChannelOnly ch s s :=
  ⟨⟨[], s.fault, s.rnd, rfl⟩, ⟨id, (List.map_id _).symm, fun _ => ⟨fun _ => rfl, rfl⟩⟩, ⟨id, (List.map_id _).symm, fun _ => ⟨fun _ => rfl, rfl⟩⟩⟩

theorem Spec.ChannelOnly.trans (h : ChannelOnly ch s t) (k : ChannelOnly ch t u) : ChannelOnly ch s u := by
  obtain ⟨⟨o, f, r, h1⟩, ⟨F, h2, h3⟩, ⟨G, h4, h5⟩⟩ := h
  obtain ⟨⟨o', f', r', k1⟩, ⟨F', k2, k3⟩, ⟨G', k4, k5⟩⟩ := k
  refine ⟨⟨o' ++ o, f', r', ?_⟩, ⟨fun c => F' (F c), ?_, fun c => ⟨fun hc => ?_, ?_⟩⟩, ⟨fun c => G' (G c), ?_, fun c => ⟨fun hc => ?_, ?_⟩⟩⟩
  · have e1 : { u with chans := s.chans, cl2 := s.cl2 } = { ({ u with chans := t.chans, cl2 := t.cl2 } : Srv) with chans := s.chans, cl2 := s.cl2 } := rfl
    rw [e1, k1]
    have e2 : ({ ({ t with out := o' ++ t.out, fault := f', rnd := r' } : Srv) with chans := s.chans, cl2 := s.cl2 } : Srv) =
      { ({ t with chans := s.chans, cl2 := s.cl2 } : Srv) with out := o' ++ t.out, fault := f', rnd := r' } := rfl
    rw [e2, h1]
    have e3 : t.out = o ++ s.out := congrArg Srv.out h1
    rw [e3, List.append_assoc]
  · rw [k2, h2, List.map_map]; rfl
  · have := (h3 c).1 hc
    show F' (F c) = c
    rw [this]; exact (k3 c).1 hc
  · exact (h3 c).2.trans (k3 (F c)).2
  · rw [k4, h4, List.map_map]; rfl
  · have := (h5 c).1 hc
    show G' (G c) = c
    rw [this]; exact (k5 c).1 hc
  · show G' (G c) = _
    have e1 := (k5 (G c)).2
    have e2 := (h5 c).2
    have e3 : (G c).client = c.client := by rw [e2]
    have e4 : (G c).chan = c.chan := by rw [e2]
    rw [e3, e4] at e1
    exact e1

theorem Spec.OnlyOutput.channel (h : OnlyOutput s t) : ChannelOnly ch s t := by
  obtain ⟨o, f, rfl⟩ := h
  exact ⟨⟨o, f, s.rnd, rfl⟩, ⟨id, (List.map_id _).symm, fun _ => ⟨fun _ => rfl, rfl⟩⟩, ⟨id, (List.map_id _).symm, fun _ => ⟨fun _ => rfl, rfl⟩⟩⟩

theorem Spec.ChannelOnly.upd {f : Chan → Chan} (hf : ∀ c, ButModes c (f c)) : ChannelOnly ch s (s.updChan ch f) := by
  refine ⟨⟨[], s.fault, s.rnd, rfl⟩, ⟨fun c => if c.ref = ch then f c else c, rfl, fun c => ⟨fun h => if_neg h, ?_⟩⟩,
    ⟨id, (List.map_id _).symm, fun _ => ⟨fun _ => rfl, rfl⟩⟩⟩
  by_cases h : c.ref = ch
  · simp only [h, if_true]; exact hf c
  · simp only [h, if_false]; rfl

theorem Spec.ChannelOnly.member {g : Str → Str} {r : Nat} : ChannelOnly ch s { s with cl2 := s.cl2.map (fun x =>
      if x.chan = ch ∧ x.client = r then { x with modes := g x.modes } else x) } := by
  refine ⟨⟨[], s.fault, s.rnd, rfl⟩, ⟨id, (List.map_id _).symm, fun _ => ⟨fun _ => rfl, rfl⟩⟩,
    ⟨_, rfl, fun m => ⟨fun h => if_neg (fun x => h x.1), ?_⟩⟩⟩
  by_cases h : m.chan = ch ∧ m.client = r
  · simp only [h, and_self, if_true]
  · simp only [h, if_false]

/-- The channel exists. -/
def HasChan (s : Srv) (ch : Nat) : Prop := ∃ c ∈ s.chans, c.ref = ch

theorem HasChan.ref (h : HasChan s ch) : (s.chan ch).ref = ch := by
  obtain ⟨c, hc, rfl⟩ := h
  unfold Srv.chan Srv.chan?
  cases hf : s.chans.find? (fun d => d.ref == c.ref) with
  | none => exact absurd (List.find?_eq_none.1 hf c hc) (by simp)
  | some d => simpa using List.find?_some hf

theorem Spec.ChannelOnly.has (h : ChannelOnly ch s t) {k : Nat} (hk : HasChan s k) : HasChan t k := by
  obtain ⟨-, ⟨f, h1, h2⟩, -⟩ := h
  obtain ⟨c, hc, rfl⟩ := hk
  exact ⟨f c, by rw [h1]; exact List.mem_map_of_mem hc, (h2 c).2.ref⟩

theorem setList_kept (c : Chan) (l : CList) (h : MaskList) : ButModes c (c.setList l h) := by
  cases l <;> rfl

theorem oo_sendListChange (s : Srv) (b : Bool) (l : CList) (p c : Client) (d : Chan) (m : Str) : OnlyOutput s (sendListChange s b l p c d m) := by
  unfold sendListChange
  refine OnlyOutput.trans (t := if c.type = .user then writePrefix s c p _ else s) ?_ ((oo_writeServers _ _ _ _).trans (oo_writeChannelPrefix _ _ _ _ _ _))
  split
  · exact oo_writePrefix _ _ _ _
  · exact .refl _

theorem addToList_only {l : CList} {p c : Client} {d : Chan} {m : Str} (hd : d.ref = ch) : ChannelOnly ch s (addToList s l p c d m) := by
  unfold addToList
  simp only
  split
  · exact .refl _
  · split
    · exact (oo_writeErr _ _ _).channel
    · rw [hd]
      exact (ChannelOnly.upd (fun c => setList_kept c l _)).trans (oo_sendListChange _ _ _ _ _ _ _).channel

theorem delFromList_only {l : CList} {p c : Client} {d : Chan} {m : Str} (hd : d.ref = ch) : ChannelOnly ch s (delFromList s l p c d m) := by
  unfold delFromList
  simp only
  split
  · exact .refl _
  · rw [hd]
    exact (ChannelOnly.upd (fun c => setList_kept c l _)).trans (oo_sendListChange _ _ _ _ _ _ _).channel

theorem modeAdd_only {m : Char} : ChannelOnly ch s (channelModeAdd s ch m).1 := .upd (fun _ => rfl)
theorem modeDel_only {m : Char} : ChannelOnly ch s (channelModeDel s ch m).1 := .upd (fun _ => rfl)

theorem cmErr_only {st : CModeSt} {o : Nat} {d : Chan} {e : String} : ChannelOnly ch st.s (cmErr st o d e).s := (oo_writeErr _ _ _).channel

theorem cmArgMode_only {st : CModeSt} {cl o : Nat} {c : Chan} {m : Char} {req : Request} :
    ChannelOnly c.ref st.s (cmArgMode st cl o c m req).1.s := by
  simp only [cmArgMode]
  split
  · exact .refl _
  split
  · split
    · split <;> exact .refl _
    · exact cmErr_only
  · split
    · split
      · exact .refl _
      · exact (oo_writeErr _ _ _).channel
    · rename_i a as hargs
      generalize (if m = 'k' then !a.isEmpty && !hasChar a ' '
        else decide (0 < atoi a) && decide (atoi a < 0xFFFF)) = valid
      cases valid
      · simp only [Bool.not_false, if_true]
        split
        · exact .refl _
        · exact cmErr_only
      · simp only [Bool.not_true, Bool.false_eq_true, if_false]
        cases st.rights.half
        · simp only [Bool.false_eq_true, if_false]
          exact (oo_writeErr _ _ _).channel
        · simp only [if_true]
          refine (modeDel_only (m := m)).trans ?_
          split
          · exact .upd (fun _ => rfl)
          · exact .upd (fun _ => rfl)

theorem cmMemberMode_only {st : CModeSt} {o : Nat} {c : Chan} {m : Char} : ChannelOnly ch st.s (cmMemberMode st o c m).1.s := by
  simp only [cmMemberMode]
  split
  · exact cmErr_only
  · split
    · exact .refl _
    · split
      · split
        · exact .refl _
        · exact (oo_writeErr _ _ _).channel
      · exact (oo_writeErr _ _ _).channel

theorem cmListMode_only {st : CModeSt} {cl o : Nat} {c : Chan} {k : CList} (hc : HasChan st.s c.ref) :
    ChannelOnly c.ref st.s (cmListMode st cl o c k).1.s := by
  simp only [cmListMode]
  split
  · exact .refl _
  · split
    · refine OnlyOutput.channel ?_
      unfold showChannelList
      exact (oo_foldl _ (fun s a => oo_write _ _ _) _ _).trans (oo_write _ _ _)
    · split
      · simp only
        split
        · exact addToList_only hc.ref
        · exact delFromList_only hc.ref
      · exact (oo_writeErr _ _ _).channel

theorem cmSwitch_only {st : CModeSt} {cl o : Nat} {c : Chan} {m : Char} {req : Request} (hc : HasChan st.s c.ref) :
    ChannelOnly c.ref st.s (cmSwitch st cl o c m req).1.s := by
  simp only [cmSwitch]
  split
  · exact cmErr_only
  split
  · split
    · exact .refl _
    · exact cmErr_only
  split
  · exact cmArgMode_only
  split
  · split
    · split
      · exact .refl _
      · exact (oo_writeErr _ _ _).channel
    · split
      · exact .refl _
      · exact cmErr_only
  split
  · exact cmMemberMode_only
  split
  · exact cmListMode_only hc
  split
  · exact cmListMode_only hc
  split
  · exact cmListMode_only hc
  split
  · exact (oo_writeErr _ _ _).channel
  · exact .refl _

theorem cmApply_only {st : CModeSt} {o : Nat} {c : Chan} {m : Char} (a : CAct) : ChannelOnly c.ref st.s (cmApply st o c m a).s := by
  cases a with
  | exit => exact .refl _
  | skip => exact .refl _
  | chanMode add =>
    simp only [cmApply]
    cases st.set
    · exact modeDel_only
    · exact modeAdd_only
  | memberMode r =>
    simp only [cmApply]
    split
    · exact (oo_writeErr _ _ _).channel
    · have : ChannelOnly c.ref st.s (if st.set = true then userModeAdd st.s c.ref r m else userModeDel st.s c.ref r m).1 := by
        split
        · exact .member (g := fun x => (modeAdd x m).1)
        · exact .member (g := fun x => (modeDel x m).1)
      generalize (if st.set = true then userModeAdd st.s c.ref r m else userModeDel st.s c.ref r m) = q at this ⊢
      cases q.2
      · exact this
      · exact this

theorem cmChar_only {st : CModeSt} {cl o : Nat} {c : Chan} {m : Char} {req : Request} (hc : HasChan st.s c.ref) :
    ChannelOnly c.ref st.s (cmChar st cl o c m req).1.s := by
  simp only [cmChar]
  split
  · split <;> exact .refl _
  · have h1 : ChannelOnly c.ref st.s (cmSwitch { st with rights := collectRights st.s st.rights c.ref cl } cl o c m req).1.s :=
      cmSwitch_only (st := { st with rights := collectRights st.s st.rights c.ref cl }) hc
    generalize cmSwitch { st with rights := collectRights st.s st.rights c.ref cl } cl o c m req = r at h1
    obtain ⟨st', a⟩ := r
    have h3 : ChannelOnly c.ref st.s (cmApply st' o c m a).s := h1.trans (cmApply_only a)
    cases a with
    | exit => exact h1
    | skip => exact h3
    | chanMode add => exact h3
    | memberMode c => exact h3

theorem cmLoop_only {cl o : Nat} {c : Chan} {req : Request} (n : Nat) (ptr : Str) (st : CModeSt) (hc : HasChan st.s c.ref) :
    ChannelOnly c.ref st.s (cmLoop cl o c req n ptr st).s := by
  induction n generalizing ptr st with
  | zero => cases ptr <;> exact .refl _
  | succ n ih =>
    cases ptr with
    | nil =>
      simp only [cmLoop]
      split
      · exact .refl _
      · rename_i a as hargs
        split
        · exact (oo_crash _).channel
        · exact ih a { st with args := as } hc
    | cons m ms =>
      have h1 := cmChar_only (st := st) (cl := cl) (o := o) (c := c) (m := m) (req := req) hc
      simp only [cmLoop]
      generalize cmChar st cl o c m req = r at h1
      obtain ⟨st', b⟩ := r
      cases b with
      | false => exact h1
      | true => exact h1.trans (ih ms st' (h1.has hc))

theorem oo_cmFinish (st : CModeSt) (cl o : Nat) (c : Chan) : OnlyOutput st.s (cmFinish st cl o c) := by
  unfold cmFinish
  simp only
  split
  · exact .refl _
  · split
    · split
      · exact .refl _
      · exact (oo_writeServers _ _ _ _).trans (oo_writeChannelPrefix _ _ _ _ _ _)
    · split
      · exact (oo_writePrefix _ _ _ _).trans (oo_writeChannelPrefix _ _ _ _ _ _)
      · exact ((oo_writePrefix _ _ _ _).trans (oo_writeServers _ _ _ _)).trans (oo_writeChannelPrefix _ _ _ _ _ _)

theorem channelMode_only {cl o : Nat} {c : Chan} {req : Request} (hc : HasChan s c.ref) : ChannelOnly c.ref s (channelMode s cl o c req) := by
  simp only [channelMode]
  split
  · exact (oo_writeErr _ _ _).channel
  · split
    · exact ((oo_write _ _ _).trans (oo_write _ _ _)).channel
    · split
      · exact (oo_writeErr _ _ _).channel
      · refine ChannelOnly.trans ?_ (oo_cmFinish _ _ _ _).channel
        exact cmLoop_only _ _ ({ s := s, the := _, set := _, rights := _, args := _ } : CModeSt) hc

theorem ircMODE_only {cl : Nat} {c : Chan} {req : Request} (hc : HasChan s c.ref) (hn : isValidNick s.conf.maxNickLength (req.arg 0) = false)
    (hs : channelSearch s (req.arg 0) = some c) : ChannelOnly c.ref s (ircMODE s cl req).1 := by
  unfold ircMODE
  cases h : getSender s cl req with
  | err t => exact (oo_getSender h).channel
  | ok o =>
    simp only [hn, hs]
    rw [if_neg (by decide)]
    simp only
    cases isValidChanName (req.arg 0) with
    | false =>
      rw [if_neg (by decide)]
      exact (oo_writeErr _ _ _).channel
    | true =>
      rw [if_pos rfl]
      exact channelMode_only hc

end Ngircd
