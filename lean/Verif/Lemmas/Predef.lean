import Verif.Spec.Predef
import Verif.Lemmas.ModeLocal
import Verif.Lemmas.Strict3
import Verif.Lemmas.ModeTold

/-!
# Pre-defined channels
-/

set_option linter.unusedSimpArgs false

namespace Ngircd
open Spec

variable {s t u : Srv} {c d : Chan} {cc : ConfChannel}

/-- References of channels are below the next free one. -/
structure Low (s : Srv) : Prop where
  chans : ∀ c ∈ s.chans, c.ref < s.nextRef
  members : ∀ m ∈ s.cl2, m.chan < s.nextRef

theorem Base.low (hb : Base s) : Low s := by
  refine ⟨hb.ch.lt, fun m hm => ?_⟩
  obtain ⟨c, hc, e⟩ := hb.ch.chan m hm
  rw [← e]; exact hb.ch.lt c hc

theorem Spec.CreatedOnly.refl (s : Srv) : CreatedOnly [] s s := ⟨rfl, [], s.fault, s.rnd, rfl⟩

theorem Spec.CreatedOnly.trans {a b : List Chan} (h : CreatedOnly a s t) (k : CreatedOnly b t u) : CreatedOnly (b ++ a) s u := by
  obtain ⟨h1, o, f, r, h2⟩ := h
  obtain ⟨k1, o', f', r', k2⟩ := k
  refine ⟨by rw [k1, h1, List.append_assoc], o' ++ o, f', r', ?_⟩
  have e1 : ({ u with chans := s.chans, nextRef := s.nextRef } : Srv) =
    { ({ u with chans := t.chans, nextRef := t.nextRef } : Srv) with chans := s.chans, nextRef := s.nextRef } := rfl
  rw [e1, k2]
  have e2 : ({ ({ t with out := o' ++ t.out, fault := f', rnd := r' } : Srv) with chans := s.chans, nextRef := s.nextRef } : Srv) =
    { ({ t with chans := s.chans, nextRef := s.nextRef } : Srv) with out := o' ++ t.out, fault := f', rnd := r' } := rfl
  rw [e2, h2]
  have e3 : t.out = o ++ s.out := congrArg Srv.out h2
  rw [e3, List.append_assoc]

theorem Spec.CreatedOnly.cl2 {a : List Chan} (h : CreatedOnly a s t) : t.cl2 = s.cl2 := by
  obtain ⟨-, o, f, r, h⟩ := h
  have := congrArg Srv.cl2 h
  exact this

theorem Spec.CreatedOnly.conf {a : List Chan} (h : CreatedOnly a s t) : t.conf = s.conf := by
  obtain ⟨-, o, f, r, h⟩ := h
  have := congrArg Srv.conf h
  exact this

/-- The channel `c` was created. -/
structure Made (c : Chan) (s t : Srv) : Prop where
  only : CreatedOnly [c] s t
  ref : c.ref = s.nextRef
  next : t.nextRef = s.nextRef + 1

theorem Made.low (h : Made c s t) (hl : Low s) : Low t := by
  refine ⟨fun d hd => ?_, fun m hm => ?_⟩
  · rw [h.only.1] at hd
    rw [h.next]
    rcases List.mem_cons.1 hd with rfl | hd
    · rw [h.ref]; omega
    · have := hl.chans d hd; omega
  · rw [h.only.cl2] at hm
    rw [h.next]
    have := hl.members m hm; omega

/-- What happens to the new channel alone. -/
theorem Made.channel (h : Made c s t) (hl : Low s) (k : ChannelOnly s.nextRef t u) : ∃ d, Made d s u ∧ ButModes c d := by
  obtain ⟨⟨h1, o, f, r, h2⟩, h3, h4⟩ := h
  obtain ⟨⟨o', f', r', k1⟩, ⟨F, k2, k3⟩, ⟨G, k4, k5⟩⟩ := k
  have hch : u.chans = F c :: s.chans := by
    rw [k2, h1]
    show F c :: s.chans.map F = _
    congr 1
    refine (List.map_congr_left (g := id) ?_).trans (List.map_id _)
    intro d hd
    exact (k3 d).1 (by have := hl.chans d hd; omega)
  have hc2 : t.cl2 = s.cl2 := by have := congrArg Srv.cl2 h2; exact this
  have hcl : u.cl2 = s.cl2 := by
    rw [k4, hc2]
    refine (List.map_congr_left (g := id) ?_).trans (List.map_id _)
    intro m hm
    exact (k5 m).1 (by have := hl.members m hm; omega)
  refine ⟨F c, ⟨⟨hch, o' ++ o, f', r', ?_⟩, by rw [(k3 c).2.ref, h3], ?_⟩, (k3 c).2⟩
  · have e1 : ({ u with chans := s.chans, nextRef := s.nextRef } : Srv) =
      { ({ u with chans := t.chans, cl2 := t.cl2 } : Srv) with chans := s.chans, cl2 := u.cl2, nextRef := s.nextRef } := rfl
    rw [e1, k1, hcl]
    have e2 : ({ ({ t with out := o' ++ t.out, fault := f', rnd := r' } : Srv) with chans := s.chans, cl2 := s.cl2, nextRef := s.nextRef } : Srv) =
      { ({ t with chans := s.chans, nextRef := s.nextRef } : Srv) with out := o' ++ t.out, fault := f', rnd := r', cl2 := s.cl2 } := rfl
    rw [e2, h2]
    have e3 : t.out = o ++ s.out := congrArg Srv.out h2
    rw [e3, List.append_assoc]
  · have : u.nextRef = t.nextRef := by have := congrArg Srv.nextRef k1; exact this
    rw [this, h4]

/-- Anything done to the new channel. -/
theorem Made.upd (h : Made c s t) (hl : Low s) (f : Chan → Chan) (hf : ∀ d, (f d).ref = d.ref) : Made (f c) s (t.updChan s.nextRef f) := by
  obtain ⟨⟨h1, o, g, r, h2⟩, h3, h4⟩ := h
  refine ⟨⟨?_, o, g, r, h2⟩, by rw [hf, h3], h4⟩
  show t.chans.map _ = _
  rw [h1]
  show _ :: s.chans.map _ = _
  simp only [h3, if_true]
  congr 1
  refine (List.map_congr_left (g := id) ?_).trans (List.map_id _)
  intro d hd
  exact if_neg (by have := hl.chans d hd; omega)

theorem Made.mem (h : Made c s t) : c ∈ t.chans := by rw [h.only.1]; simp

/-- The new channel is found by its name. -/
theorem Made.found (h : Made c s t) (hh : c.hash = Hash c.name) : channelSearch t c.name = some c := by
  unfold channelSearch
  rw [h.only.1]
  simp [List.find?, hh, caseEq_refl']

theorem create_made (s : Srv) (n : Str) (hv : isValidChanName n = true) : Made { ref := s.nextRef, name := n, hash := Hash n, creationTime := s.now } s (channelCreate s n) := by
  have hl : strlcpy CHANNEL_NAME_LEN n = n := by
    have := validChanName_len hv
    unfold strlcpy
    exact List.take_of_length_le (by simp only [CHANNEL_NAME_LEN] at *; omega)
  refine ⟨⟨?_, [], s.fault, s.rnd, rfl⟩, rfl, rfl⟩
  simp only [channelCreate, newChan, hl]
  rfl

theorem chan_no_nick {n : Nat} {name : Str} (h : isValidChanName name = true) : isValidNick n name = false := by
  cases name with
  | nil => rfl
  | cons a as => exact chanName_not_nick h (by simp)

theorem predefLegacy_only (s : Srv) (cc : ConfChannel) (ch : Nat) (a : Str) : ChannelOnly ch s (predefLegacy s cc ch a) := by
  have h1 : ∀ s : Srv, ChannelOnly ch s (channelModeAdd (channelSetKey s ch cc.key) ch 'k').1 := fun s =>
    (ChannelOnly.upd (s := s) (f := fun c => { c with key := strlcpy 65 cc.key }) (fun _ => rfl)).trans
      (ChannelOnly.upd (f := fun c => { c with modes := (modeAdd c.modes 'k').1 }) (fun _ => rfl))
  have h2 : ∀ s : Srv, ChannelOnly ch s (channelModeAdd (channelSetMaxUsers s ch cc.maxusers) ch 'l').1 := fun s =>
    (ChannelOnly.upd (s := s) (f := fun c => { c with maxusers := cc.maxusers }) (fun _ => rfl)).trans
      (ChannelOnly.upd (f := fun c => { c with modes := (modeAdd c.modes 'l').1 }) (fun _ => rfl))
  simp only [predefLegacy]
  refine ChannelOnly.trans (t := if hasChar a 'k' = true then (channelModeAdd (channelSetKey s ch cc.key) ch 'k').fst else s) ?_ ?_
  · split
    · exact h1 s
    · exact .refl _
  · by_cases hl : hasChar a 'l' = true
    · simp only [hl, if_true]; exact h2 _
    · simp only [hl, if_false]; exact .refl _

theorem Spec.ButModes.name (h : ButModes c d) : d.name = c.name := by unfold ButModes at h; rw [h]
theorem Spec.ButModes.hash (h : ButModes c d) : d.hash = c.hash := by unfold ButModes at h; rw [h]

theorem predefMode_made (h : Made c s t) (hl : Low s) (hn : c.name = cc.name) (hh : c.hash = Hash c.name) (hv : isValidChanName cc.name = true) (m : Str) :
    ∃ d, Made d s (predefMode cc s.nextRef t m) ∧ ButModes c d := by
  unfold predefMode
  split
  · exact ⟨c, h, rfl⟩
  · rename_i a args _
    simp only
    obtain ⟨d, k1, k2⟩ := h.channel hl (predefLegacy_only t cc s.nextRef a)
    have hf := k1.found (by rw [k2.hash, k2.name]; exact hh)
    rw [k2.name, hn] at hf
    obtain ⟨e, l1, l2⟩ := k1.channel hl (k1.ref ▸ ircMODE_only (cl := (predefLegacy t cc s.nextRef a).this) (req := { prefix? := some ((predefLegacy t cc s.nextRef a).cl (predefLegacy t cc s.nextRef a).this).ID, command := "MODE".toList, argv := cc.name :: a :: args })
        ⟨d, k1.mem, rfl⟩ (chan_no_nick hv) hf)
    exact ⟨e, l1, k2.trans l2⟩

theorem predefModes_made (hl : Low s) (hv : isValidChanName cc.name = true) : ∀ (ms : List Str) (c : Chan) (t : Srv), Made c s t → c.name = cc.name →
    c.hash = Hash c.name → ∃ d, Made d s (ms.foldl (predefMode cc s.nextRef) t) ∧ ButModes c d := by
  intro ms
  induction ms with
  | nil => exact fun c t h _ _ => ⟨c, h, rfl⟩
  | cons m ms ih =>
    intro c t h hn hh
    obtain ⟨d, k1, k2⟩ := predefMode_made h hl hn hh hv m
    obtain ⟨e, l1, l2⟩ := ih d _ k1 (by rw [k2.name, hn]) (by rw [k2.hash, k2.name, hh])
    exact ⟨e, l1, k2.trans l2⟩

/-! ## Plain mode letters -/

theorem Made.chInv (h : Made c s t) (hi : ChInv s) : ChInv t := by
  obtain ⟨⟨h1, o, f, r, h2⟩, h3, h4⟩ := h
  have hc2 : t.cl2 = s.cl2 := by have := congrArg Srv.cl2 h2; exact this
  refine ⟨?_, ?_, by rw [hc2]; exact hi.pairs, ?_, ?_⟩
  · rw [h1]
    refine List.pairwise_cons.2 ⟨fun d hd => ?_, hi.ord⟩
    rw [h3]; exact hi.lt d hd
  · intro d hd
    rw [h1] at hd
    rw [h4]
    rcases List.mem_cons.1 hd with rfl | hd
    · omega
    · have := hi.lt d hd; omega
  · intro m hm
    rw [hc2] at hm
    obtain ⟨d, hd, e⟩ := hi.chan m hm
    exact ⟨d, by rw [h1]; exact List.mem_cons_of_mem _ hd, e⟩
  · intro m hm
    rw [hc2] at hm
    have := hi.clt m hm; omega

/-- The server knows itself by its name. -/
structure Selfed (s : Srv) : Prop where
  found : clientSearch s (s.cl s.this).ID = some (s.cl s.this)
  ref : (s.cl s.this).ref = s.this
  type : (s.cl s.this).type = .server

theorem Made.selfed (h : Made c s t) (hs : Selfed s) : Selfed t := by
  obtain ⟨⟨h1, o, f, r, h2⟩, h3, h4⟩ := h
  have e1 : t.clients = s.clients := by have := congrArg Srv.clients h2; exact this
  have e2 : t.this = s.this := by have := congrArg Srv.this h2; exact this
  have e3 : t.cl t.this = s.cl s.this := by simp only [Srv.cl, Srv.cl?, e1, e2]
  refine ⟨?_, by rw [e3, e2]; exact hs.ref, by rw [e3]; exact hs.type⟩
  rw [e3]
  have := hs.found
  simp only [clientSearch, e1] at this ⊢
  exact this

theorem strtok_one {m : Str} (h1 : m ≠ []) (h2 : ' ' ∉ m) : strtok m [' '] = [m] := by
  have key : ∀ (m cur : Str), ' ' ∉ m → strtokAux (fun c => [' '].contains c) m cur = if (cur.reverse ++ m) = [] then [] else [cur.reverse ++ m] := by
    intro m
    induction m with
    | nil =>
      intro cur _
      simp only [strtokAux, List.append_nil, List.reverse_eq_nil_iff, List.isEmpty_iff]
    | cons a as ih =>
      intro cur h
      have ha : ([' '].contains a) = false := by
        rw [← Bool.not_eq_true, List.contains_iff_mem]
        intro hm
        cases List.mem_singleton.1 hm
        exact h (by simp)
      simp only [strtokAux, ha, Bool.false_eq_true, if_false]
      rw [ih (a :: cur) (fun hm => h (List.mem_cons_of_mem _ hm))]
      simp
  unfold strtok
  rw [key m [] h2]
  simp [h1]

/-- Letters a pre-defined channel may be given without further ado. -/
def plainLetter (x : Char) : Bool := "RsziVMmnNQtOP".toList.contains x

theorem plain_ne {x : Char} (h : plainLetter x = true) : x ≠ '+' ∧ x ≠ '-' ∧ x ≠ ' ' ∧ x ≠ 'k' ∧ x ≠ 'l' := by
  refine ⟨?_, ?_, ?_, ?_, ?_⟩ <;>
  · rintro rfl
    exact absurd h (by decide)

theorem predefMode_plain (hi : ChInv s) (hl : Low s) (hself : Selfed s) (h : Made c s t) (hn : c.name = cc.name) (hh : c.hash = Hash c.name)
    (hv : isValidChanName cc.name = true) (hml : c.name.head? ≠ some '+') {m ms : Str} (hm : m = ms ∨ m = '+' :: ms) (hne : ms ≠ [])
    (hms : ∀ x ∈ ms, plainLetter x = true) (hnd : ms.Nodup) (hM : c.modes.Nodup) (hroom : c.modes.length + ms.length ≤ 20) :
    ∃ d, Made d s (predefMode cc s.nextRef t m) ∧ ButModes c d ∧ d.modes = modesWith true c.modes ms := by
  have hms' : ∀ x ∈ ms, x ≠ '+' ∧ x ≠ '-' ∧ x ≠ ' ' ∧ x ≠ 'k' ∧ x ≠ 'l' := fun x hx => plain_ne (hms x hx)
  have hmem : ∀ x ∈ m, x = '+' ∨ x ∈ ms := by
    intro x hx
    rcases hm with e | e
    · rw [e] at hx; exact .inr hx
    · rw [e] at hx; exact List.mem_cons.1 hx
  have hlen : m.length ≤ 21 := by
    rcases hm with e | e
    · rw [e]; omega
    · rw [e, List.length_cons]; omega
  have hmne : m ≠ [] := by
    rcases hm with e | e <;> rw [e]
    · exact hne
    · simp
  have hsp : ' ' ∉ m := fun hx => by
    rcases hmem _ hx with e | e
    · cases e
    · exact (hms' _ e).2.2.1 rfl
  have hk : hasChar m 'k' = false := by
    rw [← Bool.not_eq_true, hasChar_iff]
    intro hx
    rcases hmem _ hx with e | e
    · cases e
    · exact (hms' _ e).2.2.2.1 rfl
  have hll : hasChar m 'l' = false := by
    rw [← Bool.not_eq_true, hasChar_iff]
    intro hx
    rcases hmem _ hx with e | e
    · cases e
    · exact (hms' _ e).2.2.2.2 rfl
  have hcut : strlcpy COMMAND_LEN m = m := by
    unfold strlcpy
    have hC : COMMAND_LEN = 513 := rfl
    exact List.take_of_length_le (by omega)
  have hf := h.found hh
  rw [hn] at hf
  have hiT := h.chInv hi
  have hst := h.selfed hself
  have hpm : predefMode cc s.nextRef t m = (ircMODE t t.this { prefix? := some (t.cl t.this).ID, command := "MODE".toList, argv := [cc.name, m] }).1 := by
    unfold predefMode
    rw [hcut, strtok_one hmne hsp]
    have e : predefLegacy t cc s.nextRef m = t := by
      simp only [predefLegacy, hk, hll, Bool.false_eq_true, if_false]
    show (ircMODE (predefLegacy t cc s.nextRef m) (predefLegacy t cc s.nextRef m).this { prefix? := some ((predefLegacy t cc s.nextRef m).cl (predefLegacy t cc s.nextRef m).this).ID, command := "MODE".toList, argv := [cc.name, m] }).1 = _
    rw [e]
  -- the request
  obtain ⟨req, hreq⟩ : ∃ req : Request, req = { prefix? := some (t.cl t.this).ID, command := "MODE".toList, argv := [cc.name, m] } := ⟨_, rfl⟩
  rw [← hreq] at hpm
  have hg : getSender t t.this req = .ok t.this := by
    simp only [getSender, hst.type, if_true, hreq, hst.found, hst.ref]
  have hmc : modeCl t t.this req = t.this := by
    simp only [modeCl, hreq, Option.bind_some, hst.found, hst.ref, if_true]
  have harg : req.arg 0 = cc.name := by rw [hreq]; rfl
  have hirc : (ircMODE t t.this req).1 = channelMode t t.this t.this c req := by
    simp only [ircMODE, hg, hmc, harg, chan_no_nick hv, Bool.false_eq_true, if_false, hv, if_true, hf]
  have hmach : (decide ((t.cl t.this).type = CType.server) || decide ((t.cl t.this).type = CType.service)) = true := by
    rw [hst.type]; decide
  have hmodeless : c.isModeless = false := by
    unfold Chan.isModeless
    cases hd : c.name.head? with
    | none => rfl
    | some x =>
      have : x ≠ '+' := fun e => hml (by rw [hd, e])
      simp [this]
  have hset : (m.head? != some '-') = true := by
    rcases hm with e | e
    · rw [e]
      cases ms with
      | nil => exact absurd rfl hne
      | cons x xs =>
        have := (hms' x (by simp)).2.1
        simp [this]
    · rw [e]; rfl
  have hptr : (if m.head? = some '-' ∨ m.head? = some '+' then m.drop 1 else m) = ms := by
    rcases hm with e | e
    · rw [e]
      cases ms with
      | nil => exact absurd rfl hne
      | cons x xs =>
        have := hms' x (by simp)
        rw [if_neg (by simp [this.1, this.2.1])]
    · rw [e]; rfl
  have hcm : ∃ R : Rights, R.machine = true ∧ channelMode t t.this t.this c req =
      cmFinish (cmLoop t.this t.this c req (argsSize [m] + 1) ms { s := t, the := ['+'], set := true, rights := R, args := [] }) t.this t.this c := by
    refine ⟨{ oper := (t.cl t.this).hasMode 'o' && t.conf.operCanMode, machine := true }, rfl, ?_⟩
    unfold channelMode
    rw [hmodeless]
    have hd : req.argv.drop 1 = [m] := by rw [hreq]; rfl
    simp only [Bool.false_eq_true, if_false, hd, hmach, hset, hptr, if_true, Bool.not_true, Bool.and_false]
  obtain ⟨R, hR, hcm⟩ := hcm
  have hcol : ∀ u r ch cl, (r : Rights).machine = true → collectRights u r ch cl = r := by
    intro u r ch cl hr
    simp only [collectRights, hr, Bool.true_or, if_true]
  obtain ⟨R', hloop⟩ := cmLoop_plain (s := t) (c := c) (cl := t.this) (req := req) hiT h.mem true t.this (R := R) ms (argsSize [m] + 1)
    { s := t, the := ['+'], set := true, rights := R, args := [] } c.modes
    (by
      show t = _
      have : t.chans.map (fun d => if d.ref = c.ref then { d with modes := c.modes } else d) = t.chans := by
        refine (List.map_congr_left (g := id) ?_).trans (List.map_id _)
        intro d hd
        by_cases e : d.ref = c.ref
        · have e2 : d = c := by
            have a1 := chan_of_mem hiT hd
            have a2 := chan_of_mem hiT h.mem
            rw [e, a2] at a1
            exact a1.symm
          rw [if_pos e, e2]; rfl
        · rw [if_neg e]; rfl
      show t = { t with chans := t.chans.map (fun d => if d.ref = c.ref then { d with modes := c.modes } else d) }
      rw [this])
    rfl rfl (hcol _ _ _ _ hR) (by
      intro x hx
      have := hms x hx
      simp only [mayLetter, Rights.half, Rights.chop, Rights.top, hR, Bool.or_true, Bool.true_or, Bool.and_true, if_true]
      exact this) hM hnd (fun _ => hroom) (by simp; omega) (by
        rcases hm with e | e <;> rw [e] <;> simp only [argsSize, List.length_cons] <;> omega)
  rw [hpm, hirc, hcm, hloop]
  have hup := h.upd hl (fun d => { d with modes := modesWith true c.modes ms }) (fun _ => rfl)
  rw [← h.ref] at hup
  have hoo := oo_cmFinish { s := t.updChan c.ref (fun d => { d with modes := modesWith true c.modes ms }), the := ['+'] ++ changed true c.modes ms, set := true, rights := R', args := [] } t.this t.this c
  obtain ⟨o, f, e⟩ := hoo
  refine ⟨{ c with modes := modesWith true c.modes ms }, ?_, rfl, rfl⟩
  obtain ⟨⟨u1, o', f', r', u2⟩, u3, u4⟩ := hup
  rw [e]
  refine ⟨⟨u1, o ++ o', f, r', ?_⟩, u3, u4⟩
  obtain ⟨T, hT⟩ : ∃ T, T = t.updChan c.ref (fun d => { d with modes := modesWith true c.modes ms }) := ⟨_, rfl⟩
  simp only [← hT] at u2 ⊢
  have e3 : T.out = o' ++ s.out := by have := congrArg Srv.out u2; exact this
  have e4 : ({ ({ T with out := o ++ T.out, fault := f } : Srv) with chans := s.chans, nextRef := s.nextRef } : Srv) =
    { ({ T with chans := s.chans, nextRef := s.nextRef } : Srv) with out := o ++ T.out, fault := f } := rfl
  rw [e4, u2, e3, List.append_assoc]

theorem modesWith_mem (M ms : Str) (x : Char) : x ∈ modesWith true M ms ↔ x ∈ M ∨ x ∈ ms := by
  simp only [modesWith, if_true, changed, List.mem_append, List.mem_filter, Bool.not_eq_true', ← Bool.not_eq_true, List.contains_iff_mem]
  constructor
  · rintro (h | h)
    · exact .inl h
    · exact .inr h.1
  · intro h
    by_cases hx : x ∈ M
    · exact .inl hx
    · exact .inr ⟨h.resolve_left hx, hx⟩

theorem modesWith_nodup {M ms : Str} (h1 : M.Nodup) (h2 : ms.Nodup) : (modesWith true M ms).Nodup := by
  simp only [modesWith, if_true, changed]
  refine List.nodup_append.2 ⟨h1, h2.filter _, ?_⟩
  intro a ha b hb e
  rw [← e] at hb
  have := (List.mem_filter.1 hb).2
  simp only [if_true, Bool.not_eq_true', ← Bool.not_eq_true, List.contains_iff_mem] at this
  exact this ha

theorem modesWith_len (M ms : Str) : (modesWith true M ms).length ≤ M.length + ms.length := by
  simp only [modesWith, if_true, changed, List.length_append]
  have := List.length_filter_le (fun m => if true = true then !M.contains m else M.contains m) ms
  simp only [if_true] at this ⊢
  omega

theorem predefModes_plain (hi : ChInv s) (hl : Low s) (hself : Selfed s) (hv : isValidChanName cc.name = true) (hml : cc.name.head? ≠ some '+') :
    ∀ (L : List Str) (c : Chan) (t : Srv), Made c s t → c.name = cc.name → c.hash = Hash c.name → (∀ m ∈ L, PlainModes m) → c.modes.Nodup →
    c.modes.length + (L.map List.length).sum ≤ 20 →
    ∃ d, Made d s (L.foldl (predefMode cc s.nextRef) t) ∧ ButModes c d ∧ ∀ x, x ∈ d.modes ↔ x ∈ c.modes ∨ ∃ m ∈ L, x ∈ m ∧ x ≠ '+' := by
  intro L
  induction L with
  | nil => exact fun c t h _ _ _ _ _ => ⟨c, h, rfl, fun x => ⟨.inl, fun h => h.resolve_right (by rintro ⟨m, hm, -⟩; cases hm)⟩⟩
  | cons m L ih =>
    intro c t h hn hh hL hM hroom
    obtain ⟨ms, h1, h2, h3, h4⟩ := hL m (by simp)
    simp only [List.map_cons, List.sum_cons] at hroom
    have hlen : ms.length ≤ m.length := by
      rcases h1 with e | e
      · rw [e]; exact Nat.le_refl _
      · rw [e, List.length_cons]; omega
    have h3' : ∀ x ∈ ms, plainLetter x = true := fun x hx => by
      have := h3 x hx
      unfold plainLetter
      rw [List.contains_iff_mem]; exact this
    obtain ⟨d, k1, k2, k3⟩ := predefMode_plain hi hl hself h hn hh hv (by rw [hn]; exact hml) h1 h2 h3' h4 hM (by omega)
    have hdl := modesWith_len c.modes ms
    obtain ⟨e, l1, l2, l3⟩ := ih d _ k1 (by rw [k2.name, hn]) (by rw [k2.hash, k2.name, hh]) (fun m hm => hL m (List.mem_cons_of_mem _ hm))
      (by rw [k3]; exact modesWith_nodup hM h4) (by rw [k3]; omega)
    refine ⟨e, l1, k2.trans l2, fun x => ?_⟩
    rw [l3, k3, modesWith_mem]
    have hx : x ∈ ms ↔ x ∈ m ∧ x ≠ '+' := by
      rcases h1 with e | e
      · rw [e]
        exact ⟨fun h => ⟨h, (plain_ne (h3' x h)).1⟩, fun h => h.1⟩
      · rw [e]
        constructor
        · exact fun h => ⟨List.mem_cons_of_mem _ h, (plain_ne (h3' x h)).1⟩
        · rintro ⟨h, h'⟩
          exact (List.mem_cons.1 h).resolve_left h'
    rw [hx]
    constructor
    · rintro ((h | h) | ⟨w, hw, h⟩)
      · exact .inl h
      · exact .inr ⟨m, by simp, h⟩
      · exact .inr ⟨w, List.mem_cons_of_mem _ hw, h⟩
    · rintro (h | ⟨w, hw, h⟩)
      · exact .inl (.inl h)
      · rcases List.mem_cons.1 hw with rfl | hw
        · exact .inl (.inr h)
        · exact .inr ⟨w, hw, h⟩

/-! ## One pre-defined channel -/

/-- The topic of a pre-defined channel. -/
def topicOf (cc : ConfChannel) : Str := if cc.topic.length < 512 + 1 then cc.topic else []

/-- The modes of a pre-defined channel with plain mode letters only. -/
def ModesFrom (s : Srv) (cc : ConfChannel) (d : Chan) : Prop :=
  ChInv s → Selfed s → PlainChannel cc → ∀ x, x ∈ d.modes ↔ x = 'P' ∨ ∃ m ∈ cc.modes, x ∈ m ∧ x ≠ '+'

/-- One pre-defined channel. -/
theorem predefChannel_made (hl : Low s) (cc : ConfChannel) :
    (predefChannel s cc = s ∧ (cc.name = [] ∨ isValidChanName cc.name = false ∨ (channelSearch s cc.name).isSome = true)) ∨
    (isValidChanName cc.name = true ∧ channelSearch s cc.name = none ∧
      ∃ d, Made d s (predefChannel s cc) ∧ d.name = cc.name ∧ d.hash = Hash d.name ∧ d.topic = topicOf cc ∧ ModesFrom s cc d) := by
  unfold predefChannel
  by_cases h : (cc.name.isEmpty || !isValidChanName cc.name) = true
  · rw [if_pos h]
    refine .inl ⟨rfl, ?_⟩
    simp only [Bool.or_eq_true, List.isEmpty_iff, Bool.not_eq_true'] at h
    rcases h with h | h
    · exact .inl h
    · exact .inr (.inl h)
  · rw [if_neg h]
    simp only [Bool.or_eq_true, List.isEmpty_iff, Bool.not_eq_true', not_or, Bool.not_eq_false] at h
    cases hs : channelSearch s cc.name with
    | some x => exact .inl ⟨rfl, .inr (.inr rfl)⟩
    | none =>
      refine .inr ⟨h.2, rfl, ?_⟩
      simp only
      have h0 := (create_made s cc.name h.2).upd hl (fun d => { d with modes := (modeAdd d.modes 'P').1 }) (fun _ => rfl)
      have h1 : ∃ d, Made d s (if cc.topic.isEmpty = true then (channelModeAdd (channelCreate s cc.name) s.nextRef 'P').fst
          else channelSetTopic (channelModeAdd (channelCreate s cc.name) s.nextRef 'P').fst s.nextRef none cc.topic) ∧
          d.name = cc.name ∧ d.hash = Hash d.name ∧ d.topic = topicOf cc ∧ d.modes = ['P'] := by
        by_cases ht : cc.topic.isEmpty = true
        · rw [if_pos ht]
          refine ⟨_, h0, rfl, rfl, ?_, rfl⟩
          unfold topicOf
          rw [List.isEmpty_iff.1 ht]
          rfl
        · rw [if_neg ht]
          refine ⟨_, h0.upd hl _ (fun _ => rfl), rfl, rfl, ?_, rfl⟩
          unfold topicOf
          have hC : COMMAND_LEN = 513 := rfl
          show (if cc.topic.length ≥ COMMAND_LEN then [] else cc.topic) = _
          by_cases hk : cc.topic.length ≥ COMMAND_LEN
          · rw [if_neg (show ¬ cc.topic.length < 512 + 1 by omega), if_pos hk]
          · rw [if_pos (show cc.topic.length < 512 + 1 by omega), if_neg hk]
      obtain ⟨d, k1, k2, k3, k4, k5⟩ := h1
      obtain ⟨e, l1, l2⟩ := predefModes_made hl h.2 cc.modes d _ k1 k2 k3
      refine ⟨e, l1, by rw [l2.name, k2], by rw [l2.hash, l2.name, k3], ?_, ?_⟩
      · rw [← k4]
        unfold ButModes at l2; rw [l2]
      · intro hi hself ⟨hml, hpl, hsum⟩
        obtain ⟨e', l1', -, l3⟩ := predefModes_plain hi hl hself h.2 hml cc.modes d _ k1 k2 k3 hpl (by rw [k5]; decide) (by rw [k5]; simp only [List.length_singleton]; omega)
        have he : e' = e := by
          have a1 := l1.only.1
          rw [l1'.only.1] at a1
          exact (List.cons.inj a1).1
        rw [he, k5] at l3
        intro x
        rw [l3 x, List.mem_singleton]

/-! ## All of them -/

/-- Channels made by the configuration. -/
def MadeBy (s : Srv) (cs : List ConfChannel) (d : Chan) : Prop :=
  ∃ cc ∈ cs, isValidChanName cc.name = true ∧ d.name = cc.name ∧ d.topic = topicOf cc ∧ ModesFrom s cc d

theorem channelSearch_mono {new : List Chan} {t s : Srv} (h : t.chans = new ++ s.chans) {n : Str} (hs : (channelSearch s n).isSome = true) :
    (channelSearch t n).isSome = true := by
  unfold channelSearch at hs ⊢
  rw [h, List.find?_append]
  cases List.find? (fun c => c.hash == Hash n && caseEq n c.name) new with
  | some x => rfl
  | none => exact hs

theorem predefFold_made : ∀ (cs : List ConfChannel) (s : Srv), Low s →
    ∃ new, CreatedOnly new s (cs.foldl predefChannel s) ∧ Low (cs.foldl predefChannel s) ∧ (∀ d ∈ new, MadeBy s cs d) ∧
      ∀ cc ∈ cs, cc.name ≠ [] → isValidChanName cc.name = true → (channelSearch (cs.foldl predefChannel s) cc.name).isSome = true := by
  intro cs
  induction cs with
  | nil => exact fun s hl => ⟨[], .refl _, hl, fun d hd => (by cases hd), fun cc hc => (by cases hc)⟩
  | cons cc cs ih =>
    intro s hl
    rcases predefChannel_made hl cc with ⟨e, hw⟩ | ⟨hv, hs, d, h1, h2, h3, h4, h5⟩
    · obtain ⟨new, k1, k2, k3, k4⟩ := ih s hl
      refine ⟨new, ?_, ?_, ?_, ?_⟩
      · show CreatedOnly new s (cs.foldl predefChannel (predefChannel s cc)); rw [e]; exact k1
      · show Low (cs.foldl predefChannel (predefChannel s cc)); rw [e]; exact k2
      · intro d hd
        obtain ⟨c', a, b⟩ := k3 d hd
        exact ⟨c', List.mem_cons_of_mem _ a, b⟩
      · intro c' hc' hne hv
        show (channelSearch (cs.foldl predefChannel (predefChannel s cc)) c'.name).isSome = true
        rw [e]
        rcases List.mem_cons.1 hc' with rfl | hc'
        · rcases hw with hw | hw | hw
          · exact absurd hw hne
          · rw [hv] at hw; cases hw
          · exact channelSearch_mono k1.1 hw
        · exact k4 c' hc' hne hv
    · obtain ⟨new, k1, k2, k3, k4⟩ := ih (predefChannel s cc) (h1.low hl)
      refine ⟨new ++ [d], h1.only.trans k1, k2, ?_, ?_⟩
      · intro x hx
        rcases List.mem_append.1 hx with hx | hx
        · obtain ⟨c', a, b1, b2, b3, b4⟩ := k3 x hx
          exact ⟨c', List.mem_cons_of_mem _ a, b1, b2, b3, fun e1 e2 => b4 (h1.chInv e1) (h1.selfed e2)⟩
        · cases List.mem_singleton.1 hx
          exact ⟨cc, by simp, hv, h2, h4, h5⟩
      · intro c' hc' hne hv
        rcases List.mem_cons.1 hc' with rfl | hc'
        · refine channelSearch_mono (t := cs.foldl predefChannel (predefChannel s c')) k1.1 ?_
          rw [← h2, h1.found h3]; rfl
        · exact k4 c' hc' hne hv

/-- `&SERVER` as it is made. -/
def IsServerChan (d : Chan) : Prop := d.name = "&SERVER".toList ∧ d.modes = "mnPt".toList ∧ d.topic = "Server Messages".toList

theorem initPredefined_made (hl : Low s) :
    ∃ new, CreatedOnly new s (channelInitPredefined s) ∧ (∀ d ∈ new, MadeBy s s.conf.channels d ∨ IsServerChan d) ∧
      (∀ cc ∈ s.conf.channels, cc.name ≠ [] → isValidChanName cc.name = true → (channelSearch (channelInitPredefined s) cc.name).isSome = true) ∧
      (channelSearch (channelInitPredefined s) "&SERVER".toList).isSome = true := by
  obtain ⟨new, k1, k2, k3, k4⟩ := predefFold_made s.conf.channels s hl
  unfold channelInitPredefined
  simp only
  generalize s.conf.channels.foldl predefChannel s = t at *
  cases hs : channelSearch t serverChan with
  | some x => exact ⟨new, k1, fun d hd => .inl (k3 d hd), k4, by show (channelSearch t serverChan).isSome = true; rw [hs]; rfl⟩
  | none =>
    have h1 := ((create_made t serverChan (by decide)).upd k2 (fun d => { d with modes := strlcpy CHANNEL_MODE_LEN "mnPt".toList }) (fun _ => rfl))
    have h2 := h1.upd k2 (fun c => { c with
      topic := if "Server Messages".toList.length ≥ COMMAND_LEN then c.topic else "Server Messages".toList,
      topicTime := t.now,
      topicWho := if (t.cl t.this).type ≠ .server then strlcpy 32 (t.cl t.this).ID else "-Server-".toList }) (fun _ => rfl)
    refine ⟨_, k1.trans h2.only, ?_, ?_, ?_⟩
    · intro d hd
      rcases List.mem_append.1 hd with hd | hd
      · cases List.mem_singleton.1 hd
        exact .inr ⟨rfl, rfl, rfl⟩
      · exact .inl (k3 d hd)
    · intro cc hc hne hv
      exact channelSearch_mono h2.only.1 (k4 cc hc hne hv)
    · have := h2.found rfl
      exact Option.isSome_iff_exists.2 ⟨_, this⟩

end Ngircd
