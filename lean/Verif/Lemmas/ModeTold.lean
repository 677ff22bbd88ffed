import Verif.Props.Announce
import Verif.Lemmas.Broadcast
import Verif.Props.Registry

/-!
# Lines telling of channel mode changes
-/

set_option linter.unusedSimpArgs false

namespace Ngircd
open Spec

variable {s : Srv} {i : Nat} {l : Str} {cl : Nat} {req : Request} {f x : Client} {c : Chan}

/-- The lines of a mode change: the client itself, if it is a user, the other servers, the other members. -/
def tellMode (u : Srv) (cl : Nat) (w : Client) (ch : Nat) (far : Bool) (m : Msg) : Srv :=
  let u := if (u.cl cl).type = .user then writePrefix u (u.cl cl) w m else u
  let u := if far then writeServers u (some cl) w m else u
  writeChannelPrefix u cl ch w false m

theorem tell_out (hb : Base s) (hcl : s.cl cl ∈ s.clients) (href : (s.cl cl).ref = cl) (hci : (s.cl cl).conn = some i)
    (w : Client) (ch : Nat) (far : Bool) (m : Msg) :
    ∃ o, (∀ t, Like s t → tellMode t cl w ch far m = { t with out := o ++ t.out }) ∧
      ModeTold s i ((s.cl cl).type = .user) ch w (far = true) m o := by
  obtain ⟨o1, h1, h2, h3⟩ := servers_spec hb (some cl) w m
  obtain ⟨o2, g1, g2, g3⟩ := channel_spec hb cl ch w m
  have hnot : ∀ j, Listens s ch j → isLink s j = true → False := by
    rintro j ⟨y, hy, y1, y2, y3⟩ hl
    rw [isLink_iff hb hy y1] at hl
    exact y2 (by simpa using hl)
  have hex := link_except hb hcl hci
  rw [href] at hex
  have hloc : ∀ j, LocalMember s cl ch j ↔ Listens s ch j ∧ j ≠ i := by
    intro j
    constructor
    · rintro ⟨y, hy, y1, y2, y3, y4⟩
      refine ⟨⟨y, hy, y2, y3, y4⟩, ?_⟩
      rintro rfl
      exact y1 (by rw [conn_owner hb hy hcl y2 hci, href])
    · rintro ⟨⟨y, hy, y1, y2, y3⟩, hne⟩
      refine ⟨y, hy, ?_, y1, y2, y3⟩
      rintro rfl
      rw [cl_of_mem hb.cl.ord hy, y1] at hci
      injection hci with hci
      exact hne hci
  obtain ⟨o1', e1, k2, k3⟩ : ∃ o, (∀ t, Like s t → (if far then writeServers t (some cl) w m else t) = { t with out := o ++ t.out }) ∧
      (far = true → ∀ j, j ≠ i → isLink s j = true → onConn o j = [⟨j, some w.ID, m⟩]) ∧
      (∀ y ∈ o, far = true ∧ y.conn ≠ i ∧ isLink s y.conn = true) := by
    by_cases hl : far = true
    · simp only [if_pos hl]
      refine ⟨o1, h1, fun _ j hj hlj => ?_, fun y hy => ?_⟩
      · obtain ⟨d, d1, d2, d3⟩ := isLink_mem.1 hlj
        exact h2 j d d1 d2 d3 ((hex j d d1 d2 d3).2 hj)
      · obtain ⟨d, d1, d2, d3, d4⟩ := h3 y hy
        exact ⟨hl, (hex _ d d1 d2 d3).1 d4, isLink_mem.2 ⟨d, d1, d2, d3⟩⟩
    · simp only [if_neg hl]
      exact ⟨[], fun _ _ => rfl, fun h => absurd h hl, (by intro y hy; cases hy)⟩
  obtain ⟨o3, e3, p2, p3⟩ : ∃ o3, (∀ t, Like s t → (if (t.cl cl).type = .user then writePrefix t (t.cl cl) w m else t) = { t with out := o3 ++ t.out }) ∧
      ((s.cl cl).type = .user → o3 = [⟨i, some (maskCloaked s w), m⟩]) ∧
      (∀ y ∈ o3, (s.cl cl).type = .user ∧ y.conn = i) := by
    by_cases hu : (s.cl cl).type = .user
    · refine ⟨[⟨i, some (maskCloaked s w), m⟩], fun t ht => ?_, fun _ => rfl, ?_⟩
      · rw [ht.cl, if_pos hu]
        simp only [writePrefix, lineTo, ht.hop, hb.nextHop_conn hcl (by rw [hci]; rfl), hci, Option.map_some, Option.toList,
          getPrefix, if_neg (show ¬ (s.cl cl).type = .server from by rw [hu]; decide), ht.mask, Option.isNone_some, Bool.or_false]
      · intro y hy
        simp only [List.mem_singleton] at hy
        rw [hy]; exact ⟨hu, rfl⟩
    · refine ⟨[], fun t ht => ?_, fun h => absurd h hu, (by intro y hy; cases hy)⟩
      rw [ht.cl, if_neg hu]; rfl
  have hil : (s.cl cl).type = .user → ¬ isLink s i = true := by
    intro hu hl
    rw [isLink_iff hb hcl hci, hu] at hl
    cases hl
  refine ⟨o2 ++ (o1' ++ o3), fun t ht => ?_, ⟨?_, ?_, ?_, ?_⟩⟩
  · simp only [tellMode]
    rw [e3 t ht, e1 { t with out := o3 ++ t.out } ht.out, g1 { t with out := o1' ++ (o3 ++ t.out) } ht.out]
    simp
  · intro hu
    have z1 : onConn o1' i = [] := onConn_nil (fun y hy he => (k3 y hy).2.1 he)
    have z2 : onConn o2 i = [] := onConn_nil (fun y hy he => ((hloc _).1 (g3 y hy)).2 he)
    rw [onConn_append, onConn_append, z1, z2, p2 hu]
    simp [onConn]
  · intro j hj hlj
    have z1 : onConn o1' j = [] := onConn_nil (fun y hy he => by
      have := (k3 y hy).2.2; rw [he] at this; exact hnot j hlj this)
    have z3 : onConn o3 j = [] := onConn_nil (fun y hy he => hj (he.symm.trans (p3 y hy).2))
    rw [onConn_append, onConn_append, z1, z3, g2 j ((hloc j).2 ⟨hlj, hj⟩)]
    simp
  · intro hl j hj hlj
    have z2 : onConn o2 j = [] := onConn_nil (fun y hy he => by
      have := ((hloc _).1 (g3 y hy)).1; rw [he] at this; exact hnot j this hlj)
    have z3 : onConn o3 j = [] := onConn_nil (fun y hy he => hj (he.symm.trans (p3 y hy).2))
    rw [onConn_append, onConn_append, z2, z3, k2 hl j hj hlj]
    simp
  · intro y hy
    simp only [List.mem_append] at hy
    rcases hy with hy | hy | hy
    · exact .inr (.inl ((hloc _).1 (g3 y hy)).1)
    · exact .inr (.inr (k3 y hy))
    · exact .inl (p3 y hy)

/-- A MODE command naming a channel. -/
theorem mode_chan (h : PoliteRun s) (hr : Received s i l cl req) (his : Is req "MODE")
    (hty : (s.cl cl).type = .user ∨ (s.cl cl).type = .server) (hf : Originator s cl req f) (hfs : f.type ≠ .server) (rnd : Int)
    (hargs : req.argv ≠ []) (hc : c ∈ s.chans) (hname : SameCase c.name (req.arg 0)) :
    step s (.line i rnd l) = channelMode (s.roll rnd) cl f.ref c req := by
  have hb := h.reachable.base
  have ha := hr.asker hb rnd
  obtain ⟨hg, hor⟩ := sender_is h hr hf hfs rnd
  have hst : step s (.line i rnd l) = (ircMODE (s.roll rnd) cl req).1 :=
    step_do hr rnd his rfl (by rcases hty with e | e <;> rw [e] <;> rfl) (by
      simp only [Command.argcOk, Bool.and_eq_true, decide_eq_true_eq]
      exact ⟨List.length_pos_iff.2 hargs, trivial⟩)
  have hmc : modeCl (s.roll rnd) cl req = cl := by
    simp only [modeCl]
    split
    · rename_i c hc
      split
      · rename_i he
        exfalso
        cases hp : req.prefix? with
        | none => rw [hp] at hc; cases hc
        | some p =>
          rw [hp] at hc
          have hc : clientSearch (s.roll rnd) p = some c := hc
          have h1 := (nextHop_iff ha.base ha.conn (clientSearch_mem hc)).1 (ha.pre p c hp hc)
          exact h1.ne_this ha.base (clientSearch_mem hc) he
      · rfl
    · rfl
  have hs2 : channelSearch (s.roll rnd) (req.arg 0) = some c := (C13_channel_lookup h _ c).2 ⟨hc, hname⟩
  obtain ⟨hv, hne⟩ := (polite_chan h).good c hc
  have hv2 : isValidChanName (req.arg 0) = true := by
    rw [← isValidChanName_lower] at hv ⊢
    rw [← (sameCase_iff _ _).1 hname]; exact hv
  have hnn : isValidNick (s.roll rnd).conf.maxNickLength (req.arg 0) = false := by
    cases ha : req.arg 0 with
    | nil =>
      rfl
    | cons a as =>
      rw [ha] at hv2
      simp only [isValidChanName, Bool.and_eq_true] at hv2
      have h1 : a = '#' ∨ a = '&' ∨ a = '+' := by simpa using hv2.1.1
      have h2 : a.toNat < 'A'.toNat ∧ hasChar nickGoodChars a = false := by
        rcases h1 with rfl | rfl | rfl <;> decide
      simp only [isValidNick, List.all_cons, h2.2, h2.1, decide_true, Bool.not_false, Bool.and_self, Bool.not_true,
        Bool.true_and, Bool.false_and, Bool.and_false]
  rw [hst]
  simp only [ircMODE, hg, hmc, hnn, Bool.false_eq_true, if_false, hv2, if_true, hs2]

/-! ## Rights -/

/-- What the rights must be for a plain mode letter. -/
def mayLetter (r : Rights) (set : Bool) (m : Char) : Bool :=
  "RsziVMmnNQtOP".toList.contains m && r.half && (!"Rsz".toList.contains m || r.chop) &&
  (!"OP".toList.contains m || (if set then r.top else r.chop))

theorem cmSwitch_plain {st : CModeSt} {o : Nat} {m : Char} (h : mayLetter st.rights st.set m = true) :
    cmSwitch st cl o c m req = (st, .chanMode []) := by
  simp only [mayLetter, Bool.and_eq_true] at h
  obtain ⟨⟨⟨h1, h2⟩, h3⟩, h4⟩ := h
  simp only [cmSwitch]
  rw [if_neg (by rw [Bool.and_eq_true]; rintro ⟨a, b⟩; rw [a] at h3; rw [Bool.not_eq_true'] at b; rw [b] at h3; exact absurd h3 (by decide))]
  by_cases hp : "RsziVMmnNQt".toList.contains m = true
  · rw [if_pos hp, if_pos h2]
  · rw [if_neg hp]
    have hop : m = 'O' ∨ m = 'P' := by
      have h1 : m ∈ "RsziVMmnNQtOP".toList := by simpa using h1
      have hp : m ∉ "RsziVMmnNQt".toList := by simpa using hp
      have e : "RsziVMmnNQtOP".toList = "RsziVMmnNQt".toList ++ ['O', 'P'] := by decide
      rw [e, List.mem_append] at h1
      have := h1.resolve_left hp
      simpa using this
    have hc : "OP".toList.contains m = true := by rcases hop with rfl | rfl <;> decide
    rw [hc] at h4
    simp only [Bool.not_true, Bool.false_or] at h4
    rw [if_neg (by rcases hop with rfl | rfl <;> decide), if_pos hop]
    by_cases hs : st.set = true
    · rw [if_pos hs] at h4
      rw [if_pos hs, if_pos h4]
    · rw [if_neg hs] at h4
      rw [if_neg hs, if_pos h4]

theorem collect_twice (s : Srv) (r : Rights) (ch cl : Nat) :
    collectRights s (collectRights s r ch cl) ch cl = collectRights s r ch cl := by
  by_cases h : (r.machine || r.oper) = true
  · have e : collectRights s r ch cl = r := by simp only [collectRights]; exact if_pos h
    rw [e, e]
  · have e : collectRights s r ch cl = { r with
        owner := r.owner || userHasMode s ch cl 'q', admin := r.admin || userHasMode s ch cl 'a',
        op := r.op || userHasMode s ch cl 'o', halfop := r.halfop || userHasMode s ch cl 'h' } := by simp only [collectRights]; exact if_neg h
    rw [e]
    simp only [collectRights]
    refine (if_neg h).trans ?_
    simp only [Bool.or_assoc, Bool.or_self]

/-- One letter with the rights for it. -/
theorem cmChar_plain {st : CModeSt} {o : Nat} {m : Char} (hm : m ≠ '+' ∧ m ≠ '-')
    (h : mayLetter (collectRights st.s st.rights c.ref cl) st.set m = true) :
    cmChar st cl o c m req = (cmApply { st with rights := collectRights st.s st.rights c.ref cl } o c m (.chanMode []), true) := by
  simp only [cmChar]
  rw [if_neg (show ¬ (m = '+' ∨ m = '-') from fun h => h.elim hm.1 hm.2)]
  rw [cmSwitch_plain (st := { st with rights := collectRights st.s st.rights c.ref cl }) h]

theorem changed_cons (set : Bool) (M ms : Str) (m : Char) :
    changed set M (m :: ms) = (if (if set then !M.contains m else M.contains m) then [m] else []) ++ changed set M ms := by
  simp only [changed, List.filter_cons]
  generalize (if set = true then !M.contains m else M.contains m) = b
  cases b <;> rfl

theorem changed_congr {set : Bool} {M M' ms : Str} (h : ∀ m ∈ ms, m ∈ M ↔ m ∈ M') : changed set M ms = changed set M' ms := by
  simp only [changed]
  refine List.filter_congr (fun m hm => ?_)
  have : M.contains m = M'.contains m := by
    rw [Bool.eq_iff_iff, List.contains_iff_mem, List.contains_iff_mem]; exact h m hm
  rw [this]

theorem upd_upd (s : Srv) (r : Nat) (g k : Chan → Chan) (hg : ∀ d, (g d).ref = d.ref) :
    (s.updChan r g).updChan r k = s.updChan r (fun d => k (g d)) := by
  simp only [Srv.updChan, List.map_map]
  congr 1
  refine List.map_congr_left (fun d _ => ?_)
  simp only [Function.comp]
  by_cases h : d.ref = r
  · rw [if_pos h, if_pos (by rw [hg]; exact h), if_pos h]
  · rw [if_neg h, if_neg h, if_neg h]

theorem chan_upd (hi : ChInv s) (hc : c ∈ s.chans) (g : Chan → Chan) (hg : ∀ d, (g d).ref = d.ref) :
    (s.updChan c.ref g).chan c.ref = g c := by
  have hm : g c ∈ (s.updChan c.ref g).chans := mem_updChan.2 ⟨c, hc, (if_pos rfl).symm⟩
  have hi' : ChInv (s.updChan c.ref g) := by
    refine ⟨?_, ?_, hi.pairs, ?_, hi.clt⟩
    · simp only [Srv.updChan]
      rw [List.pairwise_map]
      refine hi.ord.imp (fun {a b} h => ?_)
      have e : ∀ d : Chan, (if d.ref = c.ref then g d else d).ref = d.ref := by
        intro d
        split
        · exact hg d
        · rfl
      rw [e, e]; exact h
    · intro d hd
      obtain ⟨d', h1, rfl⟩ := mem_updChan.1 hd
      have := hi.lt d' h1
      show _ < s.nextRef
      split
      · rw [hg]; exact this
      · exact this
    · intro m hm
      obtain ⟨d, h1, h2⟩ := hi.chan m hm
      refine ⟨_, mem_updChan.2 ⟨d, h1, rfl⟩, ?_⟩
      split
      · rw [hg]; exact h2
      · exact h2
  have := chan_of_mem hi' hm
  rw [hg] at this
  exact this

theorem upd_modes (s : Srv) (r : Nat) (M : Str) (F : Str → Str) :
    (s.updChan r (fun d => { d with modes := M })).updChan r (fun d => { d with modes := F d.modes }) =
      s.updChan r (fun d => { d with modes := F M }) :=
  upd_upd s r (fun d => { d with modes := M }) (fun d => { d with modes := F d.modes }) (fun _ => rfl)

/-- The state after the letters `ms`. -/
theorem cmLoop_plain (hi : ChInv s) (hc : c ∈ s.chans) (set : Bool) (o : Nat) {R : Rights} : ∀ (ms : Str) (n : Nat) (st : CModeSt) (M : Str),
    st.s = s.updChan c.ref (fun d => { d with modes := M }) → st.args = [] → st.set = set →
    collectRights s st.rights c.ref cl = R → (∀ m ∈ ms, mayLetter R set m = true) →
    M.Nodup → ms.Nodup → (set = true → M.length + ms.length ≤ 20) → st.the.length + ms.length < 512 → ms.length < n →
    ∃ R', cmLoop cl o c req n ms st =
      { st with s := s.updChan c.ref (fun d => { d with modes := modesWith set M ms }), the := st.the ++ changed set M ms, rights := R' } := by
  intro ms
  induction ms with
  | nil =>
    intro n st M hs ha hset hR hms hM hn hl ht hf
    obtain ⟨n, rfl⟩ : ∃ k, n = k + 1 := ⟨n - 1, by simp at hf; omega⟩
    refine ⟨st.rights, ?_⟩
    simp only [cmLoop, ha]
    have e1 : modesWith set M [] = M := by
      cases set <;> simp [modesWith, changed]
    have e2 : changed set M [] = [] := rfl
    rw [e1, ← hs, e2, List.append_nil, ← ha]
  | cons m ms ih =>
    intro n st M hs ha hset hR hms hM hn hl ht hf
    obtain ⟨n, rfl⟩ : ∃ k, n = k + 1 := ⟨n - 1, by simp at hf; omega⟩
    have hm := hms m (by simp)
    have hpm : m ≠ '+' ∧ m ≠ '-' := by
      refine ⟨?_, ?_⟩ <;>
      · rintro rfl
        simp only [mayLetter, Bool.and_eq_true] at hm
        exact absurd hm.1.1.1 (by decide)
    have hR' : collectRights st.s st.rights c.ref cl = R := by rw [← hR, hs]; rfl
    have hch : st.s.chan c.ref = { c with modes := M } := by
      rw [hs]; exact chan_upd hi hc _ (fun _ => rfl)
    rw [List.nodup_cons] at hn
    have hl' : set = true → M.length < 20 := by
      intro h; have := hl h; simp at this; omega
    have ht' : st.the.length < 511 := by simp at ht; omega
    obtain ⟨st', e1, e2⟩ : ∃ st', cmChar st cl o c m req = (st', true) ∧ st' = { st with
        s := s.updChan c.ref (fun d => { d with modes := modesWith set M [m] }), the := st.the ++ changed set M [m], rights := R } := by
      refine ⟨_, cmChar_plain hpm (by rw [hR', hset]; exact hm), ?_⟩
      simp only [cmApply, hR', List.isEmpty_nil, if_true, hset]
      have hcat : strlcat COMMAND_LEN st.the [m] = st.the ++ [m] := strlcat_fits (by simp only [COMMAND_LEN, List.length_singleton]; omega)
      cases set with
      | true =>
        simp only [if_true, channelModeAdd, hch]
        by_cases hin : m ∈ M
        · have hh : hasChar M m = true := hasChar_iff.2 hin
          have e3 : changed true M [m] = [] := by simp [changed, hin]
          have e4 : modesWith true M [m] = M := by simp [modesWith, e3]
          rw [hs, upd_modes s c.ref M (fun x => (modeAdd x m).1)]
          simp only [modeAdd, hh, if_true, Bool.false_eq_true, if_false, e3, e4, List.append_nil]
        · have hh : hasChar M m = false := by rw [← Bool.not_eq_true, hasChar_iff]; exact hin
          have e0 : strlcat CLIENT_MODE_LEN M [m] = M ++ [m] := strlcat_fits (by
            have := hl' rfl; simp only [CLIENT_MODE_LEN, List.length_singleton]; omega)
          have e3 : changed true M [m] = [m] := by simp [changed, hin]
          have e4 : modesWith true M [m] = M ++ [m] := by simp [modesWith, e3]
          rw [hs, upd_modes s c.ref M (fun x => (modeAdd x m).1)]
          simp only [modeAdd, hh, Bool.false_eq_true, if_false, if_true, hcat, e3, e4, e0]
      | false =>
        simp only [Bool.false_eq_true, if_false, channelModeDel, hch]
        have e4 : modesWith false M [m] = M.erase m := by
          rw [hM.erase_eq_filter]
          simp only [modesWith, Bool.false_eq_true, if_false]
          refine List.filter_congr (fun a _ => ?_)
          by_cases e : a = m
          · subst e; simp
          · simp [e]
        by_cases hin : m ∈ M
        · have hh : hasChar M m = true := hasChar_iff.2 hin
          have e3 : changed false M [m] = [m] := by simp [changed, hin]
          rw [hs, upd_modes s c.ref M (fun x => (modeDel x m).1)]
          simp only [modeDel, hh, if_true, hcat, e3, e4]
        · have hh : hasChar M m = false := by rw [← Bool.not_eq_true, hasChar_iff]; exact hin
          have e3 : changed false M [m] = [] := by simp [changed, hin]
          rw [hs, upd_modes s c.ref M (fun x => (modeDel x m).1)]
          simp only [modeDel, hh, Bool.false_eq_true, if_false, e3, e4, List.append_nil]
          rw [List.erase_of_not_mem hin]
    have hmem : ∀ a ∈ ms, a ∈ M ↔ a ∈ modesWith set M [m] := by
      intro a ha
      have hne : a ≠ m := by rintro rfl; exact hn.1 ha
      cases set with
      | true =>
        simp only [modesWith, if_true, changed, List.mem_append, List.mem_filter, List.mem_singleton]
        exact ⟨.inl, fun h => h.resolve_right (fun h => hne h.1)⟩
      | false =>
        simp only [modesWith, Bool.false_eq_true, if_false, List.mem_filter]
        simp [hne]
    have hnd : (modesWith set M [m]).Nodup := by
      cases set with
      | true =>
        simp only [modesWith, if_true, changed]
        rw [List.nodup_append]
        refine ⟨hM, (show ([m] : Str).Nodup from by simp).sublist List.filter_sublist, ?_⟩
        intro a ha b hb e
        subst e
        simp only [List.mem_filter] at hb
        have := hb.2
        simp [ha] at this
      | false =>
        simp only [modesWith, Bool.false_eq_true, if_false]
        exact hM.sublist List.filter_sublist
    have hch1 : (changed set M [m]).length ≤ 1 := List.length_filter_le _ _
    obtain ⟨R', e5⟩ := ih n st' (modesWith set M [m]) (by rw [e2]) (by rw [e2]; exact ha) (by rw [e2]; exact hset)
      (by rw [e2]; simp only; rw [← hR, collect_twice]) (fun a ha => hms a (by simp [ha])) hnd hn.2
      (by
        intro h
        have h1 := hl h
        subst h
        simp only [modesWith, if_true, List.length_append]
        simp only [List.length_cons] at h1
        omega)
      (by
        rw [e2]
        simp only [List.length_append]
        simp only [List.length_cons] at ht
        omega) (by simp at hf; omega)
    refine ⟨R', ?_⟩
    simp only [cmLoop, e1]
    rw [e5, e2]
    have e6 : changed set (modesWith set M [m]) ms = changed set M ms := changed_congr (fun a ha => (hmem a ha).symm)
    have e7 : changed set M (m :: ms) = changed set M [m] ++ changed set M ms := by
      rw [changed_cons, changed_cons]; simp [changed]
    have e8 : modesWith set (modesWith set M [m]) ms = modesWith set M (m :: ms) := by
      cases set with
      | true => simp only [modesWith, if_true] at e6 ⊢; rw [e6, e7, List.append_assoc]
      | false =>
        simp only [modesWith, Bool.false_eq_true, if_false, List.filter_filter]
        refine List.filter_congr (fun a _ => ?_)
        simp [Bool.and_comm]
    rw [e6, e8, e7, List.append_assoc]

end Ngircd
