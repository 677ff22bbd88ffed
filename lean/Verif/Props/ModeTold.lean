import Verif.Lemmas.ModeTold
import Verif.Props.Kill
import Verif.Lemmas.JoinTold

/-!
# C61: channel mode changes take effect, and are shown to the members and the other servers
-/

set_option linter.unusedSimpArgs false

namespace Ngircd
open Spec

variable {s : Srv} {i : Nat} {l : Str} {cl : Nat} {req : Request} {f x : Client} {c : Chan}

/-- The rights `Channel_Mode` starts with. -/
def startRights (s : Srv) (cl : Nat) : Rights :=
  { oper := (s.cl cl).hasMode 'o' && s.conf.operCanMode, machine := (s.cl cl).type = .server || (s.cl cl).type = .service }

/-- The rights of a user. -/
theorem rights_user (hb : Base s) (hcl : s.cl cl ∈ s.clients) (href : (s.cl cl).ref = cl) (hty : (s.cl cl).type = .user) (ch : Nat) :
    ((collectRights s (startRights s cl) ch cl).machine = false) ∧
    ((collectRights s (startRights s cl) ch cl).oper = true ↔ Override s cl) ∧
    (((collectRights s (startRights s cl) ch cl).oper || (collectRights s (startRights s cl) ch cl).owner) = true ↔ IsOwner s ch cl) ∧
    (((collectRights s (startRights s cl) ch cl).oper || (collectRights s (startRights s cl) ch cl).owner ||
      (collectRights s (startRights s cl) ch cl).admin) = true ↔ IsAdmin s ch cl) ∧
    ((collectRights s (startRights s cl) ch cl).chop = true ↔ IsChop s ch cl) ∧
    ((collectRights s (startRights s cl) ch cl).half = true ↔ IsHalf s ch cl) := by
  have hov : ((s.cl cl).hasMode 'o' && s.conf.operCanMode) = true ↔ Override s cl := by
    rw [Bool.and_eq_true, hasMode_iff, umode_cl hb hcl href]
    exact Iff.rfl
  have hst : startRights s cl = { oper := (s.cl cl).hasMode 'o' && s.conf.operCanMode, machine := false } := by
    simp only [startRights, hty]; rfl
  by_cases ho : Override s cl
  · have e : collectRights s (startRights s cl) ch cl = { oper := true, machine := false } := by
      rw [hst, hov.2 ho]; rfl
    rw [e]
    refine ⟨rfl, ⟨fun _ => ho, fun _ => rfl⟩, ⟨fun _ => .inl ho, fun _ => rfl⟩, ⟨fun _ => .inl (.inl ho), fun _ => rfl⟩,
      ⟨fun _ => .inl (.inl (.inl ho)), fun _ => rfl⟩, ⟨fun _ => .inl (.inl (.inl (.inl ho))), fun _ => rfl⟩⟩
  · have hof : ((s.cl cl).hasMode 'o' && s.conf.operCanMode) = false := by
      rw [← Bool.not_eq_true, hov]; exact ho
    have e : collectRights s (startRights s cl) ch cl = ({ owner := userHasMode s ch cl 'q', admin := userHasMode s ch cl 'a', op := userHasMode s ch cl 'o', halfop := userHasMode s ch cl 'h' } : Rights) := by
      rw [hst, hof]
      simp only [collectRights, Bool.or_self, Bool.false_or]
      exact if_neg (by decide)
    rw [e]
    simp only [Rights.chop, Rights.half, Bool.false_or, Bool.or_eq_true, userHasMode_iff hb.ch, IsHalf, IsChop, IsAdmin, IsOwner, ho, false_or]
    simp

theorem mem_of_half (h : IsHalf s c.ref cl) : OnChannel s c.ref cl ∨ Override s cl := by
  have hr : ∀ m, HasRank s c.ref cl m → OnChannel s c.ref cl ∨ Override s cl := by
    rintro m ⟨k, hk, e1, e2, -⟩; exact .inl ⟨k, hk, e1, e2⟩
  rcases h with (((h | h) | h) | h) | h
  · exact .inr h
  all_goals exact hr _ h

theorem cmFinish_tell (hb : Base s) (hcl : s.cl cl ∈ s.clients) (href : (s.cl cl).ref = cl) (hci : (s.cl cl).conn = some i)
    (hne : cl ≠ s.this) (hty : (s.cl cl).type = .user ∨ (s.cl cl).type = .server ∧ c.name.head? ≠ some '&') (st : CModeSt) (hl : Like s st.s)
    (o : Nat) (ht : 2 ≤ st.the.length) :
    cmFinish st cl o c = tellMode st.s cl (s.cl (if s.conf.operServerMode && (s.cl cl).type = .user then s.this else o)) c.ref (!c.isLocal)
      ⟨"MODE", [c.name, dropAction st.the, st.targs]⟩ := by
  have key : ∀ u : Srv, (u.cl cl).type = .user ∨ (u.cl cl).type = .server ∧ c.isLocal = false → st.s = u →
      cmFinish st cl o c = tellMode u cl (u.cl (if u.conf.operServerMode && (u.cl cl).type = .user then u.this else o)) c.ref (!c.isLocal)
        ⟨"MODE", [c.name, dropAction st.the, st.targs]⟩ := by
    rintro u hty rfl
    simp only [cmFinish, tellMode]
    rw [if_neg (by omega)]
    rcases hty with hu | ⟨hs, hloc⟩
    · rw [hu, if_neg (by decide)]
      simp only [if_true, decide_true, Bool.and_true]
      cases hloc : c.isLocal
      · simp only [Bool.false_eq_true, if_false, Bool.not_false, if_true]; rfl
      · simp only [Bool.false_eq_true, if_false, Bool.not_true, if_true]; rfl
    · rw [hs, if_pos rfl]
      simp only [hloc, Bool.false_and, Bool.false_eq_true, if_false, Bool.not_false, if_true]
      rw [if_neg (by decide)]
      simp only [show decide (CType.server = CType.user) = false from rfl, Bool.and_false, Bool.false_eq_true, if_false]
      rfl
  rw [key st.s (by
    rw [hl.cl]
    refine hty.imp id (fun g => ⟨g.1, ?_⟩)
    rw [← Bool.not_eq_true, isLocal_iff]; exact g.2) rfl]
  simp only [hl.cl, hl.conf, hl.this]

/-- How the loop of `Channel_Mode` is entered. -/
theorem channelMode_start (hml : c.name.head? ≠ some '+') {set : Bool} {a ms : Str} {rest : List Str} (o : Nat)
    (hargs : req.argv = a :: ((if set then '+' else '-') :: ms) :: rest)
    (hin : OnChannel s c.ref cl ∨ (startRights s cl).oper = true ∨ (startRights s cl).machine = true) :
    channelMode s cl o c req = cmFinish (cmLoop cl o c req (argsSize (((if set then '+' else '-') :: ms) :: rest) + 1) ms
      { s := s, the := [if set then '+' else '-'], set := set, rights := startRights s cl, args := rest }) cl o c := by
  have e3 : channelMode s cl o c req =
      if (!isMemberOf s c.ref cl && !(startRights s cl).oper && !(startRights s cl).machine) = true then
        writeErr s (s.cl o) ⟨"ERR_NOTONCHANNEL_MSG", [(s.cl o).ID, c.name]⟩
      else cmFinish (cmLoop cl o c req (argsSize (((if set then '+' else '-') :: ms) :: rest) + 1) ms
        { s := s, the := [if set then '+' else '-'], set := set, rights := startRights s cl, args := rest }) cl o c := by
    unfold channelMode
    rw [if_neg (by simp only [Chan.isModeless, beq_iff_eq]; exact hml), hargs]
    cases set <;> rfl
  rw [e3]
  refine if_neg ?_
  simp only [Bool.and_eq_true, Bool.not_eq_true']
  rintro ⟨⟨g1, g2⟩, g3⟩
  rcases hin with g | g | g
  · rw [isMemberOf_iff.2 g] at g1; cases g1
  · rw [g] at g2; cases g2
  · rw [g] at g3; cases g3

theorem told_prop {p : Prop} {b : Bool} (hp : b = true ↔ p) {here : Prop} {ch : Nat} {m : Msg} {o : List Sent}
    (h : ModeTold s i here ch f (b = true) m o) : ModeTold s i here ch f p m o :=
  ⟨h.self, h.members, fun hf => h.links (hp.2 hf), fun y hy => (h.others y hy).imp id (Or.imp id (fun g => ⟨hp.1 g.1, g.2⟩))⟩

theorem far_iff (c : Chan) : (!c.isLocal) = true ↔ c.name.head? ≠ some '&' := by
  rw [Bool.not_eq_true', ← Bool.not_eq_true, isLocal_iff]

/-- Plain letters of channel modes, for a client with the rights for them. -/
theorem flags_out (hb : Base s) (hcl : s.cl cl ∈ s.clients) (href : (s.cl cl).ref = cl) (hci : (s.cl cl).conn = some i)
    (hne : cl ≠ s.this) (hty : (s.cl cl).type = .user ∨ (s.cl cl).type = .server ∧ c.name.head? ≠ some '&') (hc : c ∈ s.chans)
    (hml : c.name.head? ≠ some '+') (hnd : c.modes.Nodup) {set : Bool} {a : Str} {ms : Str} (o : Nat)
    (hargs : req.argv = [a, (if set then '+' else '-') :: ms])
    (hin : OnChannel s c.ref cl ∨ (startRights s cl).oper = true ∨ (startRights s cl).machine = true)
    (hms : ∀ m ∈ ms, mayLetter (collectRights s (startRights s cl) c.ref cl) set m = true) (hmn : ms.Nodup)
    (hroom : c.modes.length + ms.length ≤ 20) :
    ∃ out, Emitted (withChannel s c.ref (fun d => { d with modes := modesWith set c.modes ms })) (channelMode s cl o c req) out ∧
      if changed set c.modes ms = [] then out = [] else
        ModeTold s i ((s.cl cl).type = .user) c.ref (s.cl (if s.conf.operServerMode && (s.cl cl).type = .user then s.this else o))
          (c.name.head? ≠ some '&') ⟨"MODE", [c.name, (if set then '+' else '-') :: changed set c.modes ms, []]⟩ out := by
  have hself : s.updChan c.ref (fun d => { d with modes := c.modes }) = s := by
    have h1 := updChan_const hb.ch hc (fun d => { d with modes := c.modes })
    rw [← h1]
    exact updChan_self hb.ch hc
  obtain ⟨R', e⟩ := cmLoop_plain (s := s) (c := c) (cl := cl) (req := req) hb.ch hc set o ms
    (argsSize [(if set then '+' else '-') :: ms] + 1)
    { s := s, the := [if set then '+' else '-'], set := set, rights := startRights s cl, args := [] } c.modes
    hself.symm rfl rfl rfl hms hnd hmn (fun _ => hroom) (by simp only [List.length_singleton]; omega)
    (by simp only [argsSize, List.length_cons]; omega)
  generalize hu : s.updChan c.ref (fun d => { d with modes := modesWith set c.modes ms }) = u at e
  have hlk : Like s u := by rw [← hu]; exact ⟨rfl, rfl, rfl, rfl, rfl⟩
  have hrun : channelMode s cl o c req = cmFinish { s := u, the := [if set then '+' else '-'] ++ changed set c.modes ms, set := set, rights := R', args := [] } cl o c := by
    rw [channelMode_start hml o hargs hin]
    exact congrArg (fun z => cmFinish z cl o c) e
  have hlet : ∀ m ∈ ms, m ≠ '+' ∧ m ≠ '-' := by
    intro m hm
    have := hms m hm
    refine ⟨?_, ?_⟩ <;>
    · rintro rfl
      simp only [mayLetter, Bool.and_eq_true] at this
      exact absurd this.1.1.1 (by decide)
  by_cases hch : changed set c.modes ms = []
  · refine ⟨[], ⟨s.rnd, ?_⟩, by rw [if_pos hch]⟩
    rw [hrun, hch]
    simp only [cmFinish, List.append_nil, List.length_singleton]
    rw [if_pos (by decide), ← hu]
    rfl
  · obtain ⟨out, g1, g2⟩ := tell_out (s := s) (i := i) hb hcl href hci
      (s.cl (if s.conf.operServerMode && (s.cl cl).type = .user then s.this else o)) c.ref (!c.isLocal)
      ⟨"MODE", [c.name, (if set then '+' else '-') :: changed set c.modes ms, []]⟩
    refine ⟨out, ⟨s.rnd, ?_⟩, by rw [if_neg hch]; exact told_prop (far_iff c) g2⟩
    rw [hrun, cmFinish_tell hb hcl href hci hne hty _ hlk o (by
      have := List.length_pos_iff.2 hch
      simp only [List.length_append, List.length_singleton]; omega)]
    have hda : dropAction ([if set then '+' else '-'] ++ changed set c.modes ms) = (if set then '+' else '-') :: changed set c.modes ms := by
      have hl : ([if set then '+' else '-'] ++ changed set c.modes ms).getLast? = (changed set c.modes ms).getLast? := by
        rw [List.getLast?_append]
        cases hg : (changed set c.modes ms).getLast? with
        | none => exact absurd (List.getLast?_eq_none_iff.1 hg) hch
        | some z => rfl
      simp only [dropAction, hl]
      cases hg : (changed set c.modes ms).getLast? with
      | none => exact absurd (List.getLast?_eq_none_iff.1 hg) hch
      | some z =>
        have hz : z ∈ ms := (List.mem_filter.1 (List.mem_of_getLast? hg)).1
        have := hlet z hz
        simp only
        rw [if_neg (by simp only [Bool.or_eq_true, beq_iff_eq]; rintro (e | e); exact this.1 e; exact this.2 e)]
        rfl
    simp only [hda]
    rw [g1 u hlk, ← hu]
    rfl

/-- **C61** Channel modes without argument, set or cleared by a local user entitled to it, are set and cleared exactly
as asked, and nothing else changes. If any of them is new, the user, the other local members and, unless the channel is
local, all other servers are told the letters that changed; otherwise nobody gets anything. -/
theorem C61_flags (h : PoliteRun s) (hr : Received s i l cl req) (his : Is req "MODE") (hty : (s.cl cl).type = .user) (rnd : Int)
    {set : Bool} {a ms : Str} (hargs : req.argv = [a, (if set then '+' else '-') :: ms]) (hne : ms ≠ [])
    (hc : c ∈ s.chans) (hname : SameCase c.name a) (hml : c.name.head? ≠ some '+')
    (hms : ∀ m ∈ ms, m ≠ 'k' ∧ m ≠ 'l' ∧ if set then MaySet s c.ref cl m else MayUnset s c.ref cl m) (hmn : ms.Nodup)
    (hroom : c.modes.length + ms.length ≤ 20) :
    ∃ o, Emitted (withChannel s c.ref (fun d => { d with modes := modesWith set c.modes ms })) (step s (.line i rnd l)) o ∧
      if changed set c.modes ms = [] then o = [] else
        ModeTold s i True c.ref (if s.conf.operServerMode then s.cl s.this else s.cl cl)
          (c.name.head? ≠ some '&') ⟨"MODE", [c.name, (if set then '+' else '-') :: changed set c.modes ms, []]⟩ o := by
  have hb := h.reachable.base
  obtain ⟨g1, g2, g3, g4⟩ := hr.owner hb
  have hf : Originator s cl req (s.cl cl) := ⟨g1, .inr ⟨(by rw [hty]; simp), g2⟩⟩
  have harg : req.arg 0 = a := by simp only [Request.arg, hargs]; rfl
  have hst := mode_chan h hr his (.inl hty) hf (by rw [hty]; decide) rnd (by rw [hargs]; simp) hc (by rw [harg]; exact hname)
  rw [g2] at hst
  obtain ⟨k1, k2, -, -, k5, k6⟩ := rights_user hb g1 g2 hty c.ref
  have hhalf : IsHalf s c.ref cl := by
    obtain ⟨m, hm⟩ := List.exists_mem_of_ne_nil _ hne
    have := (hms m hm).2.2
    split at this
    · exact this.2.1
    · exact this.2.1
  have hletter : ∀ m ∈ ms, mayLetter (collectRights s (startRights s cl) c.ref cl) set m = true := by
    intro m hm
    obtain ⟨n1, n2, n3⟩ := hms m hm
    have hmc : m ∈ channelModes := by
      split at n3
      · exact n3.1
      · exact n3.1
    have hpl : "RsziVMmnNQtOP".toList.contains m = true := by
      rw [List.contains_iff_mem]
      have : ∀ z ∈ channelModes, z ≠ 'k' → z ≠ 'l' → z ∈ "RsziVMmnNQtOP".toList := by decide
      exact this m hmc n1 n2
    have hchop : m ∈ "Rsz".toList → IsChop s c.ref cl := by
      intro hz
      split at n3
      · exact n3.2.2.1 hz
      · exact n3.2.2 ((by decide : ∀ z ∈ "Rsz".toList, z ∈ "RszOP".toList) m hz)
    have htop : m ∈ "OP".toList → if set then Override s cl else IsChop s c.ref cl := by
      intro hz
      split at n3
      · rename_i hs; rw [if_pos hs]; exact n3.2.2.2 hz
      · rename_i hs; rw [if_neg hs]; exact n3.2.2 ((by decide : ∀ z ∈ "OP".toList, z ∈ "RszOP".toList) m hz)
    simp only [mayLetter, Bool.and_eq_true, Bool.or_eq_true, Bool.not_eq_true']
    refine ⟨⟨⟨hpl, k6.2 hhalf⟩, ?_⟩, ?_⟩
    · by_cases hz : m ∈ "Rsz".toList
      · exact .inr (k5.2 (hchop hz))
      · left; rw [← Bool.not_eq_true, List.contains_iff_mem]; exact hz
    · by_cases hz : m ∈ "OP".toList
      · right
        have := htop hz
        split
        · rename_i hs
          rw [if_pos hs] at this
          simp only [Rights.top, k2.2 this, Bool.true_or]
        · rename_i hs
          rw [if_neg hs] at this
          exact k5.2 this
      · left; rw [← Bool.not_eq_true, List.contains_iff_mem]; exact hz
  obtain ⟨o, e, ho⟩ := flags_out (s := s.roll rnd) (i := i) (cl := cl) (c := c) (req := req) (Base.of_core (s := s) rfl hb) g1 g2 g3 g4 (.inl hty) hc hml
    ((polite_mode h).ch c hc) cl hargs (by
      rcases mem_of_half hhalf with g | g
      · exact .inl g
      · right; left
        have : (startRights s cl).oper = true := by
          simp only [startRights, Bool.and_eq_true, hasMode_iff]
          exact ⟨(umode_cl hb g1 g2).2 g.1, g.2⟩
        exact this) hletter hmn hroom
  refine ⟨o, ?_, ?_⟩
  · rw [hst]
    obtain ⟨r, e⟩ := e
    exact ⟨r, e⟩
  · split
    · rename_i hch; rw [if_pos hch] at ho; exact ho
    · rename_i hch
      rw [if_neg hch] at ho
      have hu : ((s.roll rnd).cl cl).type = .user := hty
      have e2 : (s.roll rnd).cl (if (s.roll rnd).conf.operServerMode && decide (((s.roll rnd).cl cl).type = .user) then (s.roll rnd).this else cl) =
          if s.conf.operServerMode then s.cl s.this else s.cl cl := by
        rw [hu, show decide (CType.user = CType.user) = true from rfl, Bool.and_true]
        show s.cl (if s.conf.operServerMode then s.this else cl) = _
        split <;> rfl
      rw [e2] at ho
      exact ⟨fun _ => ho.self hu, ho.members, ho.links, fun y hy => (ho.others y hy).imp (fun g => ⟨trivial, g.2⟩) id⟩

/-! ## Letters with an argument -/

theorem cmLoop_one {st st' : CModeSt} {o n : Nat} {m : Char} {b : Bool} (h : cmChar st cl o c m req = (st', b)) (ha : b = true → st'.args = []) :
    cmLoop cl o c req (n + 2) [m] st = st' := by
  simp only [cmLoop, h]
  cases b with
  | false => rfl
  | true => simp only [ha rfl]

theorem start_in (hb : Base s) (g1 : s.cl cl ∈ s.clients) (g2 : (s.cl cl).ref = cl) (h : IsHalf s c.ref cl) :
    OnChannel s c.ref cl ∨ (startRights s cl).oper = true ∨ (startRights s cl).machine = true := by
  rcases mem_of_half h with g | g
  · exact .inl g
  · right; left
    simp only [startRights, Bool.and_eq_true, hasMode_iff]
    exact ⟨(umode_cl hb g1 g2).2 g.1, g.2⟩

/-- A MODE command of a local user with one letter and one argument. -/
theorem one_run (h : PoliteRun s) (hr : Received s i l cl req) (his : Is req "MODE") (hty : (s.cl cl).type = .user) (rnd : Int)
    {set : Bool} {a x : Str} {m : Char} (hargs : req.argv = [a, [if set then '+' else '-', m], x])
    (hc : c ∈ s.chans) (hname : SameCase c.name a) (hml : c.name.head? ≠ some '+') (hhalf : IsHalf s c.ref cl) {st' : CModeSt} {b : Bool}
    (hch : cmChar { s := s.roll rnd, the := [if set then '+' else '-'], set := set, rights := startRights s cl, args := [x] } cl cl c m req = (st', b))
    (ha : b = true → st'.args = []) : step s (.line i rnd l) = cmFinish st' cl cl c := by
  have hb := h.reachable.base
  obtain ⟨g1, g2, g3, g4⟩ := hr.owner hb
  have hf : Originator s cl req (s.cl cl) := ⟨g1, .inr ⟨(by rw [hty]; simp), g2⟩⟩
  have harg : req.arg 0 = a := by simp only [Request.arg, hargs]; rfl
  have hst := mode_chan h hr his (.inl hty) hf (by rw [hty]; decide) rnd (by rw [hargs]; simp) hc (by rw [harg]; exact hname)
  rw [g2] at hst
  rw [hst, channelMode_start (s := s.roll rnd) hml cl hargs (start_in (s := s) hb g1 g2 hhalf)]
  refine congrArg (fun z => cmFinish z cl cl c) ?_
  have e : argsSize [[if set then '+' else '-', m], x] + 1 = (argsSize [[if set then '+' else '-', m], x] - 1) + 2 := by
    simp only [argsSize, List.length_cons]; omega
  rw [e]
  exact cmLoop_one hch ha

theorem normalMask_eq {p : Str} (hp : p.length < 123) : listsMakeMask p MASK_LEN = normalMask p := by
  rw [C29_normal_form p MASK_LEN (by simp only [MASK_LEN]; omega)]
  rfl

theorem normalMask_short {p : Str} (hp : p.length < 123) : strlcpy MASK_LEN (normalMask p) = normalMask p := by
  have h1 := C29_fits p MASK_LEN (by decide)
  rw [normalMask_eq hp] at h1
  simp only [strlcpy]
  exact List.take_of_length_le (by omega)

/-- One list letter with its argument. -/
theorem list_char (hb : Base s) (g1 : s.cl cl ∈ s.clients) (g2 : (s.cl cl).ref = cl) (hty : (s.cl cl).type = .user) (hc : c ∈ s.chans)
    (hhalf : IsHalf s c.ref cl) {set : Bool} {ls : CList} {p : Str} (the : Str) :
    ∃ R, cmChar { s := s, the := the, set := set, rights := startRights s cl, args := [p] } cl cl c ls.letter req =
      ({ s := if set then addToList s ls (s.cl cl) (s.cl cl) c p else delFromList s ls (s.cl cl) (s.cl cl) c p,
         the := the, set := set, rights := R, count := 1, args := [] }, true) := by
  obtain ⟨-, -, -, -, -, k6⟩ := rights_user hb g1 g2 hty c.ref
  refine ⟨collectRights s (startRights s cl) c.ref cl, ?_⟩
  have hcc : s.chan c.ref = c := chan_of_mem hb.ch hc
  have hlim : modeLimitReached (s.cl cl) 0 = false := by simp only [modeLimitReached, hty]; decide
  have hsw : cmSwitch { s := s, the := the, set := set, rights := collectRights s (startRights s cl) c.ref cl, args := [p] } cl cl c ls.letter req =
      cmListMode { s := s, the := the, set := set, rights := collectRights s (startRights s cl) c.ref cl, args := [p] } cl cl c ls := by
    cases ls <;> rfl
  have hpm : ¬ (ls.letter = '+' ∨ ls.letter = '-') := by cases ls <;> decide
  simp only [cmChar]
  rw [if_neg hpm, hsw]
  simp only [cmListMode, hlim, Nat.zero_add, Nat.sub_self, k6.2 hhalf, if_true, hcc, Bool.false_eq_true, if_false, cmApply]

theorem sendList_tell {t : Srv} (hl : Like s t) (hty : (s.cl cl).type = .user) (href : (s.cl cl).ref = cl) (add : Bool) (ls : CList) (mask : Str) :
    sendListChange t add ls (s.cl cl) (s.cl cl) c mask = tellMode t cl (s.cl cl) c.ref true ⟨"MODE", [c.name, [if add then '+' else '-', ls.letter], mask]⟩ := by
  simp only [sendListChange, tellMode, hl.cl, hty, if_true, href]

theorem one_short {st : CModeSt} {o : Nat} (h : st.the.length = 1) : cmFinish st cl o c = st.s := by
  simp only [cmFinish, h]
  exact if_pos (by decide)

theorem list_add_state (hi : ChInv s) (hc : c ∈ s.chans) {ls : CList} {m : Str} (hn : (listsCheckDupe (c.list ls) m).isSome ≠ true) (hm : strlcpy MASK_LEN m = m)
    (n : Nat) (r : Option Str) :
    s.updChan c.ref (fun d => d.setList ls (listsAdd true (d.list ls) m n r false).1) =
      withChannel s c.ref (fun d => d.setList ls (⟨m, r, n, false⟩ :: d.list ls)) := by
  rw [← updChan_const hi hc (fun d => d.setList ls (listsAdd true (d.list ls) m n r false).1)]
  have h2 := updChan_const hi hc (fun d => d.setList ls (⟨m, r, n, false⟩ :: d.list ls))
  have e : (listsAdd true (c.list ls) m n r false).1 = ⟨m, r, n, false⟩ :: c.list ls := by
    simp only [listsAdd]
    split
    · rename_i h; rw [h] at hn; exact absurd rfl hn
    · simp only [if_true, hm]
  rw [e]
  exact h2

/-- **C61** A mask that is on the list already is not added again, and nobody is told. -/
theorem C61_list_known (h : PoliteRun s) (hr : Received s i l cl req) (his : Is req "MODE") (hty : (s.cl cl).type = .user) (rnd : Int)
    {ls : CList} {a p : Str} (hargs : req.argv = [a, ['+', ls.letter], p])
    (hc : c ∈ s.chans) (hname : SameCase c.name a) (hml : c.name.head? ≠ some '+') (hhalf : IsHalf s c.ref cl) (hp : p.length < 123)
    (hold : ∃ e ∈ c.list ls, SameCase e.mask (normalMask p)) :
    Emitted s (step s (.line i rnd l)) [] := by
  have hb := h.reachable.base
  obtain ⟨g1, g2, g3, g4⟩ := hr.owner hb
  obtain ⟨R, e⟩ := list_char (s := s.roll rnd) (cl := cl) (c := c) (req := req) (set := true) (ls := ls) (p := p) (Base.of_core (s := s) rfl hb) g1 g2 hty hc hhalf ['+']
  rw [one_run h hr his hty rnd (set := true) hargs hc hname hml hhalf e (fun _ => rfl), one_short rfl]
  refine ⟨rnd, ?_⟩
  simp only [if_true, addToList]
  rw [if_pos (by
    rw [normalMask_eq hp, listsCheckDupe_eq]
    cases hf : entryOf (c.list ls) (normalMask p) with
    | some z => rfl
    | none => obtain ⟨z, z1, z2⟩ := hold; exact absurd z2 (entryOf_none.1 hf z z1))]
  rfl

/-- **C61** A user cannot add to the lists of a channel that have 50 entries together. -/
theorem C61_list_full (h : PoliteRun s) (hr : Received s i l cl req) (his : Is req "MODE") (hty : (s.cl cl).type = .user) (rnd : Int)
    {ls : CList} {a p : Str} (hargs : req.argv = [a, ['+', ls.letter], p])
    (hc : c ∈ s.chans) (hname : SameCase c.name a) (hml : c.name.head? ≠ some '+') (hhalf : IsHalf s c.ref cl) (hp : p.length < 123)
    (hnew : ¬ ∃ e ∈ c.list ls, SameCase e.mask (normalMask p)) (hfull : 50 ≤ c.invites.length + c.excepts.length + c.bans.length) :
    ∃ src, Emitted s (step s (.line i rnd l)) [⟨i, src, ⟨"ERR_LISTFULL_MSG", [(s.cl cl).ID, c.name, normalMask p]⟩⟩] := by
  have hb := h.reachable.base
  obtain ⟨g1, g2, g3, g4⟩ := hr.owner hb
  have hb' : Base (s.roll rnd) := Base.of_core (s := s) rfl hb
  obtain ⟨R, e⟩ := list_char (s := s.roll rnd) (cl := cl) (c := c) (req := req) (set := true) (ls := ls) (p := p) hb' g1 g2 hty hc hhalf ['+']
  rw [one_run h hr his hty rnd (set := true) hargs hc hname hml hhalf e (fun _ => rfl), one_short rfl]
  simp only [if_true, addToList]
  rw [if_neg (by
    rw [normalMask_eq hp, listsCheckDupe_eq]
    cases hf : entryOf (c.list ls) (normalMask p) with
    | some z => exact absurd ⟨z, (entryOf_some hf).1, (entryOf_some hf).2⟩ hnew
    | none => exact Bool.false_ne_true)]
  rw [if_pos (by
    simp only [C28_count, MAX_HNDL_CHANNEL_LISTS, Bool.and_eq_true, decide_eq_true_eq]
    exact ⟨hty, hfull⟩), normalMask_eq hp]
  refine ⟨some (getPrefix (s.roll rnd) (s.cl cl) ((s.roll rnd).cl s.this)), rnd, ?_⟩
  have hhop : (nextHop (s.roll rnd) (s.cl cl)) = s.cl cl := hb'.nextHop_conn g1 (by rw [g3]; rfl)
  simp only [writeErr, write, writePrefix, lineTo, roll_cl, hhop, g3, Option.map_some, Option.toList, Option.isNone_some, Bool.or_false]
  rfl

/-- **C61** Otherwise the mask, with the parts left out filled in, is put on the list, and the user, the other local
members and all other servers are told so. -/
theorem C61_list_added (h : PoliteRun s) (hr : Received s i l cl req) (his : Is req "MODE") (hty : (s.cl cl).type = .user) (rnd : Int)
    {ls : CList} {a p : Str} (hargs : req.argv = [a, ['+', ls.letter], p])
    (hc : c ∈ s.chans) (hname : SameCase c.name a) (hml : c.name.head? ≠ some '+') (hhalf : IsHalf s c.ref cl) (hp : p.length < 123)
    (hnew : ¬ ∃ e ∈ c.list ls, SameCase e.mask (normalMask p)) (hroom : c.invites.length + c.excepts.length + c.bans.length < 50) :
    ∃ o, Emitted (withChannel s c.ref (fun d => d.setList ls (⟨normalMask p, some (s.cl cl).ID, s.now, false⟩ :: d.list ls))) (step s (.line i rnd l)) o ∧
      ModeTold s i True c.ref (s.cl cl) True ⟨"MODE", [c.name, ['+', ls.letter], normalMask p]⟩ o := by
  have hb := h.reachable.base
  obtain ⟨g1, g2, g3, g4⟩ := hr.owner hb
  have hb' : Base (s.roll rnd) := Base.of_core (s := s) rfl hb
  obtain ⟨R, e⟩ := list_char (s := s.roll rnd) (cl := cl) (c := c) (req := req) (set := true) (ls := ls) (p := p) hb' g1 g2 hty hc hhalf ['+']
  have hdup : (listsCheckDupe (c.list ls) (normalMask p)).isSome ≠ true := by
    rw [listsCheckDupe_eq]
    cases hf : entryOf (c.list ls) (normalMask p) with
    | some z => exact absurd ⟨z, (entryOf_some hf).1, (entryOf_some hf).2⟩ hnew
    | none => exact Bool.false_ne_true
  obtain ⟨o, e1, e2⟩ := tell_out (s := s.roll rnd) (i := i) (cl := cl) hb' g1 g2 g3 (s.cl cl) c.ref true ⟨"MODE", [c.name, ['+', ls.letter], normalMask p]⟩
  refine ⟨o, ?_, ⟨fun _ => e2.self hty, e2.members, fun _ => e2.links rfl, fun y hy => (e2.others y hy).imp (fun g => ⟨trivial, g.2⟩) (Or.imp id (fun g => ⟨trivial, g.2⟩))⟩⟩
  rw [one_run h hr his hty rnd (set := true) hargs hc hname hml hhalf e (fun _ => rfl), one_short rfl]
  simp only [if_true, addToList]
  rw [normalMask_eq hp, if_neg hdup, if_neg (by
    simp only [C28_count, MAX_HNDL_CHANNEL_LISTS, Bool.and_eq_true, decide_eq_true_eq]
    rintro ⟨-, z⟩; omega), list_add_state hb'.ch hc hdup (normalMask_short hp)]
  rw [sendList_tell (s := s.roll rnd) (t := withChannel (s.roll rnd) c.ref (fun d => d.setList ls (⟨normalMask p, some ((s.roll rnd).cl cl).ID, (s.roll rnd).now, false⟩ :: d.list ls)))
    ⟨rfl, rfl, rfl, rfl, rfl⟩ hty g2]
  refine ⟨rnd, ?_⟩
  exact e1 (withChannel (s.roll rnd) c.ref (fun d => d.setList ls (⟨normalMask p, some ((s.roll rnd).cl cl).ID, (s.roll rnd).now, false⟩ :: d.list ls))) ⟨rfl, rfl, rfl, rfl, rfl⟩

/-- **C61** A mask on the list is taken off it, and the user, the other local members and all other servers are told so;
when it is not on the list nothing happens. -/
theorem C61_list_removed (h : PoliteRun s) (hr : Received s i l cl req) (his : Is req "MODE") (hty : (s.cl cl).type = .user) (rnd : Int)
    {ls : CList} {a p : Str} (hargs : req.argv = [a, ['-', ls.letter], p])
    (hc : c ∈ s.chans) (hname : SameCase c.name a) (hml : c.name.head? ≠ some '+') (hhalf : IsHalf s c.ref cl) (hp : p.length < 123) :
    ((¬ ∃ e ∈ c.list ls, SameCase e.mask (normalMask p)) → Emitted s (step s (.line i rnd l)) []) ∧
    ((∃ e ∈ c.list ls, SameCase e.mask (normalMask p)) →
      ∃ o, Emitted (withChannel s c.ref (fun d => d.setList ls ((d.list ls).filter (fun e => !decide (SameCase e.mask (normalMask p)))))) (step s (.line i rnd l)) o ∧
        ModeTold s i True c.ref (s.cl cl) True ⟨"MODE", [c.name, ['-', ls.letter], normalMask p]⟩ o) := by
  have hb := h.reachable.base
  obtain ⟨g1, g2, g3, g4⟩ := hr.owner hb
  have hb' : Base (s.roll rnd) := Base.of_core (s := s) rfl hb
  obtain ⟨R, e⟩ := list_char (s := s.roll rnd) (cl := cl) (c := c) (req := req) (set := false) (ls := ls) (p := p) hb' g1 g2 hty hc hhalf ['-']
  rw [one_run h hr his hty rnd (set := false) hargs hc hname hml hhalf e (fun _ => rfl), one_short rfl]
  simp only [Bool.false_eq_true, if_false, delFromList, normalMask_eq hp]
  refine ⟨fun hnew => ?_, fun hold => ?_⟩
  · have hdup : (listsCheckDupe (c.list ls) (normalMask p)).isNone = true := by
      rw [listsCheckDupe_eq]
      cases hf : entryOf (c.list ls) (normalMask p) with
      | some z => exact absurd ⟨z, (entryOf_some hf).1, (entryOf_some hf).2⟩ hnew
      | none => rfl
    rw [if_pos hdup]
    exact ⟨rnd, rfl⟩
  · have hdup : ¬ (listsCheckDupe (c.list ls) (normalMask p)).isNone = true := by
      rw [listsCheckDupe_eq]
      cases hf : entryOf (c.list ls) (normalMask p) with
      | some z => exact Bool.false_ne_true
      | none => obtain ⟨z, z1, z2⟩ := hold; exact absurd z2 (entryOf_none.1 hf z z1)
    rw [if_neg hdup]
    obtain ⟨o, e1, e2⟩ := tell_out (s := s.roll rnd) (i := i) (cl := cl) hb' g1 g2 g3 (s.cl cl) c.ref true ⟨"MODE", [c.name, ['-', ls.letter], normalMask p]⟩
    refine ⟨o, ?_, ⟨fun _ => e2.self hty, e2.members, fun _ => e2.links rfl, fun y hy => (e2.others y hy).imp (fun g => ⟨trivial, g.2⟩) (Or.imp id (fun g => ⟨trivial, g.2⟩))⟩⟩
    have hfun : (fun d : Chan => d.setList ls (listsDel (d.list ls) (normalMask p))) =
        fun d => d.setList ls ((d.list ls).filter (fun e => !decide (SameCase e.mask (normalMask p)))) := by
      funext d
      rw [listsDel_eq]
      refine congrArg (d.setList ls) (List.filter_congr (fun z _ => ?_))
      refine congrArg not ?_
      rw [Bool.eq_iff_iff, decide_eq_true_eq]; exact caseEq_same _ _
    rw [hfun]
    rw [sendList_tell (s := s.roll rnd) (t := (s.roll rnd).updChan c.ref (fun d => d.setList ls ((d.list ls).filter (fun e => !decide (SameCase e.mask (normalMask p))))))
      ⟨rfl, rfl, rfl, rfl, rfl⟩ hty g2]
    refine ⟨rnd, ?_⟩
    exact e1 ((s.roll rnd).updChan c.ref (fun d => d.setList ls ((d.list ls).filter (fun e => !decide (SameCase e.mask (normalMask p)))))) ⟨rfl, rfl, rfl, rfl, rfl⟩

/-! ## Ranks of members -/

theorem modeAdd_with {M : Str} (m : Char) (hl : M.length < 20) : (modeAdd M m).1 = modesWith true M [m] ∧ ((modeAdd M m).2 = true ↔ m ∉ M) := by
  have h2 := (C41_add M m hl).1
  refine ⟨?_, h2⟩
  by_cases hin : m ∈ M
  · have hh : hasChar M m = true := hasChar_iff.2 hin
    have e3 : changed true M [m] = [] := by simp [changed, hin]
    simp only [modeAdd, hh, if_true, modesWith, e3, List.append_nil]
  · have hh : hasChar M m = false := by rw [← Bool.not_eq_true, hasChar_iff]; exact hin
    have e0 : strlcat CLIENT_MODE_LEN M [m] = M ++ [m] := strlcat_fits (by simp only [CLIENT_MODE_LEN, List.length_singleton]; omega)
    have e3 : changed true M [m] = [m] := by simp [changed, hin]
    simp only [modeAdd, hh, Bool.false_eq_true, if_false, modesWith, e3, if_true, e0]

theorem modeDel_with {M : Str} (m : Char) (hM : M.Nodup) : (modeDel M m).1 = modesWith false M [m] ∧ ((modeDel M m).2 = true ↔ m ∈ M) := by
  have e4 : modesWith false M [m] = M.erase m := by
    rw [hM.erase_eq_filter]
    simp only [modesWith, Bool.false_eq_true, if_false]
    refine List.filter_congr (fun a _ => ?_)
    by_cases e : a = m
    · subst e; simp
    · simp [e]
  by_cases hin : m ∈ M
  · have hh : hasChar M m = true := hasChar_iff.2 hin
    simp only [modeDel, hh, if_true, e4, hin]; simp
  · have hh : hasChar M m = false := by rw [← Bool.not_eq_true, hasChar_iff]; exact hin
    simp only [modeDel, hh, Bool.false_eq_true, if_false, e4, hin]
    rw [List.erase_of_not_mem hin]; simp

theorem withRank_base (hb : Base s) (ch r : Nat) (g : Str → Str) : Base (withRank s ch r g) := by
  refine ⟨hb.cl.of_eq rfl rfl rfl (Nat.le_refl _) rfl, ?_⟩
  have e1 : ∀ k : Cl2Chan, (if k.chan = ch ∧ k.client = r then { k with modes := g k.modes } else k).chan = k.chan := by intro k; split <;> rfl
  have e2 : ∀ k : Cl2Chan, (if k.chan = ch ∧ k.client = r then { k with modes := g k.modes } else k).client = k.client := by intro k; split <;> rfl
  refine ⟨hb.ch.ord, hb.ch.lt, ?_, ?_, ?_⟩
  · have : ((withRank s ch r g).cl2.map (fun m => (m.chan, m.client))) = s.cl2.map (fun m => (m.chan, m.client)) := by
      simp only [withRank, List.map_map]
      refine List.map_congr_left (fun k _ => ?_)
      simp only [Function.comp, e1, e2]
    rw [this]; exact hb.ch.pairs
  · intro k hk
    obtain ⟨k', h1, rfl⟩ := List.mem_map.1 hk
    rw [e1]; exact hb.ch.chan k' h1
  · intro k hk
    obtain ⟨k', h1, rfl⟩ := List.mem_map.1 hk
    rw [e2]; exact hb.ch.clt k' h1

theorem withRank_on (ch r : Nat) (g : Str → Str) (ch' r' : Nat) : OnChannel (withRank s ch r g) ch' r' ↔ OnChannel s ch' r' := by
  constructor
  · rintro ⟨k, hk, h1, h2⟩
    obtain ⟨k', h3, rfl⟩ := List.mem_map.1 hk
    refine ⟨k', h3, ?_, ?_⟩
    · rw [← h1]; split <;> rfl
    · rw [← h2]; split <;> rfl
  · rintro ⟨k, hk, h1, h2⟩
    refine ⟨_, List.mem_map.2 ⟨k, hk, rfl⟩, ?_, ?_⟩
    · rw [← h1]; split <;> rfl
    · rw [← h2]; split <;> rfl

theorem cmChar_go {st st1 : CModeSt} {o : Nat} {m : Char} {act : CAct} (hpm : ¬ (m = '+' ∨ m = '-'))
    (h : cmSwitch { st with rights := collectRights st.s st.rights c.ref cl } cl o c m req = (st1, act)) (ha : act ≠ .exit) :
    cmChar st cl o c m req = (cmApply st1 o c m act, true) := by
  simp only [cmChar]
  rw [if_neg hpm, h]
  cases act with
  | exit => exact absurd rfl ha
  | skip => rfl
  | chanMode z => rfl
  | memberMode z => rfl

/-- The letter of a rank, with the name of a member. -/
theorem member_char (hb : Base s) (g1 : s.cl cl ∈ s.clients) (g2 : (s.cl cl).ref = cl) (hty : (s.cl cl).type = .user)
    {set : Bool} {m : Char} {n : Str} (hrank : MayRank s c.ref cl m) (hx : clientSearch s n = some x) (hon : OnChannel s c.ref x.ref) (hxc : s.cl x.ref = x) (the : Str) :
    ∃ R, cmChar { s := s, the := the, set := set, rights := startRights s cl, args := [n] } cl cl c m req =
      (if (if set then userModeAdd s c.ref x.ref m else userModeDel s c.ref x.ref m).2 then
        { s := (if set then userModeAdd s c.ref x.ref m else userModeDel s c.ref x.ref m).1, the := strlcat COMMAND_LEN the [m],
          targs := strlcat COMMAND_LEN (strlcat COMMAND_LEN [] [' ']) x.ID, set := set, rights := R, args := [] }
      else { s := (if set then userModeAdd s c.ref x.ref m else userModeDel s c.ref x.ref m).1, the := the, set := set, rights := R, args := [] }, true) := by
  obtain ⟨k1, k2, k3, k4, k5, k6⟩ := rights_user hb g1 g2 hty c.ref
  refine ⟨collectRights s (startRights s cl) c.ref cl, ?_⟩
  obtain ⟨R, hR⟩ : ∃ R, R = collectRights s (startRights s cl) c.ref cl := ⟨_, rfl⟩
  rw [← hR] at k1 k2 k3 k4 k5 k6 ⊢
  obtain ⟨r1, r2, r3, r4, r5⟩ := hrank
  have hpm : ¬ (m = '+' ∨ m = '-') := by
    rintro (rfl | rfl) <;> exact absurd r1 (by decide)
  have hsw : cmSwitch { s := s, the := the, set := set, rights := R, args := [n] } cl cl c m req =
      cmMemberMode { s := s, the := the, set := set, rights := R, args := [n] } cl c m := by
    have h1 : ∀ z ∈ "qaohv".toList, "Rsz".toList.contains z = false ∧ "RsziVMmnNQt".toList.contains z = false ∧ z ≠ 'k' ∧ z ≠ 'l' ∧ z ≠ 'O' ∧ z ≠ 'P' := by decide
    obtain ⟨z1, z2, z3, z4, z5, z6⟩ := h1 m r1
    simp only [cmSwitch]
    rw [z1, Bool.false_and, if_neg Bool.false_ne_true, z2, if_neg Bool.false_ne_true, if_neg (show ¬ (m = 'k' ∨ m = 'l') from fun h => h.elim z3 z4),
      if_neg (show ¬ (m = 'O' ∨ m = 'P') from fun h => h.elim z5 z6), List.contains_iff_mem.2 r1, if_pos rfl]
  have hden : memberModeDeny R m = none := by
    simp only [memberModeDeny]
    rw [if_neg, if_neg, if_neg]
    · simp only [Bool.and_eq_true, Bool.or_eq_true, decide_eq_true_eq, Bool.not_eq_true']
      rintro ⟨hm, hz⟩
      have hchop : IsChop s c.ref cl := by
        rcases hm with ((hm | hm) | hm) | hm
        · exact .inl (.inl (r3 hm))
        · exact .inl (r4 hm)
        · exact r5 (.inl hm)
        · exact r5 (.inr hm)
      rw [k5.2 hchop] at hz; cases hz
    · simp only [Bool.and_eq_true, Bool.or_eq_true, decide_eq_true_eq, Bool.not_eq_true', Bool.or_eq_false_iff]
      rintro ⟨hm, hz⟩
      have hadm : IsAdmin s c.ref cl := by
        rcases hm with hm | hm
        · exact .inl (r3 hm)
        · exact r4 hm
      have := k4.2 hadm
      rw [hz.1.1.1, hz.1.2, hz.2] at this
      cases this
    · simp only [Bool.and_eq_true, Bool.or_eq_true, decide_eq_true_eq, Bool.not_eq_true', Bool.or_eq_false_iff]
      rintro ⟨hm, hz⟩
      have := k3.2 (r3 hm)
      rw [hz.1.1, hz.2] at this
      cases this
  rw [cmChar_go (st1 := { s := s, the := the, set := set, rights := R, args := [] }) (act := .memberMode x.ref) hpm (by
    show cmSwitch { s := s, the := the, set := set, rights := collectRights s (startRights s cl) c.ref cl, args := [n] } cl cl c m req = _
    rw [← hR, hsw]
    simp only [cmMemberMode, hden, k6.2 r2, if_true, hx]) (by simp)]
  simp only [cmApply, isMemberOf_iff.2 hon, Bool.not_true, Bool.false_eq_true, if_false, hxc]

/-- **C61** A rank given to, or taken from, a member by a local user entitled to it is given or taken, and nothing else
changes. If it is news, the user, the other local members and, unless the channel is local, all other servers are told;
otherwise nobody gets anything. -/
theorem C61_rank (h : PoliteRun s) (hr : Received s i l cl req) (his : Is req "MODE") (hty : (s.cl cl).type = .user) (rnd : Int)
    {set : Bool} {m : Char} {a n : Str} (hargs : req.argv = [a, [if set then '+' else '-', m], n])
    (hc : c ∈ s.chans) (hname : SameCase c.name a) (hml : c.name.head? ≠ some '+') (hrank : MayRank s c.ref cl m)
    (hx : x ∈ s.clients) (hid : x.id ≠ []) (hidl : x.ID.length < 500) (hxn : SameCase x.id (nickPart n))
    {k : Cl2Chan} (hk : k ∈ s.cl2) (hkc : k.chan = c.ref) (hkx : k.client = x.ref) (hroom : k.modes.length < 20) :
    ∃ o, Emitted (withRank s c.ref x.ref (fun old => modesWith set old [m])) (step s (.line i rnd l)) o ∧
      if changed set k.modes [m] = [] then o = [] else
        ModeTold s i True c.ref (if s.conf.operServerMode then s.cl s.this else s.cl cl)
          (c.name.head? ≠ some '&') ⟨"MODE", [c.name, [if set then '+' else '-', m], ' ' :: x.ID]⟩ o := by
  have hb := h.reachable.base
  obtain ⟨g1, g2, g3, g4⟩ := hr.owner hb
  have hb' : Base (s.roll rnd) := Base.of_core (s := s) rfl hb
  have hs1 : clientSearch (s.roll rnd) n = some x := by
    rw [roll_search]; exact (C13_lookup h n x).2 ⟨hx, hid, hxn⟩
  have hon : OnChannel s c.ref x.ref := ⟨k, hk, hkc, hkx⟩
  obtain ⟨R, e⟩ := member_char (s := s.roll rnd) (cl := cl) (c := c) (x := x) (req := req) (set := set) (m := m) (n := n) hb' g1 g2 hty hrank hs1 hon
    (cl_of_mem hb.cl.ord hx) [if set then '+' else '-']
  have hrun := one_run h hr his hty rnd hargs hc hname hml hrank.2.1 e (by
    intro _
    generalize (if set then userModeAdd (s.roll rnd) c.ref x.ref m else userModeDel (s.roll rnd) c.ref x.ref m) = w
    cases hw : w.2 <;> rfl)
  have hnd : k.modes.Nodup := (polite_mode h).mem k hk
  have huniq : ∀ z ∈ s.cl2, z.chan = c.ref → z.client = x.ref → z = k := by
    intro z hz e1 e2
    exact pair_eq hb.ch hk hz (e1.trans hkc.symm) (e2.trans hkx.symm)
  have hum : userModes (s.roll rnd) c.ref x.ref = k.modes := by
    rw [← hkc, ← hkx]; exact userModes_mem (s := s) hb.ch hk
  have hst : (if set then userModeAdd (s.roll rnd) c.ref x.ref m else userModeDel (s.roll rnd) c.ref x.ref m).1 =
      withRank (s.roll rnd) c.ref x.ref (fun old => modesWith set old [m]) := by
    cases set with
    | true =>
      simp only [if_true, userModeAdd, withRank]
      refine congrArg (fun z => ({ s.roll rnd with cl2 := z } : Srv)) (List.map_congr_left (fun z hz => ?_))
      by_cases hz2 : z.chan = c.ref ∧ z.client = x.ref
      · rw [if_pos hz2, if_pos hz2, huniq z hz hz2.1 hz2.2, (modeAdd_with m hroom).1]
      · rw [if_neg hz2, if_neg hz2]
    | false =>
      simp only [Bool.false_eq_true, if_false, userModeDel, withRank]
      refine congrArg (fun z => ({ s.roll rnd with cl2 := z } : Srv)) (List.map_congr_left (fun z hz => ?_))
      by_cases hz2 : z.chan = c.ref ∧ z.client = x.ref
      · rw [if_pos hz2, if_pos hz2, huniq z hz hz2.1 hz2.2, (modeDel_with m hnd).1]
      · rw [if_neg hz2, if_neg hz2]
  have hfl : (if set then userModeAdd (s.roll rnd) c.ref x.ref m else userModeDel (s.roll rnd) c.ref x.ref m).2 = true ↔ changed set k.modes [m] ≠ [] := by
    cases set with
    | true =>
      simp only [if_true, userModeAdd, hum, (modeAdd_with m hroom).2, changed]
      by_cases hin : m ∈ k.modes <;> simp [hin]
    | false =>
      simp only [Bool.false_eq_true, if_false, userModeDel, hum, (modeDel_with m hnd).2, changed]
      by_cases hin : m ∈ k.modes <;> simp [hin]
  rw [hrun, hst]
  by_cases hch : changed set k.modes [m] = []
  · refine ⟨[], ⟨rnd, ?_⟩, by rw [if_pos hch]⟩
    rw [if_neg (fun z => hfl.1 z hch), one_short rfl]
    rfl
  · rw [if_pos (hfl.2 hch)]
    have hpm : m ≠ '+' ∧ m ≠ '-' := by
      refine ⟨?_, ?_⟩ <;>
      · rintro rfl; exact absurd hrank.1 (by decide)
    have et : strlcat COMMAND_LEN [if set then '+' else '-'] [m] = [if set then '+' else '-', m] := by cases set <;> rfl
    have ea : strlcat COMMAND_LEN (strlcat COMMAND_LEN [] [' ']) x.ID = ' ' :: x.ID := by
      rw [show strlcat COMMAND_LEN [] [' '] = [' '] from rfl]
      exact strlcat_fits (by simp only [COMMAND_LEN, List.length_singleton]; omega)
    have hda : dropAction [if set then '+' else '-', m] = [if set then '+' else '-', m] := by
      simp only [dropAction, List.getLast?_cons_cons, List.getLast?_singleton]
      exact if_neg (by simp only [Bool.or_eq_true, beq_iff_eq]; exact fun z => z.elim hpm.1 hpm.2)
    generalize hv : withRank (s.roll rnd) c.ref x.ref (fun old => modesWith set old [m]) = v
    have hbv : Base v := by rw [← hv]; exact withRank_base hb' _ _ _
    have hvc : ∀ r, v.cl r = s.cl r := by intro r; rw [← hv]; rfl
    have hvt : v.this = s.this := by rw [← hv]; rfl
    have hvf : v.conf = s.conf := by rw [← hv]; rfl
    have hvk : v.clients = s.clients := by rw [← hv]; rfl
    rw [et, ea]
    rw [cmFinish_tell (s := v) (i := i) hbv (by rw [hvc, hvk]; exact g1) (by rw [hvc]; exact g2) (by rw [hvc]; exact g3) (by rw [hvt]; exact g4)
      (.inl (by rw [hvc]; exact hty)) _ ⟨rfl, rfl, rfl, rfl, rfl⟩ cl (by simp)]
    simp only [hda]
    obtain ⟨o, e1, e2⟩ := tell_out (s := v) (i := i) (cl := cl) hbv (by rw [hvc, hvk]; exact g1) (by rw [hvc]; exact g2) (by rw [hvc]; exact g3)
      (v.cl (if v.conf.operServerMode && (v.cl cl).type = .user then v.this else cl)) c.ref (!c.isLocal) ⟨"MODE", [c.name, [if set then '+' else '-', m], ' ' :: x.ID]⟩
    refine ⟨o, ⟨rnd, ?_⟩, ?_⟩
    · rw [e1 v ⟨rfl, rfl, rfl, rfl, rfl⟩, ← hv]; rfl
    · rw [if_neg hch]
      have ew : v.cl (if v.conf.operServerMode && (v.cl cl).type = .user then v.this else cl) = if s.conf.operServerMode then s.cl s.this else s.cl cl := by
        rw [hvf, hvt, hvc cl, hty, show decide (CType.user = CType.user) = true from rfl, Bool.and_true, hvc]
        split <;> rfl
      rw [ew] at e2
      have hlisten : ∀ j, Listens v c.ref j ↔ Listens s c.ref j := by
        intro j
        simp only [Listens, hvk]
        rw [← hv]
        simp only [withRank_on]
        exact Iff.rfl
      have hlink : ∀ j, isLink v j = isLink s j := by intro j; simp only [isLink, hvk]
      have hmask : ∀ z, maskCloaked v z = maskCloaked s z := by intro z; rw [← hv]; rfl
      refine ⟨fun _ => ?_, fun j hj hl => ?_, fun hf j hj hl => ?_, fun y hy => ?_⟩
      · rw [e2.self (by rw [hvc]; exact hty), hmask]
      · rw [e2.members j hj ((hlisten j).2 hl), hmask]
      · exact e2.links ((far_iff c).2 hf) j hj (by rw [hlink]; exact hl)
      · rcases e2.others y hy with g | g | g
        · exact .inl ⟨trivial, g.2⟩
        · exact .inr (.inl ((hlisten _).1 g))
        · exact .inr (.inr ⟨(far_iff c).1 g.1, g.2.1, by rw [← hlink]; exact g.2.2⟩)

/-! ## Key and limit -/

theorem intStr_len (n : Nat) (h : n < 65535) : (intStr n).length ≤ 5 ∧ intStr n ≠ [] := by
  have e : intStr n = n.repr.toList := rfl
  rw [e]
  refine ⟨?_, ?_⟩
  · rw [String.length_toList]
    exact Nat.length_repr_le_iff (by decide) |>.2 (by omega)
  · simp

/-- One letter `k` or `l`, set. -/
theorem arg_char (hb : Base s) (g1 : s.cl cl ∈ s.clients) (g2 : (s.cl cl).ref = cl) (hty : (s.cl cl).type = .user)
    (hhalf : IsHalf s c.ref cl) {m : Char} (hm : m = 'k' ∨ m = 'l') {z : Str}
    (hz : (if m = 'k' then !z.isEmpty && !hasChar z ' ' else decide (0 < atoi z) && decide (atoi z < 0xFFFF)) = true) :
    ∃ R, cmChar { s := s, the := ['+'], set := true, rights := startRights s cl, args := [z] } cl cl c m req =
      (cmApply { s := (if m = 'k' then channelSetKey (channelModeDel s c.ref m).1 c.ref z else channelSetMaxUsers (channelModeDel s c.ref m).1 c.ref (atoi z).toNat), the := ['+'], set := true, rights := R, count := 1, args := [] } cl c m (.chanMode (if m = 'k' then strlcpy 65 z else intStr (atoi z))), true) := by
  obtain ⟨-, -, -, -, -, k6⟩ := rights_user hb g1 g2 hty c.ref
  obtain ⟨R, hR⟩ : ∃ R, R = collectRights s (startRights s cl) c.ref cl := ⟨_, rfl⟩
  rw [← hR] at k6
  refine ⟨R, ?_⟩
  have hlim : modeLimitReached (s.cl cl) 0 = false := by simp only [modeLimitReached, hty]; decide
  refine cmChar_go (by rcases hm with rfl | rfl <;> decide) ?_ (by simp)
  show cmSwitch { s := s, the := ['+'], set := true, rights := collectRights s (startRights s cl) c.ref cl, args := [z] } cl cl c m req = _
  rw [← hR]
  have hsw : cmSwitch { s := s, the := ['+'], set := true, rights := R, args := [z] } cl cl c m req =
      cmArgMode { s := s, the := ['+'], set := true, rights := R, args := [z] } cl cl c m req := by
    rcases hm with rfl | rfl <;> rfl
  rw [hsw]
  simp only [cmArgMode, Nat.zero_add, Nat.sub_self, hlim, Bool.false_eq_true, if_false, Bool.not_true, hz, k6.2 hhalf, if_true]

theorem set_state (hb : Base s) (hc : c ∈ s.chans) (hnd : c.modes.Nodup) (hroom : c.modes.length < 20) (m : Char) (g : Chan → Chan)
    (hg : ∀ d, (g d).ref = d.ref ∧ (g d).modes = d.modes) (hg2 : ∀ (d : Chan) (M : Str), g { d with modes := M } = { g d with modes := M }) :
    channelModeAdd ((channelModeDel s c.ref m).1.updChan c.ref g) c.ref m =
      (withChannel s c.ref (fun d => { g d with modes := modesWith true (modesWith false d.modes [m]) [m] }), true) := by
  have hmem : m ∉ modesWith false c.modes [m] := by simp [modesWith]
  have hlen : (modesWith false c.modes [m]).length < 20 := by
    have := List.length_filter_le (fun z => !([m] : Str).contains z) c.modes
    simp only [modesWith, Bool.false_eq_true, if_false]; omega
  have e1 : (channelModeDel s c.ref m).1.updChan c.ref g = s.updChan c.ref (fun _ => { g c with modes := modesWith false c.modes [m] }) := by
    simp only [channelModeDel]
    rw [upd_upd s c.ref (fun d => { d with modes := (modeDel d.modes m).1 }) g (fun _ => rfl), ← updChan_const hb.ch hc (fun d => g { d with modes := (modeDel d.modes m).1 })]
    show s.updChan c.ref (fun _ => g { c with modes := (modeDel c.modes m).1 }) = _
    rw [hg2 c, (modeDel_with m hnd).1]
  rw [e1]
  have hcc : (s.updChan c.ref (fun _ => { g c with modes := modesWith false c.modes [m] })).chan c.ref = { g c with modes := modesWith false c.modes [m] } := by
    have h2 := chan_upd hb.ch hc (fun d => { g d with modes := modesWith false c.modes [m] }) (fun d => (hg d).1)
    rw [← updChan_const hb.ch hc (fun d => { g d with modes := modesWith false c.modes [m] })] at h2
    exact h2
  simp only [channelModeAdd, hcc]
  refine Prod.ext ?_ ((modeAdd_with m hlen).2.2 hmem)
  simp only
  have e2 : s.updChan c.ref (fun _ => { g c with modes := modesWith false c.modes [m] }) = s.updChan c.ref (fun d => { g d with modes := modesWith false d.modes [m] }) :=
    updChan_const hb.ch hc (fun d => { g d with modes := modesWith false d.modes [m] })
  rw [e2, upd_upd s c.ref (fun d => { g d with modes := modesWith false d.modes [m] }) (fun d => { d with modes := (modeAdd d.modes m).1 }) (fun d => (hg d).1)]
  rw [← updChan_const hb.ch hc (fun d => ({ ({ g d with modes := modesWith false d.modes [m] } : Chan) with
    modes := (modeAdd ({ g d with modes := modesWith false d.modes [m] } : Chan).modes m).1 } : Chan))]
  simp only [(modeAdd_with m hlen).1]
  exact updChan_const hb.ch hc (fun d => { g d with modes := modesWith true (modesWith false d.modes [m]) [m] })

/-- The end of a MODE command of a local user, when there is something to tell. -/
theorem finish_told (hb : Base s) (g1 : s.cl cl ∈ s.clients) (g2 : (s.cl cl).ref = cl) (g3 : (s.cl cl).conn = some i) (g4 : cl ≠ s.this)
    (hty : (s.cl cl).type = .user) {st : CModeSt} (hl : Like s st.s) {sg m : Char} (ht : st.the = [sg, m]) (hm : m ≠ '+' ∧ m ≠ '-') :
    ∃ o, cmFinish st cl cl c = { st.s with out := o ++ st.s.out } ∧
      ModeTold s i True c.ref (if s.conf.operServerMode then s.cl s.this else s.cl cl) (c.name.head? ≠ some '&') ⟨"MODE", [c.name, [sg, m], st.targs]⟩ o := by
  have hda : dropAction [sg, m] = [sg, m] := by
    simp only [dropAction, List.getLast?_cons_cons, List.getLast?_singleton]
    exact if_neg (by simp only [Bool.or_eq_true, beq_iff_eq]; exact fun z => z.elim hm.1 hm.2)
  obtain ⟨o, e1, e2⟩ := tell_out (s := s) (i := i) (cl := cl) hb g1 g2 g3
    (s.cl (if s.conf.operServerMode && (s.cl cl).type = .user then s.this else cl)) c.ref (!c.isLocal) ⟨"MODE", [c.name, [sg, m], st.targs]⟩
  refine ⟨o, ?_, ?_⟩
  · rw [cmFinish_tell hb g1 g2 g3 g4 (.inl hty) st hl cl (by rw [ht]; simp), ht, hda]
    exact e1 st.s hl
  · have ew : s.cl (if s.conf.operServerMode && (s.cl cl).type = .user then s.this else cl) = if s.conf.operServerMode then s.cl s.this else s.cl cl := by
      rw [hty, show decide (CType.user = CType.user) = true from rfl, Bool.and_true]
      split <;> rfl
    rw [ew] at e2
    exact ⟨fun _ => e2.self hty, e2.members, fun hf => e2.links ((far_iff c).2 hf),
      fun y hy => (e2.others y hy).imp (fun g => ⟨trivial, g.2⟩) (Or.imp id (fun g => ⟨(far_iff c).1 g.1, g.2⟩))⟩

/-- **C61** A key set by a half operator or above becomes the key of the channel (its first 64 characters), the channel
gets mode `k`, and the user, the other local members and, unless the channel is local, all other servers are told. -/
theorem C61_key (h : PoliteRun s) (hr : Received s i l cl req) (his : Is req "MODE") (hty : (s.cl cl).type = .user) (rnd : Int)
    {a z : Str} (hargs : req.argv = [a, ['+', 'k'], z]) (hz : z ≠ [] ∧ ' ' ∉ z)
    (hc : c ∈ s.chans) (hname : SameCase c.name a) (hml : c.name.head? ≠ some '+') (hhalf : IsHalf s c.ref cl) (hroom : c.modes.length < 20) :
    ∃ o, Emitted (withChannel s c.ref (fun d => { d with key := z.take 64, modes := modesWith true (modesWith false d.modes ['k']) ['k'] })) (step s (.line i rnd l)) o ∧
      ModeTold s i True c.ref (if s.conf.operServerMode then s.cl s.this else s.cl cl)
        (c.name.head? ≠ some '&') ⟨"MODE", [c.name, ['+', 'k'], ' ' :: z.take 64]⟩ o := by
  have hb := h.reachable.base
  obtain ⟨g1, g2, g3, g4⟩ := hr.owner hb
  have hb' : Base (s.roll rnd) := Base.of_core (s := s) rfl hb
  obtain ⟨R, e⟩ := arg_char (s := s.roll rnd) (cl := cl) (c := c) (req := req) (z := z) hb' g1 g2 hty hhalf (.inl rfl) (by
    rw [if_pos rfl, Bool.and_eq_true, Bool.not_eq_true', Bool.not_eq_true', List.isEmpty_eq_false_iff, ← Bool.not_eq_true, hasChar_iff]; exact hz)
  simp only [if_true, cmApply, channelSetKey] at e
  rw [set_state (s := s.roll rnd) hb' hc ((polite_mode h).ch c hc) hroom 'k' (fun d => { d with key := strlcpy 65 z }) (fun d => ⟨rfl, rfl⟩) (fun d M => rfl)] at e
  have hrun := one_run h hr his hty rnd (set := true) hargs hc hname hml hhalf e (fun _ => rfl)
  have hk : (strlcpy 65 z).isEmpty = false := by
    cases z with
    | nil => exact absurd rfl hz.1
    | cons b bs => rfl
  have ea : strlcat COMMAND_LEN (strlcat COMMAND_LEN [] [' ']) (strlcpy 65 z) = ' ' :: z.take 64 := by
    rw [show strlcat COMMAND_LEN [] [' '] = [' '] from rfl, show strlcpy 65 z = z.take 64 from rfl]
    have := List.length_take_le 64 z
    exact strlcat_fits (by simp only [COMMAND_LEN, List.length_singleton]; omega)
  rw [hrun]
  simp only [hk, Bool.false_eq_true, if_false, if_true, ea]
  obtain ⟨o, e1, e2⟩ := finish_told (s := s.roll rnd) (i := i) (cl := cl) (c := c) hb' g1 g2 g3 g4 hty
    (st := { s := withChannel (s.roll rnd) c.ref (fun d => { d with key := strlcpy 65 z, modes := modesWith true (modesWith false d.modes ['k']) ['k'] }),
             the := strlcat COMMAND_LEN ['+'] ['k'], targs := ' ' :: z.take 64, set := true, rights := R, count := 1, args := [] })
    ⟨rfl, rfl, rfl, rfl, rfl⟩ (sg := '+') (m := 'k') rfl (by decide)
  exact ⟨o, ⟨rnd, e1⟩, ⟨e2.self, e2.members, e2.links, e2.others⟩⟩

/-- **C61** A limit set by a half operator or above becomes the limit of the channel, the channel gets mode `l`, and the
user, the other local members and, unless the channel is local, all other servers are told. -/
theorem C61_limit (h : PoliteRun s) (hr : Received s i l cl req) (his : Is req "MODE") (hty : (s.cl cl).type = .user) (rnd : Int)
    {a z : Str} (hargs : req.argv = [a, ['+', 'l'], z]) (hz : 0 < atoi z ∧ atoi z < 65535)
    (hc : c ∈ s.chans) (hname : SameCase c.name a) (hml : c.name.head? ≠ some '+') (hhalf : IsHalf s c.ref cl) (hroom : c.modes.length < 20) :
    ∃ o, Emitted (withChannel s c.ref (fun d => { d with maxusers := (atoi z).toNat, modes := modesWith true (modesWith false d.modes ['l']) ['l'] })) (step s (.line i rnd l)) o ∧
      ModeTold s i True c.ref (if s.conf.operServerMode then s.cl s.this else s.cl cl)
        (c.name.head? ≠ some '&') ⟨"MODE", [c.name, ['+', 'l'], ' ' :: intStr (atoi z)]⟩ o := by
  have hb := h.reachable.base
  obtain ⟨g1, g2, g3, g4⟩ := hr.owner hb
  have hb' : Base (s.roll rnd) := Base.of_core (s := s) rfl hb
  obtain ⟨R, e⟩ := arg_char (s := s.roll rnd) (cl := cl) (c := c) (req := req) (z := z) hb' g1 g2 hty hhalf (.inr rfl) (by
    rw [if_neg (by decide), Bool.and_eq_true, decide_eq_true_eq, decide_eq_true_eq]; exact hz)
  simp only [show ¬ 'l' = 'k' from by decide, if_false, if_true, cmApply, channelSetMaxUsers] at e
  rw [set_state (s := s.roll rnd) hb' hc ((polite_mode h).ch c hc) hroom 'l' (fun d => { d with maxusers := (atoi z).toNat }) (fun d => ⟨rfl, rfl⟩) (fun d M => rfl)] at e
  have hrun := one_run h hr his hty rnd (set := true) hargs hc hname hml hhalf e (fun _ => rfl)
  obtain ⟨n, hn, hn2⟩ : ∃ n : Nat, atoi z = n ∧ n < 65535 := ⟨(atoi z).toNat, by omega, by omega⟩
  have hlen : (intStr (atoi z)).length ≤ 5 ∧ intStr (atoi z) ≠ [] := by
    rw [hn]; exact intStr_len n hn2
  have hk : (intStr (atoi z)).isEmpty = false := List.isEmpty_eq_false_iff.2 hlen.2
  have ea : strlcat COMMAND_LEN (strlcat COMMAND_LEN [] [' ']) (intStr (atoi z)) = ' ' :: intStr (atoi z) := by
    rw [show strlcat COMMAND_LEN [] [' '] = [' '] from rfl]
    exact strlcat_fits (by simp only [COMMAND_LEN, List.length_singleton]; omega)
  rw [hrun]
  simp only [hk, Bool.false_eq_true, if_false, if_true, ea]
  obtain ⟨o, e1, e2⟩ := finish_told (s := s.roll rnd) (i := i) (cl := cl) (c := c) hb' g1 g2 g3 g4 hty
    (st := { s := withChannel (s.roll rnd) c.ref (fun d => { d with maxusers := (atoi z).toNat, modes := modesWith true (modesWith false d.modes ['l']) ['l'] }),
             the := strlcat COMMAND_LEN ['+'] ['l'], targs := ' ' :: intStr (atoi z), set := true, rights := R, count := 1, args := [] })
    ⟨rfl, rfl, rfl, rfl, rfl⟩ (sg := '+') (m := 'l') rfl (by decide)
  exact ⟨o, ⟨rnd, e1⟩, ⟨e2.self, e2.members, e2.links, e2.others⟩⟩

/-! ## Cases -/

theorem alice_chop : IsChop Sample.s5 (Sample.s5.chan 5).ref 3 :=
  .inr ⟨⟨3, 5, ['o']⟩, by decide +kernel, by decide +kernel, rfl, by decide⟩

theorem sample_c : Sample.s5.chan 5 ∈ Sample.s5.chans ∧ SameCase (Sample.s5.chan 5).name "#C".toList ∧ (Sample.s5.chan 5).name.head? ≠ some '+' ∧
    (Sample.s5.chan 5).modes.length < 18 ∧ Sample.s5.chan 5 = Sample.s5.chan (Sample.s5.chan 5).ref :=
  ⟨by decide +kernel, (caseEq_same _ _).1 (by decide +kernel), by decide +kernel, by decide +kernel, by decide +kernel⟩

/-- alice makes #c moderated and secret. -/
example : ∃ req c, PoliteRun Sample.s5 ∧ Received Sample.s5 5 "MODE #C +ms".toList 3 req ∧ Is req "MODE" ∧ (Sample.s5.cl 3).type = .user ∧
    req.argv = ["#C".toList, (if true then '+' else '-') :: ['m', 's']] ∧ c ∈ Sample.s5.chans ∧ SameCase c.name "#C".toList ∧ c.name.head? ≠ some '+' ∧
    (∀ m ∈ ['m', 's'], m ≠ 'k' ∧ m ≠ 'l' ∧ if true then MaySet Sample.s5 c.ref 3 m else MayUnset Sample.s5 c.ref 3 m) ∧ ['m', 's'].Nodup ∧
    c.modes.length + ['m', 's'].length ≤ 20 ∧ changed true c.modes ['m', 's'] = ['m', 's'] :=
  ⟨⟨none, "MODE".toList, ["#C".toList, "+ms".toList]⟩, Sample.s5.chan 5, polite_s5, recv_sound (by decide +kernel), by simp only [Is]; decide, by decide +kernel, rfl,
    sample_c.1, sample_c.2.1, sample_c.2.2.1, fun m hm => (by
      have h2 : m ∈ "ms".toList := hm
      refine ⟨?_, ?_, ?_, .inl alice_chop, fun _ => alice_chop, fun h3 => absurd h3 ?_⟩ <;> clear hm <;> revert m <;> decide), by decide, by decide +kernel, by decide +kernel⟩

/-- alice bans dan: the mask gets its other parts. -/
example : ∃ req c, PoliteRun Sample.s5 ∧ Received Sample.s5 5 "MODE #C +b dan".toList 3 req ∧ Is req "MODE" ∧ (Sample.s5.cl 3).type = .user ∧
    req.argv = ["#C".toList, ['+', CList.bans.letter], "dan".toList] ∧ c ∈ Sample.s5.chans ∧ SameCase c.name "#C".toList ∧ c.name.head? ≠ some '+' ∧
    IsHalf Sample.s5 c.ref 3 ∧ "dan".toList.length < 123 ∧ (¬ ∃ e ∈ c.list .bans, SameCase e.mask (normalMask "dan".toList)) ∧
    c.invites.length + c.excepts.length + c.bans.length < 50 ∧ normalMask "dan".toList = "dan!*@*".toList :=
  ⟨⟨none, "MODE".toList, ["#C".toList, "+b".toList, "dan".toList]⟩, Sample.s5.chan 5, polite_s5, recv_sound (by decide +kernel), by simp only [Is]; decide, by decide +kernel, rfl,
    sample_c.1, sample_c.2.1, sample_c.2.2.1, .inl alice_chop, by decide, by decide +kernel, by decide +kernel, by decide +kernel⟩

/-- One line of alice that bans five users. -/
def Sample.fiveBans (n : Nat) : String := "MODE #c +bbbbb " ++ " ".intercalate ((List.range 5).map (fun k => "u" ++ toString (5 * n + k)))

/-- alice has banned fifty users. -/
def Sample.s5full : Srv := Sample.lines Sample.s5 5 ((List.range 10).map Sample.fiveBans)

theorem polite_s5full : PoliteRun Sample.s5full :=
  (Sample.fine_lines Sample.fine_s5 5 ((List.range 10).map Sample.fiveBans) (by decide +kernel)).mono (fun _ h => h.1) (fun _ _ h => h.1)

/-- The lists of #c are full; `u7` is on the list and `dan` is not. -/
theorem full_facts : Sample.s5full.chan 5 ∈ Sample.s5full.chans ∧ (Sample.s5full.chan 5).bans.length = 50 ∧
    (Sample.s5full.chan 5).name = "#c".toList ∧ (Sample.s5full.chan 5).ref = 5 ∧ (⟨3, 5, ['o']⟩ : Cl2Chan) ∈ Sample.s5full.cl2 ∧
    (∃ e ∈ (Sample.s5full.chan 5).list .bans, SameCase e.mask (normalMask "U7".toList)) ∧
    (¬ ∃ e ∈ (Sample.s5full.chan 5).list .bans, SameCase e.mask (normalMask "dan".toList)) ∧ (Sample.s5full.cl 3).type = .user ∧
    recv Sample.s5full 5 "MODE #c +b dan".toList = some (3, ⟨none, "MODE".toList, ["#c".toList, "+b".toList, "dan".toList]⟩) ∧
    recv Sample.s5full 5 "MODE #c +b U7".toList = some (3, ⟨none, "MODE".toList, ["#c".toList, "+b".toList, "U7".toList]⟩) ∧
    recv Sample.s5full 5 "MODE #c -b U7".toList = some (3, ⟨none, "MODE".toList, ["#c".toList, "-b".toList, "U7".toList]⟩) := by
  decide +kernel

theorem full_half : IsHalf Sample.s5full (Sample.s5full.chan 5).ref 3 :=
  .inl (.inr ⟨⟨3, 5, ['o']⟩, full_facts.2.2.2.2.1, full_facts.2.2.2.1.symm, rfl, by decide⟩)

example : ∃ req c, PoliteRun Sample.s5full ∧ Received Sample.s5full 5 "MODE #c +b dan".toList 3 req ∧ Is req "MODE" ∧ (Sample.s5full.cl 3).type = .user ∧
    req.argv = ["#c".toList, ['+', CList.bans.letter], "dan".toList] ∧ c ∈ Sample.s5full.chans ∧ SameCase c.name "#c".toList ∧ c.name.head? ≠ some '+' ∧
    IsHalf Sample.s5full c.ref 3 ∧ (¬ ∃ e ∈ c.list .bans, SameCase e.mask (normalMask "dan".toList)) ∧ 50 ≤ c.invites.length + c.excepts.length + c.bans.length :=
  ⟨⟨none, "MODE".toList, ["#c".toList, "+b".toList, "dan".toList]⟩, Sample.s5full.chan 5, polite_s5full, recv_sound full_facts.2.2.2.2.2.2.2.2.1, by simp only [Is]; decide, full_facts.2.2.2.2.2.2.2.1, rfl,
    full_facts.1, by rw [full_facts.2.2.1]; exact Spec.SameCase.refl _, by rw [full_facts.2.2.1]; decide, full_half, full_facts.2.2.2.2.2.2.1, by rw [full_facts.2.1]; omega⟩

/-- Both about a mask on the list: setting it again, and removing it. -/
example : ∃ req req' c, PoliteRun Sample.s5full ∧ Received Sample.s5full 5 "MODE #c +b U7".toList 3 req ∧ Is req "MODE" ∧
    Received Sample.s5full 5 "MODE #c -b U7".toList 3 req' ∧ Is req' "MODE" ∧ (Sample.s5full.cl 3).type = .user ∧
    req.argv = ["#c".toList, ['+', CList.bans.letter], "U7".toList] ∧ req'.argv = ["#c".toList, ['-', CList.bans.letter], "U7".toList] ∧
    c ∈ Sample.s5full.chans ∧ SameCase c.name "#c".toList ∧ c.name.head? ≠ some '+' ∧
    IsHalf Sample.s5full c.ref 3 ∧ ∃ e ∈ c.list .bans, SameCase e.mask (normalMask "U7".toList) :=
  ⟨⟨none, "MODE".toList, ["#c".toList, "+b".toList, "U7".toList]⟩, ⟨none, "MODE".toList, ["#c".toList, "-b".toList, "U7".toList]⟩, Sample.s5full.chan 5, polite_s5full,
    recv_sound full_facts.2.2.2.2.2.2.2.2.2.1, by simp only [Is]; decide, recv_sound full_facts.2.2.2.2.2.2.2.2.2.2, by simp only [Is]; decide, full_facts.2.2.2.2.2.2.2.1, rfl, rfl,
    full_facts.1, by rw [full_facts.2.2.1]; exact Spec.SameCase.refl _, by rw [full_facts.2.2.1]; decide, full_half, full_facts.2.2.2.2.2.1⟩

/-- alice gives bob the voice. -/
example : ∃ req c k, PoliteRun Sample.s5 ∧ Received Sample.s5 5 "MODE #C +v Bob".toList 3 req ∧ Is req "MODE" ∧ (Sample.s5.cl 3).type = .user ∧
    req.argv = ["#C".toList, [if true then '+' else '-', 'v'], "Bob".toList] ∧ c ∈ Sample.s5.chans ∧ SameCase c.name "#C".toList ∧ c.name.head? ≠ some '+' ∧
    MayRank Sample.s5 c.ref 3 'v' ∧ Sample.s5.cl 4 ∈ Sample.s5.clients ∧ (Sample.s5.cl 4).id ≠ [] ∧ (Sample.s5.cl 4).ID.length < 500 ∧
    SameCase (Sample.s5.cl 4).id (nickPart "Bob".toList) ∧ k ∈ Sample.s5.cl2 ∧ k.chan = c.ref ∧ k.client = (Sample.s5.cl 4).ref ∧ k.modes.length < 20 ∧
    changed true k.modes ['v'] ≠ [] :=
  ⟨⟨none, "MODE".toList, ["#C".toList, "+v".toList, "Bob".toList]⟩, Sample.s5.chan 5, ⟨4, 5, []⟩, polite_s5, recv_sound (by decide +kernel), by simp only [Is]; decide, by decide +kernel, rfl,
    sample_c.1, sample_c.2.1, sample_c.2.2.1, ⟨by decide, .inl alice_chop, fun h => absurd h (by decide), fun h => absurd h (by decide), fun _ => alice_chop⟩,
    by decide +kernel, by decide +kernel, by decide +kernel, (caseEq_same _ _).1 (by decide +kernel), by decide +kernel, by decide +kernel, by decide +kernel, by decide, by decide⟩

/-- alice sets a key, and a limit. -/
example : ∃ req req' c, PoliteRun Sample.s5 ∧ Received Sample.s5 5 "MODE #C +k geheim".toList 3 req ∧ Is req "MODE" ∧
    Received Sample.s5 5 "MODE #C +l 5".toList 3 req' ∧ Is req' "MODE" ∧ (Sample.s5.cl 3).type = .user ∧
    req.argv = ["#C".toList, ['+', 'k'], "geheim".toList] ∧ req'.argv = ["#C".toList, ['+', 'l'], "5".toList] ∧
    ("geheim".toList ≠ [] ∧ ' ' ∉ "geheim".toList) ∧ (0 < atoi "5".toList ∧ atoi "5".toList < 65535) ∧
    c ∈ Sample.s5.chans ∧ SameCase c.name "#C".toList ∧ c.name.head? ≠ some '+' ∧ IsHalf Sample.s5 c.ref 3 ∧ c.modes.length < 20 :=
  ⟨⟨none, "MODE".toList, ["#C".toList, "+k".toList, "geheim".toList]⟩, ⟨none, "MODE".toList, ["#C".toList, "+l".toList, "5".toList]⟩, Sample.s5.chan 5, polite_s5,
    recv_sound (by decide +kernel), by simp only [Is]; decide, recv_sound (by decide +kernel), by simp only [Is]; decide, by decide +kernel, rfl, rfl, by decide, by decide +kernel,
    sample_c.1, sample_c.2.1, sample_c.2.2.1, .inl alice_chop, Nat.lt_trans sample_c.2.2.2.1 (by decide)⟩

end Ngircd
