import Verif.Lemmas.Join
import Verif.Props.UserModes
import Verif.Spec.SamplePolite
import Verif.Props.Registry

/-!
# C18, C19: joining channels
-/

set_option linter.unusedSimpArgs false

namespace Ngircd
open Spec

variable {s t u : Srv} {i cl : Nat} {l : Str} {req : Request} {e : Event} {x : Ctx}

/-- Every membership of `t` stems from `s` or from somebody entitled to join. -/
def Joins (x : Ctx) (s t : Srv) : Prop :=
  ∀ m ∈ t.cl2, OnChannel s m.chan m.client ∨ x.peer ∨ (m.client = x.cl ∧ (x.is "JOIN" ∨ x.fresh))

theorem Joins.sub (h : t.cl2.Sublist s.cl2) : Joins x s t :=
  fun m hm => .inl ⟨m, h.subset hm, rfl, rfl⟩

theorem Joins.trans (h : Joins x s t) (h' : Joins x t u) : Joins x s u := by
  intro m hm
  rcases h' m hm with ⟨m', g1, g2, g3⟩ | g
  · have := h m' g1
    rw [g2, g3] at this; exact this
  · exact .inr g

theorem Joins.act {a : Act} (hb : Base t) (hp : Okay x t a) : Joins x t (a.run t) := by
  cases a with
  | mmode ch r m set =>
    intro k hk
    simp only [Act.run] at hk
    have : ∃ k' ∈ t.cl2, k'.chan = k.chan ∧ k'.client = k.client := by
      cases set <;> simp only [userModeAdd, userModeDel, List.mem_map, if_true, if_false, Bool.false_eq_true] at hk <;>
      · obtain ⟨k', h1, rfl⟩ := hk
        refine ⟨k', h1, ?_⟩
        split <;> exact ⟨rfl, rfl⟩
    exact .inl this
  | remove ch r => exact .sub (remove_cl2 t ch r)
  | destroy c =>
    refine .sub ?_
    rw [destroy_cl2 hb.ch]
    split
    · exact List.filter_sublist
    · exact List.Sublist.refl _
  | join ch r =>
    intro m hm
    rcases List.mem_cons.1 hm with rfl | hm
    · exact .inr hp.2.2.2.2
    · exact .inl ⟨m, hm, rfl, rfl⟩
  | createJoin name r =>
    intro m hm
    rcases List.mem_cons.1 hm with rfl | hm
    · exact .inr hp.2.2.2.2.2
    · exact .inl ⟨m, hm, rfl, rfl⟩
  | create name f => exact .sub (List.Sublist.refl _)
  | chSoft ch f => exact .sub (List.Sublist.refl _)
  | chMode ch m set => cases set <;> exact .sub (List.Sublist.refl _)
  | chModes ch modes => exact .sub (List.Sublist.refl _)
  | _ =>
    refine .sub ?_
    rw [(run_chans rfl t).2]; exact List.Sublist.refl _

theorem steps_joins (hb : Base s) (h : Steps (Okay x) s t) : Joins x s t := by
  have : Joins x s t ∧ Base t := by
    refine h.inv (I := fun t => Joins x s t ∧ Base t) ?_ ?_ ⟨.sub (List.Sublist.refl _), hb⟩
    · intro t u hc hk
      exact ⟨by rw [Joins, core_cl2 hc]; exact hk.1, hk.2.of_core hc⟩
    · intro t a hk hp
      exact ⟨hk.1.trans (.act hk.2 hp), hk.2.act hp⟩
  exact this.1

theorem evCtx_fresh (h : (evCtx s e True True).fresh) :
    SentBy s e (evCtx s e True True).cl ∧ (s.cl (evCtx s e True True).cl).type ≠ .user := by
  cases e with
  | line i rnd l =>
    cases hk : s.conn? i with
    | none => simp only [evCtx, hk] at h
    | some k =>
      have hk' : k ∈ s.conns ∧ k.idx = i := by
        have h2 := List.find?_some hk
        exact ⟨List.mem_of_find?_eq_some hk, by simpa using h2⟩
      cases hp : parseRequest s.conf.scrubCTCP l with
      | request req =>
        simp only [evCtx, hk, hp] at h ⊢
        exact ⟨⟨i, rnd, l, rfl, k, hk'.1, hk'.2, rfl⟩, h⟩
      | _ => simp only [evCtx, hk, hp] at h
  | _ => simp only [evCtx] at h

theorem Spec.Sends.sent {r : Nat} {n : String} (h : Sends s e r n) : SentBy s e r := by
  obtain ⟨i, rnd, l, req, he, ho, -⟩ := h
  exact ⟨i, rnd, l, he, ho⟩

/-- **C18** A client gets on a channel only by its own JOIN, by the channels it is put on while it
registers, or because a server link says so: no other event, and no other client's command, makes
it a member. -/
theorem C18_how (h : Reachable s) (e : Event) {ch r : Nat} (ho : OnChannel (step s e) ch r) :
    OnChannel s ch r ∨ (∃ p, SentBy s e p ∧ (s.cl p).type = .server) ∨
    (SentBy s e r ∧ (Sends s e r "JOIN" ∨ (s.cl r).type ≠ .user)) := by
  have hb := h.base
  obtain ⟨f1, f2, f3, f4, f5⟩ := evCtx_facts s e
  have hst := step_steps_any hb e
  obtain ⟨m, hm, rfl, rfl⟩ := ho
  rcases steps_joins hb hst m hm with g | g | ⟨g1, g⟩
  · exact .inl g
  · exact .inr (.inl (f1 g))
  · right; right
    rw [g1]
    rcases g with g | g
    · have hs := f4 "JOIN" (by decide) g
      exact ⟨hs.sent, .inl hs⟩
    · exact ⟨(evCtx_fresh g).1, .inr (evCtx_fresh g).2⟩

/-- What a JOIN of a local user does. -/
theorem join_JR (h : Reachable s) (hr : Received s i l cl req) (his : Is req "JOIN")
    (hty : (s.cl cl).type = .user) (rnd : Int) :
    ChKept {} s (step s (.line i rnd l)) ∨
    JR (fun c => ∃ (j : Nat) (n : Str), (items (req.arg 0))[j]? = some n ∧ SameCase n c.name ∧
      ('o' ∈ (s.cl cl).modes ∨ MayJoin s (s.cl cl) c ((items (req.arg 1))[j]?.getD []))) s
      (step s (.line i rnd l)) cl := by
  have hb := h.base
  rcases step_run hr hb rnd his rfl with ⟨hst, -⟩ | ha
  · have hst : step s (.line i rnd l) = (ircJOIN (s.roll rnd) cl req).1 := hst
    rw [hst]
    have hb' : Base (s.roll rnd) := .of_core (s := s) rfl hb
    obtain ⟨hmem, href, -, -⟩ := hr.owner hb
    have hg : getSender (s.roll rnd) cl req = .ok cl := by
      simp only [getSender, roll_cl, hty]; rfl
    simp only [ircJOIN, hg]
    by_cases h0 : (decide (req.argc = 1) && decide (req.arg 0 = ['0'])) = true
    · rw [if_pos h0]
      left
      have hk := steps_chKept (x := { cl := ((s.roll rnd).cl cl).ref, cmd := "PART".toList }) hb' (by simp only [Ctx.edits, Ctx.is]; decide) h.once
        (partAll_steps (x := { cl := ((s.roll rnd).cl cl).ref, cmd := "PART".toList }) (countForUser (s.roll rnd) cl) (s.roll rnd) cl cl (.inr (.inl ⟨rfl, .inl (show caseEq "PART".toList "PART".toList = true from by decide)⟩))).1
      refine ⟨fun d hd => ?_, hk.2⟩
      obtain ⟨c, hc, k1, k2, k3⟩ := hk.1 d hd
      exact ⟨c, hc, k1, k2, k3⟩
    · rw [if_neg h0]
      right
      have hkeys : (if req.argc > 1 then strtok (req.arg 1) [','] else []) = items (req.arg 1) := by
        split
        · exact strtok_items _
        · rename_i hc
          have : req.arg 1 = [] := by
            simp only [Request.arg, Request.argc] at *
            rw [List.getD_eq_getElem?_getD, List.getElem?_eq_none (by omega)]; rfl
          rw [this]; rfl
      rw [hkeys, strtok_items]
      cases hit : items (req.arg 0) with
      | nil => exact JR.rfl'.core rfl
      | cons n ns =>
        have hJ : JR (fun c => ∃ (j : Nat) (m : Str), (n :: ns)[j]? = some m ∧ SameCase m c.name ∧
            ('o' ∈ (s.cl cl).modes ∨ MayJoin s (s.cl cl) c ((items (req.arg 1))[j]?.getD []))) s (s.roll rnd) cl :=
          JR.rfl'.core rfl
        refine joinLoop_JR hb href hty ⟨_, hmem, href⟩ _ _ _ hb' h.once hJ ?_ ?_
        · intro m hm
          rw [← hit, ← strtok_items] at hm
          exact strtok_ne_nil hm
        · intro j m hj c hc hn ha
          exact ⟨j, m, hj, hn, ha⟩
  · left
    refine .sub ?_ ?_
    · rw [ha.unch.chans]; exact List.Sublist.refl _
    · rw [ha.unch.cl2]; exact List.Sublist.refl _

/-- **C18** A local user gets on an existing channel by JOIN only if it names the channel and
either is an IRC operator or meets every restriction: not banned (or excepted, or invited),
invited if the channel is invite-only, with a fitting key, the channel is not full, and the
modes `z`, `O` and `R` are met; all this in the state the command was received in. -/
theorem C18_join (h : Reachable s) (hr : Received s i l cl req) (his : Is req "JOIN")
    (hty : (s.cl cl).type = .user) (rnd : Int) {c : Chan} (hc : c ∈ s.chans)
    (hno : ¬ OnChannel s c.ref cl) (hon : OnChannel (step s (.line i rnd l)) c.ref cl) :
    ∃ (j : Nat) (n : Str), (items (req.arg 0))[j]? = some n ∧ SameCase n c.name ∧
      ('o' ∈ (s.cl cl).modes ∨ MayJoin s (s.cl cl) c ((items (req.arg 1))[j]?.getD [])) := by
  have hb := h.base
  obtain ⟨m, hm, hm1, hm2⟩ := hon
  rcases join_JR h hr his hty rnd with hk | hk
  · exact absurd ⟨m, hk.2 m hm, hm1, hm2⟩ hno
  · obtain ⟨l', e1, e2, -⟩ := hk.news
    rw [e1] at hm
    rcases List.mem_append.1 hm with hm | hm
    · rcases (e2 m hm).2 with ⟨c', hc', g1, g2, -⟩ | ⟨g, -⟩
      · have : c' = c := chan_eq_of_ref hb.ch hc' hc (by rw [g1, hm1])
        rw [← this]; exact g2
      · have := hb.ch.lt c hc
        omega
    · exact absurd ⟨m, hm, hm1, hm2⟩ hno

/-- **C18** No user gets on more channels than MaxJoins by JOIN: if the command puts it on any
channel at all, it is on at most MaxJoins of them afterwards. -/
theorem C18_maxjoins (h : Reachable s) (hr : Received s i l cl req) (his : Is req "JOIN")
    (hty : (s.cl cl).type = .user) (rnd : Int) (hmax : 0 < s.conf.maxJoins) {ch : Nat}
    (hno : ¬ OnChannel s ch cl) (hon : OnChannel (step s (.line i rnd l)) ch cl) :
    (joined (step s (.line i rnd l)) cl : Int) ≤ s.conf.maxJoins := by
  obtain ⟨m, hm, hm1, hm2⟩ := hon
  rcases join_JR h hr his hty rnd with hk | hk
  · exact absurd ⟨m, hk.2 m hm, hm1, hm2⟩ hno
  · obtain ⟨l', e1, -, e3⟩ := hk.news
    refine (e3 hmax).resolve_left (fun hl => ?_)
    rw [hl] at e1
    exact hno ⟨m, by rw [e1] at hm; exact hm, hm1, hm2⟩

/-- **C19** The privileges of those who join: a JOIN leaves all other memberships as they are;
on an existing channel the newcomer gets none (except that IRC operators become channel operators
on channels with mode `P`, if so configured); on a channel it creates it becomes channel operator,
unless the channel is modeless. -/
theorem C19_join (h : Reachable s) (hr : Received s i l cl req) (his : Is req "JOIN")
    (hty : (s.cl cl).type = .user) (rnd : Int) {m : Cl2Chan} (hm : m ∈ (step s (.line i rnd l)).cl2) :
    m ∈ s.cl2 ∨
    (m.client = cl ∧
      ((∃ c ∈ s.chans, c.ref = m.chan ∧ ¬ OnChannel s c.ref cl ∧ m.modes = rankOnJoin s (s.cl cl) c) ∨
       (∃ d ∈ (step s (.line i rnd l)).chans, d.ref = m.chan ∧ (∀ c ∈ s.chans, c.ref ≠ d.ref) ∧
         m.modes = if d.name.head? = some '+' then [] else ['o']))) := by
  have hb := h.base
  have hbt := (step_steps_any hb (.line i rnd l)).base hb
  rcases join_JR h hr his hty rnd with hk | hk
  · exact .inl (hk.2 m hm)
  · obtain ⟨l', e1, e2, -⟩ := hk.news
    have hm' := hm
    rw [e1] at hm
    rcases List.mem_append.1 hm with hl | hm
    · refine .inr ⟨(e2 m hl).1, (e2 m hl).2.imp ?_ ?_⟩
      · rintro ⟨c, g1, g2, -, g3⟩
        refine ⟨c, g1, g2, ?_, g3⟩
        rintro ⟨m', k1, k2, k3⟩
        have hp := hbt.ch.pairs
        rw [e1, List.map_append] at hp
        refine (List.nodup_append.1 hp).2.2 _ (List.mem_map.2 ⟨m, hl, rfl⟩) _ (List.mem_map.2 ⟨m', k1, rfl⟩) ?_
        rw [k2, g2, (e2 m hl).1, k3]
      · rintro ⟨g1, d, g2, g3, g4⟩
        refine ⟨d, g2, g3, fun c hc => ?_, g4⟩
        have := hb.ch.lt c hc
        omega
    · exact .inl hm

/-- The channels of `s4` after alice has set a key and a limit and bob has left. -/
def Sample.s4k : Srv := Sample.lines (Sample.lines Sample.s4 5 ["MODE #c +kl geheim 5"]) 6 ["PART #c"]

theorem Sample.reach_s4k : Reachable Sample.s4k :=
  Sample.reach_lines (Sample.reach_lines Sample.reach_s4 _ _ (by decide +kernel)) _ _ (by decide +kernel)

instance (s : Srv) (ch r : Nat) : Decidable (OnChannel s ch r) :=
  inferInstanceAs (Decidable (∃ m ∈ s.cl2, m.chan = ch ∧ m.client = r))

/-- bob joins again, with the key. -/
example : ∃ req, Reachable Sample.s4k ∧ Received Sample.s4k 6 "JOIN #new,#C x,geheim".toList 4 req ∧ Is req "JOIN" ∧
    (Sample.s4k.cl 4).type = .user ∧ (∃ c ∈ Sample.s4k.chans, c.ref = 5 ∧ c.modes = "kl".toList) ∧
    0 < Sample.s4k.conf.maxJoins ∧
    ¬ OnChannel Sample.s4k 5 4 ∧ OnChannel (step Sample.s4k (.line 6 0 "JOIN #new,#C x,geheim".toList)) 5 4 :=
  ⟨⟨none, "JOIN".toList, ["#new,#C".toList, "x,geheim".toList]⟩, Sample.reach_s4k,
    recv_sound (by decide +kernel), by simp only [Is]; decide, by decide +kernel, by decide +kernel, by decide +kernel,
    by decide +kernel, by decide +kernel⟩

/-- ... and becomes operator of the channel it has created, but not of the other one. -/
example : ((step Sample.s4k (.line 6 0 "JOIN #new,#C x,geheim".toList)).cl2.filter (fun m => m.client = 4)).map
    (fun m => (m.chan, m.modes)) = [(5, []), (6, ['o'])] := by decide +kernel

/-- ... but does not get in without it. -/
example : ¬ OnChannel (step Sample.s4k (.line 6 0 "JOIN #new,#C geheim,x".toList)) 5 4 := by decide +kernel

/-! ## Those who may join do -/

theorem checkKey_of_fits {c : Client} {ch : Chan} {key : Str} (h : 'k' ∈ ch.modes → KeyFits c ch key) :
    checkKey ch c key = true := by
  simp only [checkKey]
  by_cases hk : 'k' ∈ ch.modes
  · obtain ⟨h1, h2⟩ := h hk
    rw [if_neg (by simp only [Chan.hasMode, hasChar_iff.2 hk]; decide), if_neg (by cases key <;> simp_all)]
    split
    · rfl
    · rename_i hne
      rcases h2 with h2 | ⟨lines, e, k, h3, h4⟩
      · exact absurd (by rw [h2]; exact beq_self_eq_true _) hne
      · rw [e]; exact List.any_eq_true.2 ⟨k, h3, h4⟩
  · rw [if_pos]
    simp only [Chan.hasMode, Bool.not_eq_true', ← Bool.not_eq_true, hasChar_iff]; exact hk

theorem usesSSL_of (hb : Base s) {c : Client} {k : Conn} (h1 : k ∈ s.conns) (h2 : c.conn = some k.idx) (h3 : k.ssl = true) :
    usesSSL s c = true := by
  have : s.conn? k.idx = some k := by
    cases hf : s.conn? k.idx with
    | none => have := List.find?_eq_none.1 hf k h1; simp at this
    | some k' =>
      have h4 := List.find?_some hf
      rw [conn_of_idx hb.cl (List.mem_of_find?_eq_some hf) h1 (by simpa using h4)]
  simp only [usesSSL, h2, Option.bind_some, this, h3]

theorem joinRefusal_of (hb : Base s) {c : Client} {ch : Chan} {key : Str} (h : MayJoin s c ch key) :
    joinRefusal s c ch key = none := by
  have hf : ∀ {l : MaskList}, ¬ Covers s l c → (listsCheck l (masksOf s c)).2 = false := by
    intro l hl; rw [← Bool.not_eq_true, covers_iff]; exact hl
  simp only [joinRefusal]
  rw [if_neg, if_neg, if_neg, if_neg, if_neg, if_neg, if_neg]
  · simp only [Bool.and_eq_true, Bool.not_eq_true', Chan.hasMode, Client.hasMode, hasChar_iff, not_and, ← Bool.not_eq_true, Classical.not_not]
    exact h.registered
  · simp only [Bool.and_eq_true, Bool.not_eq_true', Chan.hasMode, Client.hasMode, hasChar_iff, not_and, ← Bool.not_eq_true, Classical.not_not]
    exact h.oper
  · simp only [Bool.and_eq_true, Bool.not_eq_true', Chan.hasMode, hasChar_iff, not_and, Bool.not_eq_false]
    intro hz
    obtain ⟨k, h1, h2, h3⟩ := h.ssl hz
    exact usesSSL_of hb h1 h2 h3
  · simp only [Bool.and_eq_true, decide_eq_true_eq, Chan.hasMode, hasChar_iff, not_and, Nat.not_le]
    intro hl; rw [members_eq]; exact h.limit hl
  · rw [checkKey_of_fits h.key]; decide
  · simp only [Bool.and_eq_true, Bool.not_eq_true', Chan.hasMode, hasChar_iff, not_and, Bool.not_eq_false]
    intro hi; exact covers_iff.2 (h.invite hi)
  · simp only [Bool.and_eq_true, Bool.not_eq_true', and_assoc]
    rintro ⟨h1, h2, h3⟩
    rcases h.ban (covers_iff.1 h1) with g | g
    · rw [covers_iff.2 g] at h3; cases h3
    · rw [covers_iff.2 g] at h2; cases h2

theorem toLower_special {c d : Char} (h : toLower c = d) (hd : d.toNat < 65) : c = d := by
  simp only [toLower] at h
  split at h
  · rename_i hc
    exfalso
    have h1 : 65 ≤ c.toNat := hc.1
    have h2 : c.toNat ≤ 90 := hc.2
    have : (Char.ofNat (c.toNat + 32)).toNat = c.toNat + 32 := by
      exact toNat_ofNat_small (by omega)
    rw [← h, this] at hd
    omega
  · exact h

theorem toLower_keep {c : Char} (h : c.toNat < 65) : toLower c = c := by
  simp only [toLower]
  rw [if_neg]
  rintro ⟨h1, -⟩
  have h1 : 65 ≤ c.toNat := h1
  omega

theorem special_lower {l : Str} (hl : ∀ d ∈ l, d.toNat < 65) (c : Char) : l.contains (toLower c) = l.contains c := by
  rw [Bool.eq_iff_iff]
  simp only [List.contains_iff_mem]
  constructor
  · intro h; rw [toLower_special (c := c) rfl (hl _ h)]; exact h
  · intro h; rw [toLower_keep (hl _ h)]; exact h

theorem isValidChanName_lower (n : Str) : isValidChanName (lowerStr n) = isValidChanName n := by
  have h1 : ∀ d ∈ "#&+".toList, d.toNat < 65 := by decide
  have h2 : ∀ d ∈ " ,:\x07".toList, d.toNat < 65 := by decide
  simp only [isValidChanName, lowerStr, List.length_map, List.all_map]
  congr 1
  · congr 1
    cases n with
    | nil => rfl
    | cons c n => exact special_lower h1 c
  · congr 1
    funext c
    simp only [Function.comp_apply]
    rw [special_lower h2]

/-- **C18** Conversely: a user that names one existing channel it is not on, that may join it and
has not reached MaxJoins, is on it afterwards. -/
theorem C18_admits (h : PoliteRun s) (hr : Received s i l cl req) (his : Is req "JOIN")
    (hty : (s.cl cl).type = .user) (rnd : Int) {c : Chan} (hc : c ∈ s.chans)
    (hargs : 1 ≤ req.argv.length ∧ req.argv.length ≤ 2)
    (hname : ∃ n, items (req.arg 0) = [n] ∧ SameCase c.name n)
    (hmax : s.conf.maxJoins ≤ 0 ∨ (joined s cl : Int) < s.conf.maxJoins)
    (hmay : 'o' ∈ (s.cl cl).modes ∨ MayJoin s (s.cl cl) c ((items (req.arg 1))[0]?.getD [])) :
    OnChannel (step s (.line i rnd l)) c.ref cl := by
  have hb := h.reachable.base
  obtain ⟨n, hit, hn⟩ := hname
  have hs : channelSearch s n = some c := (C13_channel_lookup h n c).2 ⟨hc, hn⟩
  have hst : step s (.line i rnd l) = (ircJOIN (s.roll rnd) cl req).1 :=
    step_do hr rnd his rfl (by rw [hty]; rfl) (by
      simp only [Command.argcOk, Bool.and_eq_true, decide_eq_true_eq]; exact hargs)
  rw [hst]
  have hb' : Base (s.roll rnd) := .of_core (s := s) rfl hb
  obtain ⟨hmem, href, -, -⟩ := hr.owner hb
  have hg : getSender (s.roll rnd) cl req = .ok cl := by
    simp only [getSender, roll_cl, hty]; rfl
  have hvalid : isValidChanName n = true := by
    have h1 := ((polite_chan h).good c hc).1
    rw [← isValidChanName_lower] at h1 ⊢
    rw [← (sameCase_iff _ _).1 hn]; exact h1
  have h0 : ¬ (decide (req.argc = 1) && decide (req.arg 0 = ['0'])) = true := by
    simp only [Bool.and_eq_true, decide_eq_true_eq, not_and]
    intro _ he
    rw [he] at hit
    have : n = ['0'] := by
      have : items ['0'] = [['0']] := by decide
      rw [this] at hit; injection hit with hit; exact hit.symm
    rw [this] at hvalid
    exact absurd hvalid (by decide)
  simp only [ircJOIN, hg]
  rw [if_neg h0, strtok_items, hit]
  have hkeys : (if req.argc > 1 then strtok (req.arg 1) [','] else []) = items (req.arg 1) := by
    split
    · exact strtok_items _
    · rename_i hc
      have : req.arg 1 = [] := by
        simp only [Request.arg, Request.argc] at *
        rw [List.getD_eq_getElem?_getD, List.getElem?_eq_none (by omega)]; rfl
      rw [this]; rfl
  rw [hkeys]
  simp only [joinLoop]
  have hhd : (items (req.arg 1)).headD [] = (items (req.arg 1))[0]?.getD [] := by
    cases items (req.arg 1) <;> rfl
  rw [hhd]
  generalize (items (req.arg 1))[0]?.getD [] = key at hmay
  have hs' : channelSearch (s.roll rnd) n = some c := hs
  have hmx : ¬ (decide ((s.roll rnd).conf.maxJoins > 0) && decide ((countForUser (s.roll rnd) cl : Int) ≥ (s.roll rnd).conf.maxJoins)) = true := by
    intro hc
    simp only [Bool.and_eq_true, decide_eq_true_eq] at hc
    have h1 : s.conf.maxJoins > 0 := hc.1
    have h2 : (joined s cl : Int) ≥ s.conf.maxJoins := hc.2
    omega
  simp only [joinOne, roll_cl, hty, if_true, joinChecks, hs', Option.isNone_some]
  by_cases hmemb : isMemberOf (s.roll rnd) c.ref cl = true
  · rw [if_pos hmemb]
    obtain ⟨m, hm, h1, h2⟩ := isMemberOf_iff.1 hmemb
    exact ⟨m, hm, h1, h2⟩
  · have hmf : isMemberOf (s.roll rnd) c.ref cl = false := by simpa using hmemb
    rw [if_neg hmemb, if_neg hmx]
    have fin : ∀ t : Srv, Base t → channelSearch t n = some c ∨ (∃ f : Chan → Chan, KeepsCh f ∧ channelSearch t n = some (f c)) →
        t.cl2 = s.cl2 → t.clients = s.clients → OnChannel (joinDo t cl cl n [] false) c.ref cl := by
      intro t hbt hst he hcl
      obtain ⟨d, hd, hdr⟩ : ∃ d, channelSearch t n = some d ∧ d.ref = c.ref := by
        rcases hst with g | ⟨f, hf, g⟩
        · exact ⟨c, g, rfl⟩
        · exact ⟨f c, g, (hf c).1⟩
      have hj := joinDo_valid (cl := cl) hbt hd (by rw [← hmf, hdr]; simp only [isMemberOf, getCl2Chan, he]; rfl)
        (by simp only [Srv.cl, Srv.cl?, hcl] at href ⊢; exact href) hvalid
      refine ⟨⟨cl, d.ref, rankOnJoin t (t.cl cl) d⟩, ?_, hdr, rfl⟩
      rw [core_cl2 hj]
      exact List.mem_cons_self
    by_cases hop : 'o' ∈ (s.cl cl).modes
    · have ho : (s.cl cl).hasMode 'o' = true := hasChar_iff.2 hop
      simp only [joinAllowed, roll_cl, ho, if_true]
      exact fin _ hb' (.inl hs') rfl rfl
    · have ho : (s.cl cl).hasMode 'o' = false := by
        rw [← Bool.not_eq_true]; exact fun h => hop (hasChar_iff.1 h)
      have hmay' : MayJoin (s.roll rnd) (s.cl cl) c key :=
        mayJoin_lift (s := s.roll rnd) (t := s) (A := fun _ => True) (cl := cl) (JR.rfl'.core rfl)
          ⟨rfl, rfl, rfl, rfl, rfl, rfl, rfl, rfl⟩ (fun _ h => h) (hmay.resolve_left hop)
      have hrf := joinRefusal_of hb' hmay'
      have hstp := (joinAllowed_steps (x := { cl := cl, fresh := True })
        (.inr (.inr (.inr (.inl trivial)))) hb' cl (channelSearch_mem hs') n key).1.base hb'
      simp only [joinAllowed, roll_cl, ho, Bool.false_eq_true, if_false, hrf] at hstp ⊢
      rw [updChan_const hb'.ch (channelSearch_mem hs') (joinConsume (s.roll rnd) (s.cl cl))] at hstp ⊢
      refine fin _ hstp (.inr ⟨joinConsume (s.roll rnd) (s.cl cl), fun _ => ⟨rfl, rfl, rfl⟩, ?_⟩) rfl rfl
      rw [channelSearch_upd (f := joinConsume (s.roll rnd) (s.cl cl)) (fun _ => ⟨rfl, rfl, rfl⟩), hs']
      simp

/-- The hypotheses are met when bob joins with the key. -/
example : ∃ req, PoliteRun Sample.s4k ∧ Received Sample.s4k 6 "JOIN #C geheim".toList 4 req ∧ Is req "JOIN" ∧
    (Sample.s4k.cl 4).type = .user ∧ 1 ≤ req.argv.length ∧ req.argv.length ≤ 2 ∧
    (∃ c ∈ Sample.s4k.chans, ∃ n, items (req.arg 0) = [n] ∧ SameCase c.name n ∧
      MayJoin Sample.s4k (Sample.s4k.cl 4) c ((items (req.arg 1))[0]?.getD [])) := by
  refine ⟨⟨none, "JOIN".toList, ["#C".toList, "geheim".toList]⟩,
    (Sample.fine_lines (Sample.fine_lines Sample.fine_s4 _ _ (by decide +kernel)) _ _ (by decide +kernel)).mono
      (fun _ h => h.1) (fun _ _ h => h.1),
    recv_sound (by decide +kernel), by simp only [Is]; decide, by decide +kernel, by decide, by decide, ?_⟩
  have : ∃ c ∈ Sample.s4k.chans, caseEq c.name "#C".toList = true ∧
    joinRefusal Sample.s4k (Sample.s4k.cl 4) c "geheim".toList = none := by decide +kernel
  obtain ⟨c, h1, h2, h3⟩ := this
  exact ⟨c, h1, "#C".toList, by decide, (caseEq_same _ _).1 h2, joinRefusal_none h3⟩

end Ngircd
