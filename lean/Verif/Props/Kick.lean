import Verif.Lemmas.Removal
import Verif.Props.ChanModes

/-!
# C24, C47: leaving channels and being removed from them
-/

set_option linter.unusedSimpArgs false

namespace Ngircd
open Spec

variable {s t u : Srv} {i cl : Nat} {l : Str} {req : Request} {x : Ctx}

theorem splitCommas_eq (a : Str) : splitCommas a = pieces a := by
  induction a with
  | nil => rfl
  | cons c cs ih => simp only [splitCommas, pieces, ih]; rfl

/-- The membership `m` is one a KICK with these names removes. -/
def KickOf (s : Srv) (r : Nat) (ps : List (Str × Str)) (m : Cl2Chan) : Prop :=
  ∃ c ∈ s.chans, c.ref = m.chan ∧ MayKick s r c m ∧ ∃ x ∈ s.clients, x.ref = m.client ∧
    ∃ p ∈ ps, SameCase p.1 c.name ∧ SameCase x.id (nickPart p.2)

/-- Who is to be kicked from where: one channel goes with every nick name, several channels go with as many nick
names, one by one. -/
def Spec.kickPairs (chans nicks : List Str) : List (Str × Str) :=
  match chans with
  | [a] => nicks.map (fun n => (a, n))
  | _ => if chans.length = nicks.length then chans.zip nicks else []

theorem kickPairs_zip {cs ns : List Str} (h : ¬ cs.length = 1) (h2 : cs.length = ns.length) : kickPairs cs ns = cs.zip ns := by
  cases cs with
  | nil => simp [kickPairs]
  | cons a cs =>
    cases cs with
    | nil => exact absurd rfl h
    | cons b cs => simp only [kickPairs, h2, if_true]

theorem cl_of_clientSearch (hb : Base s) {n : Str} {c : Client} (h : clientSearch s n = some c) : s.cl c.ref = c :=
  cl_of_mem hb.cl.ord (clientSearch_mem h)

theorem pair_eq (hi : ChInv s) {m m' : Cl2Chan} (hm : m ∈ s.cl2) (hm' : m' ∈ s.cl2) (h1 : m'.chan = m.chan)
    (h2 : m'.client = m.client) : m' = m := by
  have hp := hi.pairs
  revert hm hm' hp
  generalize s.cl2 = l
  induction l with
  | nil => intro h; cases h
  | cons x l ih =>
    intro hm hm' hp
    simp only [List.map_cons, List.nodup_cons] at hp
    rcases List.mem_cons.1 hm with rfl | g <;> rcases List.mem_cons.1 hm' with rfl | g'
    · rfl
    · exact absurd (List.mem_map.2 ⟨m', g', by rw [h1, h2]⟩) hp.1
    · exact absurd (List.mem_map.2 ⟨m, g, by rw [h1, h2]⟩) hp.1
    · exact ih g g' hp.2

theorem userHasMode_mem (hi : ChInv s) {m : Cl2Chan} (hm : m ∈ s.cl2) {c : Char} :
    userHasMode s m.chan m.client c = true ↔ c ∈ m.modes := by
  simp only [userHasMode, userModes, hasChar_iff, getCl2Chan]
  split
  · rename_i k hk
    have h1 := List.mem_of_find?_eq_some hk
    have h2 := List.find?_some hk
    simp only [Bool.and_eq_true, beq_iff_eq] at h2
    rw [pair_eq hi hm h1 (by first | exact h2.1 | exact h2.2) (by first | exact h2.2 | exact h2.1)]
  · rename_i hk
    have := List.find?_eq_none.1 hk m hm
    simp at this

theorem userHasMode_iff (hi : ChInv s) {ch r : Nat} {c : Char} :
    userHasMode s ch r c = true ↔ HasRank s ch r c := by
  constructor
  · exact userHasMode_rank
  · rintro ⟨m, hm, rfl, rfl, h⟩
    exact (userHasMode_mem hi hm).2 h

theorem canKick_iff (hb : Base s) {m : Cl2Chan} (hm : m ∈ s.cl2) {x o : Client} (hx : m.client = x.ref)
    (ho : s.cl o.ref = o) (hom : o ∈ s.clients) :
    canKick s m.chan o x o = true ↔ Outranks s o.ref m := by
  have hov : (o.hasMode 'o' && s.conf.operCanMode) = true ↔ Override s o.ref := by
    rw [Bool.and_eq_true, hasMode_iff, Override]
    constructor
    · rintro ⟨h1, h2⟩; exact ⟨⟨o, hom, rfl, h1⟩, h2⟩
    · rintro ⟨⟨c, h1, h2, h3⟩, h4⟩
      have : c = o := by rw [← ho, ← h2]; exact (cl_of_mem hb.cl.ord h1).symm
      exact ⟨this ▸ h3, h4⟩
  have hq : ∀ c, userHasMode s m.chan x.ref c = true ↔ c ∈ m.modes := fun c => by
    rw [← hx]; exact userHasMode_mem hb.ch hm
  have hr : ∀ c, userHasMode s m.chan o.ref c = true ↔ HasRank s m.chan o.ref c := fun c => userHasMode_iff hb.ch
  have hn : ∀ c, (!userHasMode s m.chan x.ref c) = true ↔ c ∉ m.modes := fun c => by
    rw [← hq c]; simp
  simp only [canKick, Outranks, ← hov, ← hr, ← hn]
  generalize (o.hasMode 'o' && s.conf.operCanMode) = b
  generalize userHasMode s m.chan o.ref 'q' = b1
  generalize userHasMode s m.chan o.ref 'a' = b2
  generalize userHasMode s m.chan o.ref 'o' = b3
  generalize userHasMode s m.chan o.ref 'h' = b4
  generalize userHasMode s m.chan x.ref 'q' = c1
  generalize userHasMode s m.chan x.ref 'a' = c2
  generalize userHasMode s m.chan x.ref 'o' = c3
  cases b1 <;> cases c1 <;> cases b2 <;> cases c2 <;> cases b3 <;> simp [or_comm]

theorem channelKick_Rem {s0 : Srv} {ps : List (Str × Str)} (hb : Base s) (h0 : Rem (KickOf s0 cl ps) s0 s) {x : Client} {a n reason : Str}
    (hn : clientSearch s n = some x) (hty : (s.cl cl).type = .user) (ha : (a, n) ∈ ps)
    (hmem : s.cl cl ∈ s.clients) (href : (s.cl cl).ref = cl) :
    Rem (KickOf s0 cl ps) s (channelKick s (s.cl cl) x (s.cl cl) a reason) := by
  simp only [channelKick]
  split
  · exact .core rfl
  · rename_i c hc
    have hcm := channelSearch_mem hc
    split
    · exact .core rfl
    · split
      · exact .core rfl
      · split
        · exact .core rfl
        · split
          · exact .core rfl
          · rename_i h1 h2 h3 h4
            refine (removeClient_Rem hb.ch hcm .kick x (s.cl cl) reason true).1.mono ?_
            rintro m hm ⟨g1, g2⟩
            have hx : x ∈ s.clients := clientSearch_mem hn
            refine ⟨c, h0.chans.subset hcm, g1.symm, ⟨?_, ?_, ?_⟩,
              x, h0.clients ▸ hx, g2.symm, (a, n), ha, channelSearch_case hc, search_name hn⟩
            · have : isMemberOf s c.ref (s.cl cl).ref = true := by
                simpa [hty] using h1
              obtain ⟨k, hk, k1, k2⟩ := isMemberOf_iff.1 this
              exact ⟨k, h0.sub.subset hk, k1, k2.trans href⟩
            · intro g
              have : (s.cl cl).hasMode 'o' = true := by
                have g' : (c.hasMode 'Q' || x.hasMode 'q' || decide (x.type = CType.service)) = true := by
                  have hxx : ∀ y ∈ s0.clients, y.ref = m.client → y = x := by
                    intro y hy he
                    rw [← h0.clients] at hy
                    rw [← cl_of_mem hb.cl.ord hy, he, g2, cl_of_mem hb.cl.ord hx]
                  rcases g with g | ⟨y, hy, e1, e2⟩ | ⟨y, hy, e1, e2⟩
                  · have : c.hasMode 'Q' = true := by simp [Chan.hasMode, hasChar_iff, g]
                    simp [this]
                  · have := hasMode_iff.2 e2
                    rw [hxx y hy e1] at this; simp [this]
                  · rw [hxx y hy e1] at e2; simp [e2]
                simpa [hty, g'] using h3
              exact ⟨s.cl cl, h0.clients ▸ hmem, href, hasMode_iff.1 this⟩
            · have hk : canKick s c.ref (s.cl cl) x (s.cl cl) = true := by simpa [hty] using h4
              rw [← g1, canKick_iff hb hm g2 (by rw [href]) hmem, href] at hk
              have hov : Override s cl → Override s0 cl := by
                rintro ⟨k1, k2⟩; exact ⟨h0.mode.1 k1, h0.conf ▸ k2⟩
              have hrk : ∀ c, HasRank s m.chan cl c → HasRank s0 m.chan cl c := fun c => h0.rank
              rcases hk with k | k | ⟨k, k'⟩ | ⟨k, k'⟩ | ⟨k, k'⟩
              · exact .inl (hov k)
              · exact .inr (.inl (hrk _ k))
              · exact .inr (.inr (.inl ⟨hrk _ k, k'⟩))
              · exact .inr (.inr (.inr (.inl ⟨hrk _ k, k'⟩)))
              · exact .inr (.inr (.inr (.inr ⟨hrk _ k, k'⟩)))

theorem kickLoop_Rem {s0 : Srv} {qs : List (Str × Str)} {reason : Str} {ps : List (Str × Str)} (hb : Base s)
    (h0 : Rem (KickOf s0 cl qs) s0 s) (hty : (s.cl cl).type = .user)
    (hmem : s.cl cl ∈ s.clients) (href : (s.cl cl).ref = cl) (hps : ∀ p ∈ ps, p ∈ qs) :
    Rem (KickOf s0 cl qs) s0 (kickLoop cl cl reason ps s) := by
  induction ps generalizing s with
  | nil => exact h0
  | cons p ps ih =>
    obtain ⟨a, n⟩ := p
    simp only [kickLoop]
    have h1 : Rem (KickOf s0 cl qs) s (tryKick s cl cl n a reason) := by
      simp only [tryKick]
      split
      · exact .core rfl
      · rename_i x hx
        exact channelKick_Rem hb h0 hx hty (hps _ (.head _)) hmem href
    have hcl := h1.cl cl
    refine ih ?_ (h0.trans h1) ?_ ?_ ?_ (fun p hp => hps p (.tail _ hp))
    · simp only [tryKick]
      split
      · exact Base.of_core (s := s) rfl hb
      · exact (channelKick_steps (x := { cmd := "KICK".toList }) (by unfold Ctx.is; decide) _ _ _ _ _).1.base hb
    · rw [hcl]; exact hty
    · rw [hcl, h1.clients]; exact hmem
    · rw [hcl]; exact href

/-- **C24** A KICK of a local user removes from channels only members it was entitled to remove,
by the ranks when the command was received, and only ones it has named, from the channels it has
named with them; nothing else changes, except that a channel nobody is left on goes away. -/
theorem C24_kick (h : Reachable s) (hr : Received s i l cl req) (his : Is req "KICK")
    (hty : (s.cl cl).type = .user) (rnd : Int) :
    (∀ m ∈ (step s (.line i rnd l)).cl2, m ∈ s.cl2) ∧
    (∀ m ∈ s.cl2, m ∈ (step s (.line i rnd l)).cl2 ∨
      ∃ c ∈ s.chans, c.ref = m.chan ∧ MayKick s cl c m ∧ ∃ x ∈ s.clients, x.ref = m.client ∧
        ∃ p ∈ kickPairs (pieces (req.arg 0)) (pieces (req.arg 1)), SameCase p.1 c.name ∧ SameCase x.id (nickPart p.2)) ∧
    (step s (.line i rnd l)).clients = s.clients ∧
    (∀ c ∈ (step s (.line i rnd l)).chans, c ∈ s.chans) ∧
    (∀ c ∈ s.chans, c ∈ (step s (.line i rnd l)).chans ∨
      ((∀ r, ¬ OnChannel (step s (.line i rnd l)) c.ref r) ∧ 'P' ∉ c.modes)) := by
  have hb := h.base
  have fin : ∀ {t}, Rem (KickOf s cl (kickPairs (pieces (req.arg 0)) (pieces (req.arg 1)))) s t →
    (∀ m ∈ t.cl2, m ∈ s.cl2) ∧
    (∀ m ∈ s.cl2, m ∈ t.cl2 ∨
      ∃ c ∈ s.chans, c.ref = m.chan ∧ MayKick s cl c m ∧ ∃ x ∈ s.clients, x.ref = m.client ∧
        ∃ p ∈ kickPairs (pieces (req.arg 0)) (pieces (req.arg 1)), SameCase p.1 c.name ∧ SameCase x.id (nickPart p.2)) ∧
    t.clients = s.clients ∧
    (∀ c ∈ t.chans, c ∈ s.chans) ∧
    (∀ c ∈ s.chans, c ∈ t.chans ∨
      ((∀ r, ¬ OnChannel t c.ref r) ∧ 'P' ∉ c.modes)) := fun {t} g => by
    refine ⟨g.sub.subset, g.lost, g.clients, g.chans.subset, fun c hc => ?_⟩
    refine (g.gone c hc).imp id (fun ⟨g1, g2, _⟩ => ⟨?_, g2⟩)
    rintro r ⟨m, hm, e, -⟩
    exact g1 m hm e
  apply fin
  rcases step_run hr hb rnd his rfl with ⟨hst, -⟩ | ha
  · have hst : step s (.line i rnd l) = (ircKICK (s.roll rnd) cl req).1 := hst
    rw [hst]
    obtain ⟨hmem, href, -, -⟩ := hr.owner hb
    have hg : getSender (s.roll rnd) cl req = .ok cl := by
      simp only [getSender, roll_cl, hty]; rfl
    simp only [ircKICK, hg, splitCommas_eq]
    have hb' : Base (s.roll rnd) := Base.of_core (s := s) rfl hb
    obtain ⟨qs, hqs⟩ : ∃ qs, qs = kickPairs (pieces (req.arg 0)) (pieces (req.arg 1)) := ⟨_, rfl⟩
    have h0 : Rem (KickOf s cl qs) s (s.roll rnd) := .core rfl
    rw [← hqs]
    split
    · rename_i hl
      obtain ⟨a, ha⟩ := List.length_eq_one_iff.1 hl
      refine kickLoop_Rem hb' h0 hty hmem href (fun p hp => ?_)
      rw [hqs, ha]; rw [ha] at hp
      exact hp
    · split
      · rename_i hl hl2
        refine kickLoop_Rem hb' h0 hty hmem href (fun p hp => ?_)
        rw [hqs, kickPairs_zip hl hl2]; exact hp
      · exact .core rfl
  · obtain ⟨o, r, e, -⟩ := ha
    exact Rem.core (by rw [e]; rfl)

/-- **C24** Several channels with another number of nick names: only an error. -/
theorem C24_unequal (h : Reachable s) (hr : Received s i l cl req) (his : Is req "KICK") (hty : (s.cl cl).type = .user) (rnd : Int)
    (hargs : 2 ≤ req.argv.length ∧ req.argv.length ≤ 3) (h1 : (pieces (req.arg 0)).length ≠ 1)
    (h2 : (pieces (req.arg 0)).length ≠ (pieces (req.arg 1)).length) :
    ∃ src, step s (.line i rnd l) = { s with out := ⟨i, src, ⟨"ERR_NEEDMOREPARAMS_MSG", [(s.cl cl).ID, req.command]⟩⟩ :: s.out, rnd := rnd } := by
  have hb := h.base
  have hst : step s (.line i rnd l) = (ircKICK (s.roll rnd) cl req).1 :=
    step_do hr rnd his rfl (by rw [hty]; rfl) (by
      simp only [Command.argcOk, Bool.and_eq_true, decide_eq_true_eq]; exact hargs)
  obtain ⟨hmem, href, hci, -⟩ := hr.owner hb
  have hg : getSender (s.roll rnd) cl req = .ok cl := by
    simp only [getSender, roll_cl, hty]; rfl
  have hhop : nextHop (s.roll rnd) (s.cl cl) = s.cl cl :=
    (Base.of_core (s := s) (t := s.roll rnd) rfl hb).nextHop_conn hmem (by rw [hci]; rfl)
  rw [hst]
  simp only [ircKICK, hg, splitCommas_eq, if_neg h1, if_neg h2, needMoreParams]
  refine ⟨some (getPrefix (s.roll rnd) (s.cl cl) ((s.roll rnd).cl s.this)), ?_⟩
  simp only [writeErr, write, writePrefix, lineTo, roll_cl, hhop, hci, Option.map_some, Option.toList, Option.isNone_some, Bool.or_false]
  rfl

example : ∃ req, Reachable Sample.s4 ∧ Received Sample.s4 5 "KICK #c,#d bob".toList 3 req ∧ Is req "KICK" ∧ (Sample.s4.cl 3).type = .user ∧
    (2 ≤ req.argv.length ∧ req.argv.length ≤ 3) ∧ (pieces (req.arg 0)).length ≠ 1 ∧ (pieces (req.arg 0)).length ≠ (pieces (req.arg 1)).length :=
  ⟨⟨none, "KICK".toList, ["#c,#d".toList, "bob".toList]⟩, Sample.reach_s4, recv_sound (by decide +kernel), by simp only [Is]; decide, by decide +kernel,
    by decide, by decide +kernel, by decide +kernel⟩

/-- **C24** Conversely: a KICK naming one channel and one member the user may remove, removes it. -/
theorem C24_effect (h : PoliteRun s) (hr : Received s i l cl req) (his : Is req "KICK")
    (hty : (s.cl cl).type = .user) (rnd : Int) (hargs : 2 ≤ req.argv.length ∧ req.argv.length ≤ 3)
    {a n : Str} {c : Chan} {x : Client} {m : Cl2Chan} (h1 : pieces (req.arg 0) = [a]) (h2 : pieces (req.arg 1) = [n])
    (hc : c ∈ s.chans) (hname : SameCase c.name a) (hx : x ∈ s.clients) (hn : nickPart n ≠ [])
    (hid : SameCase x.id (nickPart n)) (hm : m ∈ s.cl2) (hmc : m.chan = c.ref) (hmx : m.client = x.ref)
    (hmay : MayKick s cl c m) : ¬ OnChannel (step s (.line i rnd l)) c.ref x.ref := by
  have hb := h.reachable.base
  have hst : step s (.line i rnd l) = (ircKICK (s.roll rnd) cl req).1 :=
    step_do hr rnd his rfl (by rw [hty]; rfl) (by
      simp only [Command.argcOk, Bool.and_eq_true, decide_eq_true_eq]; exact hargs)
  obtain ⟨hmem, href, -, -⟩ := hr.owner hb
  have hg : getSender (s.roll rnd) cl req = .ok cl := by
    simp only [getSender, roll_cl, hty]; rfl
  have hxid : x.id ≠ [] := by
    intro he
    rw [he] at hid
    cases hnn : nickPart n with
    | nil => exact hn hnn
    | cons b bs => rw [hnn] at hid; have := (caseEq_same _ _).2 hid; cases this
  have hs1 : clientSearch (s.roll rnd) n = some x := by
    rw [roll_search]; exact (C13_lookup h n x).2 ⟨hx, hxid, hid⟩
  have hs2 : channelSearch (s.roll rnd) a = some c := (C13_channel_lookup h a c).2 ⟨hc, hname⟩
  have hb' : Base (s.roll rnd) := Base.of_core (s := s) rfl hb
  rw [hst]
  simp only [ircKICK, hg, splitCommas_eq, h1, h2, List.length_singleton, if_true, List.map_cons, List.map_nil,
    List.headD_cons, kickLoop, tryKick, hs1, channelKick, hs2]
  have g1 : isMemberOf (s.roll rnd) c.ref ((s.roll rnd).cl cl).ref = true := by
    obtain ⟨k, hk, k1, k2⟩ := hmay.on
    exact isMemberOf_iff.2 ⟨k, hk, k1, k2.trans href.symm⟩
  have g2 : isMemberOf (s.roll rnd) c.ref x.ref = true := isMemberOf_iff.2 ⟨m, hm, hmc, hmx⟩
  have g4 : canKick (s.roll rnd) c.ref ((s.roll rnd).cl cl) x ((s.roll rnd).cl cl) = true := by
    have := (canKick_iff hb' (m := m) hm hmx (o := (s.roll rnd).cl cl) (by rw [roll_cl]; exact congrArg s.cl href) hmem).2 (by
      rw [roll_cl, href]; exact hmay.rank)
    rw [← hmc]; exact this
  have g3 : ((c.hasMode 'Q' || x.hasMode 'q' || decide (x.type = CType.service)) &&
      !((s.roll rnd).cl cl).hasMode 'o') = false := by
    cases hq : (c.hasMode 'Q' || x.hasMode 'q' || decide (x.type = CType.service)) with
    | false => rfl
    | true =>
      have : HasUMode s cl 'o' := by
        refine hmay.shielded ?_
        simp only [Bool.or_eq_true, decide_eq_true_eq] at hq
        rcases hq with (hq | hq) | hq
        · exact .inl (by simpa [Chan.hasMode, hasChar_iff] using hq)
        · exact .inr (.inl ⟨x, hx, hmx.symm, hasMode_iff.1 hq⟩)
        · exact .inr (.inr ⟨x, hx, hmx.symm, hq⟩)
      obtain ⟨y, hy, e1, e2⟩ := this
      have : y = s.cl cl := by rw [← e1]; exact (cl_of_mem hb.cl.ord hy).symm
      rw [roll_cl, hasMode_iff.2 (this ▸ e2)]; rfl
  rw [g1, g2, g3, g4]
  simp only [Bool.not_true, Bool.and_false, Bool.false_eq_true, if_false]
  rintro ⟨k, hk, k1, k2⟩
  exact (removeClient_Rem hb'.ch (s := s.roll rnd) hc .kick x _ _ true).2 k hk ⟨k1, k2⟩

/-! ## Leaving -/

/-- The memberships a PART with these names gives up. -/
def PartOf (s : Srv) (r : Nat) (names : List Str) (m : Cl2Chan) : Prop :=
  m.client = r ∧ ∃ c ∈ s.chans, c.ref = m.chan ∧ ∃ a ∈ names, SameCase a c.name

theorem channelPart_Rem {s0 : Srv} {ns : List Str} (hb : Base s) (h0 : Rem (PartOf s0 cl ns) s0 s) {a reason : Str}
    (ha : a ∈ ns) (href : (s.cl cl).ref = cl) :
    Rem (PartOf s0 cl ns) s (channelPart s (s.cl cl) (s.cl cl) a reason).1 ∧
    ∀ c, channelSearch s a = some c → ¬ OnChannel (channelPart s (s.cl cl) (s.cl cl) a reason).1 c.ref cl := by
  simp only [channelPart]
  split
  · rename_i hc
    refine ⟨.core rfl, fun c h => ?_⟩
    rw [hc] at h; cases h
  · rename_i c hc
    have hcm := channelSearch_mem hc
    split
    · rename_i hm
      refine ⟨.core rfl, fun d hd => ?_⟩
      rw [hc] at hd; cases hd
      rintro ⟨k, hk, k1, k2⟩
      have : isMemberOf s c.ref (s.cl cl).ref = true := isMemberOf_iff.2 ⟨k, hk, k1, k2.trans href.symm⟩
      rw [this] at hm; cases hm
    · have hrm := removeClient_Rem hb.ch hcm .part (s.cl cl) (s.cl cl) (if s.conf.morePrivacy then [] else reason) true
      refine ⟨hrm.1.mono ?_, fun d hd => ?_⟩
      · rintro m hm ⟨g1, g2⟩
        exact ⟨g2.trans href, c, h0.chans.subset hcm, g1.symm, a, ha, channelSearch_case hc⟩
      · rw [hc] at hd; cases hd
        rintro ⟨k, hk, k1, k2⟩
        exact hrm.2 k hk ⟨k1, k2.trans href.symm⟩

theorem partLoop_Rem {s0 : Srv} {ns : List Str} {reason : Str} {ps : List Str} (hb : Base s)
    (h0 : Rem (PartOf s0 cl ns) s0 s) (href : (s.cl cl).ref = cl) (hps : ∀ p ∈ ps, p ∈ ns) :
    Rem (PartOf s0 cl ns) s0 (partLoop cl cl reason ps s) ∧
    Rem (PartOf s0 cl ns) s (partLoop cl cl reason ps s) ∧
    ∀ a ∈ ps, ∀ c ∈ s.chans, (∀ u, Rem (PartOf s0 cl ns) s u → c ∈ u.chans → channelSearch u a = some c) →
      ¬ OnChannel (partLoop cl cl reason ps s) c.ref cl := by
  induction ps generalizing s with
  | nil => exact ⟨h0, .core rfl, fun a ha => nomatch ha⟩
  | cons a ps ih =>
    simp only [partLoop]
    obtain ⟨h1, h2⟩ := channelPart_Rem hb h0 (a := a) (reason := reason) (hps a (.head _)) href
    have hcl := h1.cl cl
    have hb1 := (channelPart_steps (x := { peer := True }) (s.cl cl) (s.cl cl) a reason (.inl trivial)).1.base hb
    obtain ⟨k1, k2, k3⟩ := ih hb1 (h0.trans h1) (by rw [hcl]; exact href) (fun p hp => hps p (.tail _ hp))
    refine ⟨k1, h1.trans k2, fun b hb' c hc hu => ?_⟩
    rcases List.mem_cons.1 hb' with rfl | hb'
    · have := h2 c (hu s (.core rfl) hc)
      rintro ⟨k, hk, e1, e2⟩
      exact this ⟨k, k2.sub.subset hk, e1, e2⟩
    · by_cases hc1 : c ∈ (channelPart s (s.cl cl) (s.cl cl) a reason).1.chans
      · exact k3 b hb' c hc1 (fun u hu' => hu u (h1.trans hu'))
      · rcases h1.gone c hc with g | ⟨g, -⟩
        · exact absurd g hc1
        · rintro ⟨k, hk, e1, e2⟩
          exact g k (k2.sub.subset hk) e1

theorem part_Rem (h : Reachable s) (hr : Received s i l cl req) (his : Is req "PART")
    (hty : (s.cl cl).type = .user) (rnd : Int) :
    Rem (PartOf s cl (items (req.arg 0))) s (step s (.line i rnd l)) := by
  have hb := h.base
  rcases step_run hr hb rnd his rfl with ⟨hst, -⟩ | ha
  · have hst : step s (.line i rnd l) = (ircPART (s.roll rnd) cl req).1 := hst
    rw [hst]
    obtain ⟨hmem, href, -, -⟩ := hr.owner hb
    have hg : getSender (s.roll rnd) cl req = .ok cl := by
      simp only [getSender, roll_cl, hty]; rfl
    simp only [ircPART, hg, strtok_items]
    split
    · exact .core rfl
    · exact (partLoop_Rem (s := s.roll rnd) (s0 := s) (ns := items (req.arg 0)) (Base.of_core (s := s) rfl hb) (.core rfl) href (fun _ h => h)).1
  · obtain ⟨o, r, e, -⟩ := ha
    exact Rem.core (by rw [e]; rfl)

/-- **C47** A PART of a local user ends memberships of its own, on channels it has named, and
nothing else: nobody gets on a channel or gains a rank, and all others keep theirs. -/
theorem C47_part (h : Reachable s) (hr : Received s i l cl req) (his : Is req "PART")
    (hty : (s.cl cl).type = .user) (rnd : Int) :
    (∀ m ∈ (step s (.line i rnd l)).cl2, m ∈ s.cl2) ∧
    (∀ m ∈ s.cl2, m ∈ (step s (.line i rnd l)).cl2 ∨
      (m.client = cl ∧ ∃ c ∈ s.chans, c.ref = m.chan ∧ ∃ a ∈ items (req.arg 0), SameCase a c.name)) ∧
    (step s (.line i rnd l)).clients = s.clients ∧
    (∀ c ∈ (step s (.line i rnd l)).chans, c ∈ s.chans) ∧
    (∀ c ∈ s.chans, c ∈ (step s (.line i rnd l)).chans ∨
      ((∀ r, ¬ OnChannel (step s (.line i rnd l)) c.ref r) ∧ 'P' ∉ c.modes)) := by
  have g := part_Rem h hr his hty rnd
  refine ⟨g.sub.subset, g.lost, g.clients, g.chans.subset, fun c hc => ?_⟩
  refine (g.gone c hc).imp id (fun ⟨g1, g2, _⟩ => ⟨?_, g2⟩)
  rintro r ⟨m, hm, e, -⟩
  exact g1 m hm e

/-- **C47** After its PART a user is on none of the channels it has named, so it has no rank there
either. -/
theorem C47_left (h : PoliteRun s) (hr : Received s i l cl req) (his : Is req "PART")
    (hty : (s.cl cl).type = .user) (rnd : Int) (hargs : 1 ≤ req.argv.length ∧ req.argv.length ≤ 2)
    {a : Str} {c : Chan} (ha : a ∈ items (req.arg 0)) (hc : c ∈ s.chans) (hname : SameCase c.name a) :
    ¬ OnChannel (step s (.line i rnd l)) c.ref cl ∧ ∀ m, ¬ HasRank (step s (.line i rnd l)) c.ref cl m := by
  have hb := h.reachable.base
  have key : ¬ OnChannel (step s (.line i rnd l)) c.ref cl := by
    have hst : step s (.line i rnd l) = (ircPART (s.roll rnd) cl req).1 :=
      step_do hr rnd his rfl (by rw [hty]; rfl) (by
        simp only [Command.argcOk, Bool.and_eq_true, decide_eq_true_eq]; exact hargs)
    rw [hst]
    obtain ⟨hmem, href, -, -⟩ := hr.owner hb
    have hg : getSender (s.roll rnd) cl req = .ok cl := by
      simp only [getSender, roll_cl, hty]; rfl
    simp only [ircPART, hg, strtok_items]
    split
    · rename_i he; rw [he] at ha; cases ha
    · refine (partLoop_Rem (s := s.roll rnd) (ns := items (req.arg 0)) (s0 := s) (Base.of_core (s := s) rfl hb) (.core rfl) href (fun _ h => h)).2.2 a ha c hc ?_
      intro u hu hcu
      have hi := polite_chan h
      cases hs : channelSearch u a with
      | none =>
        have := channelSearch_none (fun d hd => hi.hash d (hu.chans.subset hd)) hs c hcu
        have h2 := (caseEq_same _ _).2 hname
        rw [caseEq_comm, h2] at this; cases this
      | some d =>
        have h1 := channelSearch_case hs
        have hd := hu.chans.subset (channelSearch_mem hs)
        have h2 := (C13_channel_lookup h a d).2 ⟨hd, (caseEq_same _ _).1 (by
          rw [caseEq_comm]; exact (caseEq_same _ _).2 h1)⟩
        rw [← h2]; exact (C13_channel_lookup h a c).2 ⟨hc, hname⟩
  exact ⟨key, fun m ⟨k, hk, e1, e2, _⟩ => key ⟨k, hk, e1, e2⟩⟩

/-- **C47** Whoever joins an existing channel it was not on starts without privileges, whatever
it had there before it left (except IRC operators on channels with mode `P`, if so configured). -/
theorem C47_rejoin (h : Reachable s) (hr : Received s i l cl req) (his : Is req "JOIN")
    (hty : (s.cl cl).type = .user) (rnd : Int) {c : Chan} (hc : c ∈ s.chans) (hoff : ¬ OnChannel s c.ref cl) (m : Char) :
    HasRank (step s (.line i rnd l)) c.ref cl m → m ∈ rankOnJoin s (s.cl cl) c := by
  rintro ⟨k, hk, e1, e2, e3⟩
  rcases C19_join h hr his hty rnd hk with g | ⟨-, ⟨d, hd, g1, -, g3⟩ | ⟨d, hd, g1, g2, -⟩⟩
  · exact absurd ⟨k, g, e1, e2⟩ hoff
  · rw [← chan_eq_of_ref h.base.ch hd hc (g1.trans e1), ← g3]; exact e3
  · exact absurd (g1.trans e1).symm (g2 c hc)

/-! ## Cases -/

/-- Alice, operator, removes Bob. -/
example : ∃ req a n c x m, PoliteRun Sample.s4 ∧ Received Sample.s4 5 "KICK #c bob :out".toList 3 req ∧
    Is req "KICK" ∧ (Sample.s4.cl 3).type = .user ∧ (2 ≤ req.argv.length ∧ req.argv.length ≤ 3) ∧
    pieces (req.arg 0) = [a] ∧ pieces (req.arg 1) = [n] ∧ c ∈ Sample.s4.chans ∧ SameCase c.name a ∧
    x ∈ Sample.s4.clients ∧ nickPart n ≠ [] ∧ SameCase x.id (nickPart n) ∧ m ∈ Sample.s4.cl2 ∧ m.chan = c.ref ∧
    m.client = x.ref ∧ MayKick Sample.s4 3 c m :=
  ⟨⟨none, "KICK".toList, ["#c".toList, "bob".toList, "out".toList]⟩, "#c".toList, "bob".toList,
    Sample.s4.chan 5, Sample.s4.cl 4, ⟨4, 5, []⟩,
    Sample.fine_s4.mono (fun _ h => h.1) (fun _ _ h => h.1), recv_sound (by decide +kernel),
    by simp only [Is]; decide, by decide +kernel, by decide, by decide, by decide, by decide +kernel,
    (caseEq_same _ _).1 (by decide +kernel), by decide +kernel, by decide, (caseEq_same _ _).1 (by decide +kernel),
    by decide +kernel, by decide +kernel, by decide +kernel,
    ⟨by decide +kernel, by simp only [HasUMode]; decide +kernel, .inr (.inr (.inr (.inl (by
      simp only [HasRank]; decide +kernel))))⟩⟩

/-- Bob, without rank, tries to remove Alice: she stays. -/
example : ∃ req, Reachable Sample.s4 ∧ Received Sample.s4 6 "KICK #c alice".toList 4 req ∧
    Is req "KICK" ∧ (Sample.s4.cl 4).type = .user ∧
    OnChannel (step Sample.s4 (.line 6 0 "KICK #c alice".toList)) 5 3 :=
  ⟨⟨none, "KICK".toList, ["#c".toList, "alice".toList]⟩, Sample.reach_s4,
    recv_sound (by decide +kernel), by simp only [Is]; decide, by decide +kernel, by decide +kernel⟩

/-- Alice leaves, and comes back without being operator. -/
example : ∃ req req', PoliteRun Sample.s4 ∧ Received Sample.s4 5 "PART #x,#C".toList 3 req ∧
    Is req "PART" ∧ (Sample.s4.cl 3).type = .user ∧ (1 ≤ req.argv.length ∧ req.argv.length ≤ 2) ∧
    "#C".toList ∈ items (req.arg 0) ∧ Sample.s4.chan 5 ∈ Sample.s4.chans ∧
    SameCase (Sample.s4.chan 5).name "#C".toList ∧ OnChannel Sample.s4 5 3 ∧
    Reachable (Sample.lines Sample.s4 5 ["PART #x,#C"]) ∧
    Received (Sample.lines Sample.s4 5 ["PART #x,#C"]) 5 "JOIN #c".toList 3 req' ∧ Is req' "JOIN" ∧
    ¬ OnChannel (Sample.lines Sample.s4 5 ["PART #x,#C"]) 5 3 ∧
    OnChannel (Sample.lines Sample.s4 5 ["PART #x,#C", "JOIN #c"]) 5 3 :=
  ⟨⟨none, "PART".toList, ["#x,#C".toList]⟩, ⟨none, "JOIN".toList, ["#c".toList]⟩,
    Sample.fine_s4.mono (fun _ h => h.1) (fun _ _ h => h.1), recv_sound (by decide +kernel),
    by simp only [Is]; decide, by decide +kernel, by decide, by decide, by decide +kernel,
    (caseEq_same _ _).1 (by decide +kernel), by decide +kernel,
    Sample.reach_lines Sample.reach_s4 _ _ (by decide +kernel), recv_sound (by decide +kernel), by simp only [Is]; decide,
    by decide +kernel, by decide +kernel⟩

end Ngircd
