import Verif.Props.Announce
import Verif.Props.Join

/-!
# C60: INVITE
-/

set_option linter.unusedSimpArgs false

namespace Ngircd
open Spec

variable {s u : Srv} {i : Nat} {l : Str} {cl : Nat} {req : Request} {f x : Client} {c : Chan} {n a : Str}

/-- The answers to an INVITE. -/
def inviteReplies (f x : Client) (n a : Str) : List Msg :=
  if x.conn = none then [] else
    (if 'a' ∈ x.modes then [⟨"RPL_AWAY_MSG", [f.ID, x.ID, x.away.getD []]⟩] else []) ++ [⟨"RPL_INVITING_MSG", [f.ID, n, a]⟩]

theorem invite_sent {k : Nat} (hf : (nextHop s f).conn = some i) (hkh : (nextHop s x).conn = some k) (rnd : Int) :
    ∃ p, Emitted s (inviteSend (s.roll rnd) f x n a)
      (p ++ [⟨k, some (if (nextHop s x).type = .server then f.ID else maskCloaked s f), ⟨"INVITE", [n, a]⟩⟩]) ∧
      (∀ y ∈ p, y.conn = i) ∧ p.map Sent.msg = inviteReplies f x n a := by
  have h0 : Emitted s (s.roll rnd) [] := ⟨rnd, rfl⟩
  have h1 := emitted_then h0 hkh f ⟨"INVITE", [n, a]⟩
  simp only [inviteSend]
  cases hc : x.conn with
  | none =>
    simp only [Option.isSome_none, Bool.false_eq_true, if_false]
    exact ⟨[], h1, fun _ h => (by cases h), by simp only [inviteReplies, if_pos hc]; rfl⟩
  | some j =>
    simp only [Option.isSome_some, if_true]
    have hthis : ∀ {w : Srv} {o : List Sent}, Emitted s w o → w.cl w.this = s.cl s.this := by
      rintro w o ⟨r, rfl⟩; rfl
    have h2 := emitted_then h1 hf (s.cl s.this) ⟨"RPL_INVITING_MSG", [f.ID, n, a]⟩
    have e2 : write (writePrefix (s.roll rnd) x f ⟨"INVITE", [n, a]⟩) f ⟨"RPL_INVITING_MSG", [f.ID, n, a]⟩ =
        writePrefix (writePrefix (s.roll rnd) x f ⟨"INVITE", [n, a]⟩) f (s.cl s.this) ⟨"RPL_INVITING_MSG", [f.ID, n, a]⟩ := by
      simp only [write, hthis h1]
    rw [e2]
    generalize writePrefix (writePrefix (s.roll rnd) x f ⟨"INVITE", [n, a]⟩) f (s.cl s.this) ⟨"RPL_INVITING_MSG", [f.ID, n, a]⟩ = w at h2
    by_cases ha : 'a' ∈ x.modes
    · rw [if_pos (hasMode_iff.2 ha)]
      have h3 := emitted_then h2 hf (s.cl s.this) ⟨"RPL_AWAY_MSG", [f.ID, x.ID, x.away.getD []]⟩
      have e3 : write w f ⟨"RPL_AWAY_MSG", [f.ID, x.ID, x.away.getD []]⟩ = writePrefix w f (s.cl s.this) ⟨"RPL_AWAY_MSG", [f.ID, x.ID, x.away.getD []]⟩ := by
        simp only [write, hthis h2]
      rw [e3]
      refine ⟨[_, _], h3, ?_, ?_⟩
      · intro y hy; simp only [List.mem_cons, List.not_mem_nil, or_false] at hy; rcases hy with rfl | rfl <;> rfl
      · simp only [inviteReplies, if_neg (show ¬ x.conn = none by rw [hc]; simp), if_pos ha]; rfl
    · rw [if_neg (fun hh => ha (hasMode_iff.1 hh))]
      refine ⟨[_], h2, ?_, ?_⟩
      · intro y hy; simp only [List.mem_cons, List.not_mem_nil, or_false] at hy; rw [hy]
      · simp only [inviteReplies, if_neg (show ¬ x.conn = none by rw [hc]; simp), if_neg ha]; rfl

theorem behind_user (h : PoliteRun s) (hx : x ∈ s.clients) (hxt : x.type = .user) :
    ∃ k, Behind s k x ∧ (nextHop s x).conn = some k ∧ (if (nextHop s x).type = .server then f.ID else maskCloaked s f) = shownAs s f k := by
  have hb := h.reachable.base
  have hxn : x.ref ≠ s.this := by
    intro he
    obtain ⟨g1, g2, g3, -⟩ := hb.this_mem
    rw [hb.cl.ord.eq_of_ref hx g1 (he.trans g2.symm), g3] at hxt
    cases hxt
  obtain ⟨k, -, -, hk, -⟩ := behind_some hb (polite_kind h) x.ref x hx (Nat.le_refl _) hxn
  have hkh : (nextHop s x).conn = some k := (nextHop_conn hb hx).2 hk
  have hnm := nextHop_mem hx (by rw [hkh]; rfl)
  exact ⟨k, hk, hkh, by simp only [shownAs, isLink_iff hb hnm hkh, decide_eq_true_eq]⟩

theorem inviteRefusal_iff (hb : Base s) : inviteRefusal s f x c = none ↔ MayInvite s f.ref x.ref c := by
  have hmode : ∀ m, c.hasMode m = true ↔ m ∈ c.modes := fun m => by simp [Chan.hasMode, hasChar_iff]
  have hrk : ∀ m, userHasMode s c.ref f.ref m = true ↔ HasRank s c.ref f.ref m := fun m => userHasMode_iff hb.ch
  have hon : ∀ r, isMemberOf s c.ref r = true ↔ OnChannel s c.ref r := fun r => isMemberOf_iff
  simp only [inviteRefusal]
  constructor
  · intro h
    split at h
    · cases h
    · rename_i h1
      split at h
      · cases h
      · rename_i h2
        split at h
        · cases h
        · rename_i h3
          split at h
          · cases h
          · rename_i h4
            refine ⟨(hon _).1 (by simpa using h1), fun g => h2 ((hmode _).2 g), fun g => ?_, fun g => h4 ((hon _).2 g)⟩
            have g' := (hmode 'i').2 g
            simp only [← hrk]
            rw [g'] at h3
            revert h3
            cases userHasMode s c.ref f.ref 'q' <;> cases userHasMode s c.ref f.ref 'a' <;> cases userHasMode s c.ref f.ref 'o' <;>
              cases userHasMode s c.ref f.ref 'h' <;> decide
  · intro h
    rw [if_neg (by simp [(hon _).2 h.on]), if_neg (fun g => h.free ((hmode _).1 g)), if_neg, if_neg (fun g => h.out ((hon _).1 g))]
    intro g
    simp only [Bool.and_eq_true, Bool.not_eq_true'] at g
    obtain ⟨⟨⟨⟨g0, g1⟩, g2⟩, g3⟩, g4⟩ := g
    have := h.rank ((hmode _).1 g0)
    simp only [← hrk, g1, g2, g3, g4] at this
    simp at this

/-- What INVITE does to the channel. -/
def inviteKeep (s : Srv) (f x : Client) (rm : Bool) (d : Chan) : Chan :=
  { d with bans := (listsCheck d.bans (masksOf s x)).1, invites := if rm = true then (listsAdd true d.invites (maskCloaked s x) s.now (some f.ID) true).1 else d.invites }

/-- Commands an INVITE leads to. -/
theorem invite_run (h : PoliteRun s) (hr : Received s i l cl req) (his : Is req "INVITE") (hty : (s.cl cl).type = .user ∨ (s.cl cl).type = .server)
    (hargs : req.argv = [n, a]) (hf : Originator s cl req f) (hfu : f.type ≠ .server) (rnd : Int) :
    step s (.line i rnd l) = (ircINVITE (s.roll rnd) cl req).1 ∧ getSender (s.roll rnd) cl req = .ok f.ref ∧
      (s.roll rnd).cl f.ref = f ∧ req.arg 0 = n ∧ req.arg 1 = a ∧ (nextHop s f).conn = some i := by
  have hb := h.reachable.base
  refine ⟨step_do hr rnd his rfl (by rcases hty with e | e <;> rw [e] <;> rfl) (by simp only [Command.argcOk, Request.argc, hargs]; rfl),
    (sender_is h hr hf hfu rnd).1, cl_of_mem hb.cl.ord hf.1, ?_, ?_, (msgFrom_originator h hr hf).2.2.1⟩
  · simp only [Request.arg, hargs]; rfl
  · simp only [Request.arg, hargs]; rfl

/-- **C60** An invitation to a channel that does not exist is passed on; nothing else happens. -/
theorem C60_no_channel (h : PoliteRun s) (hr : Received s i l cl req) (his : Is req "INVITE")
    (hty : (s.cl cl).type = .user ∨ (s.cl cl).type = .server) (hargs : req.argv = [n, a]) (hf : Originator s cl req f) (hfu : f.type ≠ .server)
    (hx : x ∈ s.clients) (hxt : x.type = .user) (hid : x.id ≠ []) (hxn : SameCase x.id (nickPart n)) (hloc : a.head? = some '&' → x.conn ≠ none)
    (hno : ∀ d ∈ s.chans, ¬ SameCase d.name a) (rnd : Int) :
    ∃ o, Emitted s (step s (.line i rnd l)) o ∧ InviteTold s i f x n a o := by
  have hb := h.reachable.base
  obtain ⟨hst, hg, hfc, e0, e1, hhop⟩ := invite_run h hr his hty hargs hf hfu rnd
  have hs1 : clientSearch (s.roll rnd) n = some x := by rw [roll_search]; exact (C13_lookup h n x).2 ⟨hx, hid, hxn⟩
  have hs2 : channelSearch (s.roll rnd) a = none := by
    cases hq : channelSearch (s.roll rnd) a with
    | none => rfl
    | some c => have := (C13_channel_lookup h a c).1 hq; exact absurd this.2 (hno c this.1)
  rw [hst]
  simp only [ircINVITE, hg, hfc, e0, e1, hs1, hs2]
  rw [if_neg (by rw [hxt]; exact fun h => h rfl), if_neg]
  · obtain ⟨k, hk, hkh, hsh⟩ := behind_user (f := f) h hx hxt
    obtain ⟨p, g1, g2, g3⟩ := invite_sent (n := n) (a := a) hhop hkh rnd
    rw [hsh] at g1
    exact ⟨_, g1, k, p, hk, rfl, g2, g3⟩
  · intro hh
    simp only [Bool.and_eq_true, decide_eq_true_eq] at hh
    have := hloc hh.1
    cases hc : x.conn with
    | none => exact this hc
    | some _ => rw [hc] at hh; cases hh.2

/-- **C60** An invitation to a channel by somebody who may invite is passed on to the invited user only; if it is needed to get in,
as the channel is invite-only or the user is banned, it is remembered, to be used once; nothing else happens. -/
theorem C60_invited (h : PoliteRun s) (hr : Received s i l cl req) (his : Is req "INVITE")
    (hty : (s.cl cl).type = .user ∨ (s.cl cl).type = .server) (hargs : req.argv = [n, a]) (hf : Originator s cl req f) (hfu : f.type ≠ .server)
    (hx : x ∈ s.clients) (hxt : x.type = .user) (hid : x.id ≠ []) (hxn : SameCase x.id (nickPart n)) (hloc : a.head? = some '&' → x.conn ≠ none)
    (hc : c ∈ s.chans) (hname : SameCase c.name a) (hmay : MayInvite s f.ref x.ref c) (rnd : Int) :
    ∃ o r inv, step s (.line i rnd l) = { withInvites s c.ref inv with out := o ++ s.out, rnd := r } ∧ InviteTold s i f x n a o ∧
      (('i' ∈ c.modes ∨ Covers s c.bans x) → inv = (listsAdd true c.invites (maskCloaked s x) s.now (some f.ID) true).1) ∧
      (¬ ('i' ∈ c.modes ∨ Covers s c.bans x) → inv = c.invites) := by
  have hb := h.reachable.base
  obtain ⟨hst, hg, hfc, e0, e1, hhop⟩ := invite_run h hr his hty hargs hf hfu rnd
  have hs1 : clientSearch (s.roll rnd) n = some x := by rw [roll_search]; exact (C13_lookup h n x).2 ⟨hx, hid, hxn⟩
  have hs2 : channelSearch (s.roll rnd) a = some c := (C13_channel_lookup h a c).2 ⟨hc, hname⟩
  have hbr : Base (s.roll rnd) := Base.of_core (s := s) rfl hb
  have hr0 : inviteRefusal (s.roll rnd) f x c = none := (inviteRefusal_iff hbr).2 ⟨hmay.on, hmay.free, hmay.rank, hmay.out⟩
  have honce := h.reachable.once c hc
  have hbn : (listsCheck c.bans (masksOf (s.roll rnd) x)).1 = c.bans := listsCheck_once _ (fun e h => honce e (.inl h))
  have hrem : (c.hasMode 'i' || (listsCheck c.bans (masksOf (s.roll rnd) x)).2) = true ↔ ('i' ∈ c.modes ∨ Covers s c.bans x) := by
    rw [Bool.or_eq_true]
    refine or_congr (by simp [Chan.hasMode, hasChar_iff]) ?_
    exact covers_iff (s := s.roll rnd)
  rw [hst]
  simp only [ircINVITE, hg, hfc, e0, e1, hs1, hs2, hr0]
  rw [if_neg (by rw [hxt]; exact fun h => h rfl), if_neg]
  · generalize hrm : (c.hasMode 'i' || (listsCheck c.bans (masksOf (s.roll rnd) x)).2) = rm at hrem
    simp only
    have hu : ((s.roll rnd).updChan c.ref (inviteKeep (s.roll rnd) f x rm)) =
        (withInvites s c.ref (if rm = true then (listsAdd true c.invites (maskCloaked s x) s.now (some f.ID) true).1 else c.invites)).roll rnd := by
      rw [← updChan_const hbr.ch (c := c) hc (g := inviteKeep (s.roll rnd) f x rm)]
      simp only [inviteKeep, hbn, Srv.updChan, withInvites, Srv.roll]
      congr 1
      refine List.map_congr_left (fun d hd => ?_)
      by_cases e : d.ref = c.ref
      · have : d = c := chan_eq_of_ref hb.ch hd hc e
        subst this
        rw [if_pos rfl, if_pos rfl]
        have hbn' := hbn
        simp only [Srv.roll] at hbn'
        rw [hbn']
        rfl
      · rw [if_neg e, if_neg e]
    generalize hinv : (if rm = true then (listsAdd true c.invites (maskCloaked s x) s.now (some f.ID) true).1 else c.invites) = inv at hu
    have hlike : Like s (withInvites s c.ref inv) := ⟨rfl, rfl, rfl, rfl, rfl⟩
    obtain ⟨k, hk, hkh, hsh⟩ := behind_user (f := f) h hx hxt
    obtain ⟨p, ⟨r, g1⟩, g2, g3⟩ := invite_sent (s := withInvites s c.ref inv) (f := f) (x := x) (n := n) (a := a) (i := i) (k := k)
      (by rw [hlike.hop]; exact hhop) (by rw [hlike.hop]; exact hkh) rnd
    rw [hlike.hop, hlike.mask, hsh] at g1
    refine ⟨_, r, inv, ?_, ⟨k, p, hk, rfl, g2, g3⟩, fun hh => ?_, fun hh => ?_⟩
    · rw [← hu] at g1
      exact g1
    · rw [← hinv, if_pos (hrem.2 hh)]
    · rw [← hinv, if_neg (fun g => hh (hrem.1 g))]
  · intro hh
    simp only [Bool.and_eq_true, decide_eq_true_eq] at hh
    have := hloc hh.1
    cases hc : x.conn with
    | none => exact this hc
    | some _ => rw [hc] at hh; cases hh.2

theorem glob_self (p : Str) : Glob p p := by
  induction p with
  | nil => exact .nil
  | cons c p ih =>
    by_cases h1 : c = '*'
    · subst h1; exact .star ['*'] ih
    · by_cases h2 : c = '?'
      · subst h2; exact .any '?' ih
      · exact .lit c h1 h2 ih

/-- **C60** A remembered invitation covers the invited user: it gets it past bans and the invite-only mode (see C18), once (see C30). -/
theorem C60_remembered (hxt : x.type ≠ .server) (hg : GoodMask (lowerStr (maskCloaked s x))) (inv : MaskList) (who : Option Str) :
    Covers s (listsAdd true inv (maskCloaked s x) s.now who true).1 x := by
  have hlen : (maskCloaked s x).length ≤ 115 := by
    simp only [maskCloaked, Client.mask, if_neg hxt, GETID_LEN]
    split <;> (rw [List.length_take]; exact Nat.min_le_left _ _)
  have he := (C28_add inv (maskCloaked s x) s.now who true (by omega) (maskCloaked s x)).2
  rw [if_pos (SameCase.refl _)] at he
  obtain ⟨e, hm, hp⟩ : ∃ e ∈ (listsAdd true inv (maskCloaked s x) s.now who true).1, caseEq e.mask (maskCloaked s x) = true := by
    simp only [entryOf] at he
    have h2 := List.find?_some he
    exact ⟨_, List.mem_of_find?_eq_some he, h2⟩
  refine ⟨e, hm, .inr ?_⟩
  have hl : lowerStr e.mask = lowerStr (maskCloaked s x) := (caseEq_iff _ _).1 hp
  have hll : e.mask.length = (maskCloaked s x).length := by
    have := congrArg List.length hl
    simpa [lowerStr] using this
  exact C03_case_insensitive_complete_partial _ _ (by omega) (by omega) (by rw [hl]; exact hg) (by rw [hl]; exact glob_self _)

/-- **C60** Nobody is invited by those who may not, to a local channel from afar, or under a name no user has: the command is only answered. -/
theorem C60_refused (h : PoliteRun s) (hr : Received s i l cl req) (his : Is req "INVITE")
    (hty : (s.cl cl).type = .user ∨ (s.cl cl).type = .server) (hargs : req.argv = [n, a]) (hf : Originator s cl req f) (hfu : f.type ≠ .server)
    (hno : ∀ x ∈ s.clients, x.type = .user → x.id ≠ [] → SameCase x.id (nickPart n) →
      (a.head? = some '&' ∧ x.conn = none) ∨ ∃ c ∈ s.chans, SameCase c.name a ∧ ¬ MayInvite s f.ref x.ref c) (rnd : Int) :
    Answered i s (step s (.line i rnd l)) := by
  have hb := h.reachable.base
  obtain ⟨hst, hg, hfc, e0, e1, hhop⟩ := invite_run h hr his hty hargs hf hfu rnd
  have hbr : Base (s.roll rnd) := Base.of_core (s := s) rfl hb
  have hhop' : (nextHop (s.roll rnd) f).conn = some i := by
    rw [nextHop_core (s := s) (t := s.roll rnd) rfl]; exact hhop
  rw [hst]
  refine Reply.ans (r := rnd) ?_
  simp only [ircINVITE, hg, hfc, e0, e1]
  cases hs1 : clientSearch (s.roll rnd) n with
  | none => exact rp_writeErr hhop' (rp_refl _ _)
  | some x =>
    simp only
    split
    · exact rp_writeErr hhop' (rp_refl _ _)
    · rename_i hxt
      split
      · exact rp_writeErr hhop' (rp_refl _ _)
      · rename_i hl
        have hxt : x.type = .user := by
          cases he : x.type <;> first | rfl | (rw [he] at hxt; exact absurd (by decide) hxt)
        obtain ⟨k1, k2, k3⟩ := (C13_lookup h n x).1 hs1
        rcases hno x k1 hxt k2 k3 with ⟨m1, m2⟩ | ⟨c, m1, m2, m3⟩
        · exact absurd (by simp [m1, m2]) hl
        · have hs2 : channelSearch (s.roll rnd) a = some c := (C13_channel_lookup h a c).2 ⟨m1, m2⟩
          simp only [hs2]
          cases hq : inviteRefusal (s.roll rnd) f x c with
          | none =>
            have := (inviteRefusal_iff hbr).1 hq
            exact absurd ⟨this.on, this.free, this.rank, this.out⟩ m3
          | some e => exact rp_writeErr hhop' (rp_refl _ _)

/-! ## Examples -/

/-- The channel #i, founded by alice, is invite-only, and alice invites bob. -/
def Sample.s5i : Srv := Sample.lines Sample.s5 5 ["JOIN #i", "MODE #i +i"]

theorem s5i_off : (Sample.s5i.chan 8).ref = 8 ∧ ¬ OnChannel Sample.s5i 8 4 := by decide +kernel

theorem polite_s5i : PoliteRun Sample.s5i :=
  (Sample.fine_lines Sample.fine_s5 5 ["JOIN #i", "MODE #i +i"] (by decide +kernel)).mono (fun _ h => h.1) (fun _ _ h => h.1)

example : ∃ req c, PoliteRun Sample.s5i ∧ Received Sample.s5i 5 "INVITE Bob #I".toList 3 req ∧ Is req "INVITE" ∧ (Sample.s5i.cl 3).type = .user ∧
    req.argv = ["Bob".toList, "#I".toList] ∧ Originator Sample.s5i 3 req (Sample.s5i.cl 3) ∧ (Sample.s5i.cl 3).type ≠ .server ∧
    Sample.s5i.cl 4 ∈ Sample.s5i.clients ∧ (Sample.s5i.cl 4).type = .user ∧ SameCase (Sample.s5i.cl 4).id (nickPart "Bob".toList) ∧
    c ∈ Sample.s5i.chans ∧ SameCase c.name "#I".toList ∧ MayInvite Sample.s5i 3 4 c ∧ 'i' ∈ c.modes ∧ GoodMask (lowerStr (maskCloaked Sample.s5i (Sample.s5i.cl 4))) :=
  ⟨⟨none, "INVITE".toList, ["Bob".toList, "#I".toList]⟩, Sample.s5i.chan 8, polite_s5i, recv_sound (by decide +kernel), by simp only [Is]; decide, by decide +kernel, rfl,
    ⟨by decide +kernel, .inr ⟨by decide +kernel, by decide +kernel⟩⟩, by decide +kernel, by decide +kernel, by decide +kernel,
    (caseEq_same _ _).1 (by decide +kernel), by decide +kernel, (caseEq_same _ _).1 (by decide +kernel),
    ⟨by decide +kernel, by decide +kernel, fun _ => .inr (.inr (.inl ⟨⟨3, 8, ['o']⟩, by decide +kernel, by decide +kernel, rfl, by decide⟩)), by decide +kernel⟩, by decide +kernel,
    ⟨fun pre post w e => (by
        have h1 : '\\' ∈ lowerStr (maskCloaked Sample.s5i (Sample.s5i.cl 4)) := by rw [e]; simp
        exact absurd h1 (by decide +kernel)), fun pre e => (by
        have h1 : '*' ∈ lowerStr (maskCloaked Sample.s5i (Sample.s5i.cl 4)) := by rw [e]; simp
        exact absurd h1 (by decide +kernel))⟩⟩

/-- bob, who is not on #i, invites zed there: refused. -/
example : ∃ req, PoliteRun Sample.s5i ∧ Received Sample.s5i 6 "INVITE zed #i".toList 4 req ∧ Is req "INVITE" ∧ (Sample.s5i.cl 4).type = .user ∧
    req.argv = ["zed".toList, "#i".toList] ∧ Originator Sample.s5i 4 req (Sample.s5i.cl 4) ∧
    (∀ x ∈ Sample.s5i.clients, x.type = .user → x.id ≠ [] → SameCase x.id (nickPart "zed".toList) →
      ("#i".toList.head? = some '&' ∧ x.conn = none) ∨ ∃ c ∈ Sample.s5i.chans, SameCase c.name "#i".toList ∧ ¬ MayInvite Sample.s5i 4 x.ref c) :=
  ⟨⟨none, "INVITE".toList, ["zed".toList, "#i".toList]⟩, polite_s5i, recv_sound (by decide +kernel), by simp only [Is]; decide, by decide +kernel, rfl,
    ⟨by decide +kernel, .inr ⟨by decide +kernel, by decide +kernel⟩⟩,
    fun x _ _ _ _ => .inr ⟨Sample.s5i.chan 8, by decide +kernel, (caseEq_same _ _).1 (by decide +kernel), fun h => s5i_off.2 (s5i_off.1 ▸ h.on)⟩⟩

/-- alice invites zed, on another server, to a channel that does not exist. -/
example : ∃ req, PoliteRun Sample.s5 ∧ Received Sample.s5 5 "INVITE zed #new".toList 3 req ∧ Is req "INVITE" ∧ (Sample.s5.cl 3).type = .user ∧
    req.argv = ["zed".toList, "#new".toList] ∧ Originator Sample.s5 3 req (Sample.s5.cl 3) ∧ Sample.s5.cl 7 ∈ Sample.s5.clients ∧
    (Sample.s5.cl 7).type = .user ∧ SameCase (Sample.s5.cl 7).id (nickPart "zed".toList) ∧ (∀ d ∈ Sample.s5.chans, ¬ SameCase d.name "#new".toList) :=
  ⟨⟨none, "INVITE".toList, ["zed".toList, "#new".toList]⟩, polite_s5, recv_sound (by decide +kernel), by simp only [Is]; decide, by decide +kernel, rfl,
    ⟨by decide +kernel, .inr ⟨by decide +kernel, by decide +kernel⟩⟩, by decide +kernel, by decide +kernel, (caseEq_same _ _).1 (by decide +kernel), by decide +kernel⟩

end Ngircd
