import Verif.Spec.Channels
import Verif.Lemmas.TraceCh
import Verif.Lemmas.Reply
import Verif.Props.Oper

/-!
# What JOIN does to the state
-/

set_option linter.unusedSimpArgs false

namespace Ngircd
open Spec

variable {s t u : Srv} {cl : Nat}

theorem strtokAux_comma (a cur : Str) : strtokAux (fun c => [','].contains c) a cur =
    match pieces a with
    | [] => []
    | p :: ps => (if (cur.reverse ++ p).isEmpty then [] else [cur.reverse ++ p]) ++ ps.filter (fun p => !p.isEmpty) := by
  induction a generalizing cur with
  | nil =>
    simp only [strtokAux, pieces, List.append_nil, List.filter_nil, List.isEmpty_reverse]
  | cons c cs ih =>
    simp only [strtokAux, pieces]
    by_cases h : c = ','
    · subst h
      rw [if_pos (by decide), if_pos rfl, ih]
      have hp : ∃ p ps, pieces cs = p :: ps := by
        cases cs with
        | nil => exact ⟨_, _, rfl⟩
        | cons d ds =>
          simp only [pieces]
          split
          · exact ⟨_, _, rfl⟩
          · split <;> exact ⟨_, _, rfl⟩
      obtain ⟨p, ps, hp⟩ := hp
      rw [hp]
      simp only [List.reverse_nil, List.nil_append, List.append_nil, List.isEmpty_reverse, List.filter_cons]
      cases p <;> cases cur <;> simp
    · rw [if_neg (by simpa using h), if_neg h, ih]
      cases hp : pieces cs with
      | nil =>
        exfalso
        cases cs with
        | nil => simp [pieces] at hp
        | cons d ds =>
          simp only [pieces] at hp
          split at hp
          · cases hp
          · split at hp <;> cases hp
      | cons p ps => simp

theorem strtok_items (a : Str) : strtok a [','] = items a := by
  rw [strtok, strtokAux_comma, items]
  cases pieces a with
  | nil => rfl
  | cons p ps => cases p <;> simp

theorem hasChar_iff {l : Str} {c : Char} : hasChar l c = true ↔ c ∈ l := by
  simp [hasChar]

theorem covers_iff {l : MaskList} {c : Client} : (listsCheck l (masksOf s c)).2 = true ↔ Covers s l c := by
  rw [C30_check_iff]
  simp only [elemMatches, masksOf, Bool.or_eq_true, Covers]
  exact ⟨fun ⟨e, h, h'⟩ => ⟨e, h, h'.symm⟩, fun ⟨e, h, h'⟩ => ⟨e, h, h'.symm⟩⟩

theorem members_eq (ch : Nat) : memberCount s ch = members s ch := rfl

theorem joined_eq (r : Nat) : countForUser s r = joined s r := rfl

theorem usesSSL_iff {c : Client} (h : usesSSL s c = true) : ∃ k ∈ s.conns, c.conn = some k.idx ∧ k.ssl = true := by
  simp only [usesSSL] at h
  split at h
  · rename_i k hk
    cases hc : c.conn with
    | none => rw [hc] at hk; cases hk
    | some i =>
      rw [hc] at hk
      have hk : s.conn? i = some k := hk
      exact ⟨k, List.mem_of_find?_eq_some hk, by have := List.find?_some hk; simp at this; rw [this], h⟩
  · cases h

theorem checkKey_fits {c : Client} {ch : Chan} {key : Str} (h : checkKey ch c key = true) :
    'k' ∈ ch.modes → KeyFits c ch key := by
  intro hk
  simp only [checkKey, Chan.hasMode, hasChar_iff.2 hk] at h
  split at h
  · rename_i h'; simp at h'
  · split at h
    · cases h
    · rename_i h1
      refine ⟨by intro he; rw [he] at h1; simp at h1, ?_⟩
      split at h
      · rename_i h2; left; simpa using (beq_iff_eq.1 h2).symm
      · split at h
        · cases h
        · rename_i lines hl
          right
          obtain ⟨l, h1, h2⟩ := List.any_eq_true.1 h
          exact ⟨lines, hl, l, h1, h2⟩

theorem joinRefusal_none {c : Client} {ch : Chan} {key : Str} (h : joinRefusal s c ch key = none) :
    MayJoin s c ch key := by
  simp only [joinRefusal] at h
  repeat' split at h
  all_goals first | cases h; done | skip
  rename_i h1 h2 h3 h4 h5 h6 h7
  simp only [Bool.and_eq_true, Bool.not_eq_true', decide_eq_true_eq, not_and, Chan.hasMode, Client.hasMode,
    hasChar_iff, Bool.not_eq_false] at *
  constructor
  · intro hb
    by_cases hi : Covers s ch.invites c
    · exact .inr hi
    · have hi' : (listsCheck ch.invites (masksOf s c)).2 = false := by
        rw [← Bool.not_eq_true, covers_iff]; exact hi
      exact .inl (covers_iff.1 (h1 ⟨covers_iff.2 hb, hi'⟩))
  · exact fun hi => covers_iff.1 (h2 hi)
  · exact checkKey_fits h3
  · intro hl; rw [← members_eq]; have := h4 hl; omega
  · exact fun hz => usesSSL_iff (h5 hz)
  · exact h6
  · exact h7

/-- What has become of the state `s` while a JOIN of the local user `cl` is being handled;
`A c`: the user has been admitted to the channel `c`. -/
structure JR (A : Chan → Prop) (s t : Srv) (cl : Nat) : Prop where
  clients : t.clients = s.clients
  conf : t.conf = s.conf
  conns : t.conns = s.conns
  next : s.nextRef ≤ t.nextRef
  chans : ∀ d ∈ t.chans, (∃ c ∈ s.chans, SameSettings c d ∧ d.topic = c.topic ∧ ∀ e ∈ d.invites, e ∈ c.invites) ∨
    (s.nextRef ≤ d.ref ∧ OnChannel t d.ref cl)
  old : ∀ c ∈ s.chans, ∃ d ∈ t.chans, d.ref = c.ref
  news : ∃ l : List Cl2Chan, t.cl2 = l ++ s.cl2 ∧
    (∀ m ∈ l, m.client = cl ∧
      ((∃ c ∈ s.chans, c.ref = m.chan ∧ A c ∧ m.modes = rankOnJoin s (s.cl cl) c) ∨
       (s.nextRef ≤ m.chan ∧ ∃ d ∈ t.chans, d.ref = m.chan ∧
         m.modes = if d.name.head? = some '+' then [] else ['o']))) ∧
    (0 < s.conf.maxJoins → l = [] ∨ (joined t cl : Int) ≤ s.conf.maxJoins)

theorem JR.rfl' {A : Chan → Prop} : JR A s s cl where
  clients := rfl
  conf := rfl
  conns := rfl
  next := Nat.le_refl _
  chans := fun d hd => .inl ⟨d, hd, ⟨rfl, rfl, rfl, rfl, rfl, rfl, rfl, rfl⟩, rfl, fun _ h => h⟩
  old := fun c hc => ⟨c, hc, rfl⟩
  news := ⟨[], rfl, fun m hm => (by cases hm), fun _ => .inl rfl⟩

theorem JR.of_eq {A : Chan → Prop} (h : JR A s t cl) (h1 : u.clients = t.clients) (h2 : u.conf = t.conf)
    (h3 : u.conns = t.conns) (h4 : u.nextRef = t.nextRef) (h5 : u.chans = t.chans) (h6 : u.cl2 = t.cl2) : JR A s u cl where
  clients := h1.trans h.clients
  conf := h2.trans h.conf
  conns := h3.trans h.conns
  next := by rw [h4]; exact h.next
  chans := by rw [h5]; simp only [OnChannel, h6]; exact h.chans
  old := by rw [h5]; exact h.old
  news := by rw [h5, h6]; simp only [joined, h6]; exact h.news

theorem JR.core {A : Chan → Prop} (h : JR A s t cl) (hc : u.core = t.core) : JR A s u cl :=
  h.of_eq (core_clients hc) (core_conf hc) (congrArg Srv.conns hc : u.core.conns = t.core.conns)
    (congrArg Srv.nextRef hc : u.core.nextRef = t.core.nextRef) (core_chans hc) (core_cl2 hc)

/-- Using up invitations. -/
theorem JR.consume {A : Chan → Prop} (h : JR A s t cl) (ho : OnceInv t) {r : Nat} {k : Client} :
    JR A s (t.updChan r (joinConsume t k)) cl where
  clients := h.clients
  conf := h.conf
  conns := h.conns
  next := h.next
  chans := by
    intro d hd
    obtain ⟨c, hc, rfl⟩ := mem_updChan.1 hd
    split
    · refine (h.chans c hc).imp ?_ id
      rintro ⟨b, hb, g1, g2, g3⟩
      refine ⟨b, hb, ?_, g2, fun e he => g3 e ((check_sublist _ _).subset he)⟩
      simp only [SameSettings, joinConsume] at g1 ⊢
      rw [listsCheck_once _ (fun e he => ho c hc e (.inl he)), listsCheck_once _ (fun e he => ho c hc e (.inr he))]
      exact g1
    · exact h.chans c hc
  old := by
    intro c hc
    obtain ⟨d, hd, he⟩ := h.old c hc
    refine ⟨_, mem_updChan.2 ⟨d, hd, rfl⟩, ?_⟩
    split <;> exact he
  news := by
    obtain ⟨l, h1, h2, h3⟩ := h.news
    refine ⟨l, h1, fun m hm => ⟨(h2 m hm).1, (h2 m hm).2.imp id ?_⟩, h3⟩
    rintro ⟨g1, d, hd, g2, g3⟩
    refine ⟨g1, _, mem_updChan.2 ⟨d, hd, rfl⟩, ?_, ?_⟩
    · split <;> exact g2
    · split <;> exact g3

theorem joined_cons {ch : Nat} {ms : Str} (h' : u.cl2 = ⟨cl, ch, ms⟩ :: t.cl2) :
    joined u cl = joined t cl + 1 := by
  simp [joined, h', List.filter_cons]

/-- Joining an existing channel. -/
theorem JR.join {A : Chan → Prop} (h : JR A s t cl) {c : Chan} (hc : c ∈ s.chans) (hA : A c)
    (hmax : 0 < s.conf.maxJoins → (joined t cl : Int) < s.conf.maxJoins)
    (h1 : u.clients = t.clients) (h2 : u.conf = t.conf)
    (h3 : u.conns = t.conns) (h4 : u.nextRef = t.nextRef) (h5 : u.chans = t.chans)
    (h6 : u.cl2 = ⟨cl, c.ref, rankOnJoin s (s.cl cl) c⟩ :: t.cl2) : JR A s u cl where
  clients := h1.trans h.clients
  conf := h2.trans h.conf
  conns := h3.trans h.conns
  next := by rw [h4]; exact h.next
  chans := by
    rw [h5]
    intro d hd
    refine (h.chans d hd).imp id (fun ⟨g1, m, hm, g2⟩ => ⟨g1, m, ?_, g2⟩)
    rw [h6]; exact List.mem_cons_of_mem _ hm
  old := by rw [h5]; exact h.old
  news := by
    obtain ⟨l, e, g2, g3⟩ := h.news
    refine ⟨⟨cl, c.ref, rankOnJoin s (s.cl cl) c⟩ :: l, by rw [h6, e]; rfl, ?_, ?_⟩
    · intro m hm
      rcases List.mem_cons.1 hm with rfl | hm
      · exact ⟨rfl, .inl ⟨c, hc, rfl, hA, rfl⟩⟩
      · rw [h5]; exact g2 m hm
    · intro hp
      right
      rw [joined_cons (t := t) h6]
      have := hmax hp
      omega

/-- Creating a channel. -/
theorem JR.create {A : Chan → Prop} (h : JR A s t cl) {d : Chan} (hd : d.ref = t.nextRef)
    (hmax : 0 < s.conf.maxJoins → (joined t cl : Int) < s.conf.maxJoins)
    (h1 : u.clients = t.clients) (h2 : u.conf = t.conf)
    (h3 : u.conns = t.conns) (h4 : t.nextRef ≤ u.nextRef) (h5 : u.chans = d :: t.chans)
    (h6 : u.cl2 = ⟨cl, d.ref, if d.name.head? = some '+' then [] else ['o']⟩ :: t.cl2) : JR A s u cl where
  clients := h1.trans h.clients
  conf := h2.trans h.conf
  conns := h3.trans h.conns
  next := Nat.le_trans h.next h4
  chans := by
    rw [h5]
    intro d' hd'
    rcases List.mem_cons.1 hd' with rfl | hd'
    · exact .inr ⟨by rw [hd]; exact h.next, _, by rw [h6]; exact List.mem_cons_self, rfl, rfl⟩
    · refine (h.chans d' hd').imp id (fun ⟨g1, m, hm, g2⟩ => ⟨g1, m, ?_, g2⟩)
      rw [h6]; exact List.mem_cons_of_mem _ hm
  old := by
    rw [h5]
    intro c hc
    obtain ⟨d', hd', he⟩ := h.old c hc
    exact ⟨d', List.mem_cons_of_mem _ hd', he⟩
  news := by
    obtain ⟨l, e, g2, g3⟩ := h.news
    refine ⟨⟨cl, d.ref, if d.name.head? = some '+' then [] else ['o']⟩ :: l, by rw [h6, e]; rfl, ?_, ?_⟩
    · intro m hm
      rcases List.mem_cons.1 hm with rfl | hm
      · exact ⟨rfl, .inr ⟨by rw [hd]; exact h.next, d, by rw [h5]; exact List.mem_cons_self, rfl, rfl⟩⟩
      · refine ⟨(g2 m hm).1, (g2 m hm).2.imp id ?_⟩
        rintro ⟨k1, d', k2, k3⟩
        exact ⟨k1, d', by rw [h5]; exact List.mem_cons_of_mem _ k2, k3⟩
    · intro hp
      right
      rw [joined_cons (t := t) h6]
      have := hmax hp
      omega

theorem userModeAdd_fresh {ch : Nat} {ms : Str} {m : Char} (h : isMemberOf t ch cl = false) 
    (hu : u.cl2 = ⟨cl, ch, ms⟩ :: t.cl2) :
    (userModeAdd u ch cl m).1.cl2 = ⟨cl, ch, (modeAdd ms m).1⟩ :: t.cl2 := by
  simp only [userModeAdd, hu, List.map_cons, and_self, if_true]
  congr 1
  refine (List.map_congr_left (fun x hx => ?_)).trans (List.map_id _)
  rw [if_neg]; · rfl
  rintro ⟨h1, h2⟩
  exact isMemberOf_false.1 h x hx h1 h2

theorem joinDo_valid {n : Str} {ch : Chan} (hb : Base t) (hs : channelSearch t n = some ch)
    (hm : isMemberOf t ch.ref cl = false) (hcl : (t.cl cl).ref = cl) (hv : isValidChanName n = true) :
    (joinDo t cl cl n [] false).core =
      ({ t with cl2 := ⟨cl, ch.ref, rankOnJoin t (t.cl cl) ch⟩ :: t.cl2 } : Srv).core := by
  have hch := chan_of_mem hb.ch (channelSearch_mem hs)
  have hj : channelJoin t (t.cl cl) n = (addClient t ch.ref cl, true) := by
    simp only [channelJoin, hv, hs, hcl, hm, Bool.not_true, Bool.false_eq_true, if_false]
  have hs' : channelSearch (addClient t ch.ref cl) n = some ch := hs
  simp only [joinDo, hj, hs', Bool.false_and, Bool.false_eq_true, if_false]
  have key : ∀ v : Srv, v.core = (joinSetModes (addClient t ch.ref cl) ch.ref cl []).core →
      v.core = ({ t with cl2 := ⟨cl, ch.ref, rankOnJoin t (t.cl cl) ch⟩ :: t.cl2 } : Srv).core := by
    intro v hv
    rw [hv]
    have hj2 : joinSetModes (addClient t ch.ref cl) ch.ref cl [] =
        if (ch.hasMode 'P' && t.conf.operChanPAutoOp && (t.cl cl).hasMode 'o') = true then
          (userModeAdd (addClient t ch.ref cl) ch.ref cl 'o').1
        else addClient t ch.ref cl := by
      have e1 : (addClient t ch.ref cl).chan ch.ref = ch := hch
      show (if (((addClient t ch.ref cl).chan ch.ref).hasMode 'P' && t.conf.operChanPAutoOp
        && (t.cl cl).hasMode 'o') = true then _ else _) = _
      rw [e1]
      rfl
    rw [hj2]
    split
    · rename_i hc
      simp only [Bool.and_eq_true, Chan.hasMode, Client.hasMode, hasChar_iff] at hc
      have hr : rankOnJoin t (t.cl cl) ch = ['o'] := by
        simp only [rankOnJoin]; rw [if_pos ⟨hc.1.1, hc.1.2, hc.2⟩]
      rw [hr]
      have := userModeAdd_fresh (u := addClient t ch.ref cl) (ms := []) (m := 'o') hm rfl
      have hmo : (modeAdd [] 'o').1 = ['o'] := by decide
      rw [hmo] at this
      have e : (userModeAdd (addClient t ch.ref cl) ch.ref cl 'o').1 =
        { t with cl2 := (userModeAdd (addClient t ch.ref cl) ch.ref cl 'o').1.cl2 } := rfl
      rw [e, this]
    · rename_i hc
      simp only [Bool.and_eq_true, Chan.hasMode, Client.hasMode, hasChar_iff] at hc
      have hr : rankOnJoin t (t.cl cl) ch = [] := by
        simp only [rankOnJoin]; rw [if_neg (fun h => hc ⟨⟨h.1, h.2.1⟩, h.2.2⟩)]
      rw [hr]; rfl
  split
  · exact key _ (by rw [core_sendChannelInfo, core_writePrefix, core_joinForward])
  · exact key _ (core_joinForward _ _ _ _ _)

theorem joinDo_old {n : Str} {ch : Chan} (hb : Base t) (hs : channelSearch t n = some ch)
    (hm : isMemberOf t ch.ref cl = false) (hcl : (t.cl cl).ref = cl) :
    (joinDo t cl cl n [] false).core = t.core ∨
    (joinDo t cl cl n [] false).core =
      ({ t with cl2 := ⟨cl, ch.ref, rankOnJoin t (t.cl cl) ch⟩ :: t.cl2 } : Srv).core := by
  by_cases hv : isValidChanName n = true
  · exact .inr (joinDo_valid hb hs hm hcl hv)
  · left
    have hj : channelJoin t (t.cl cl) n = (writeErr t (t.cl cl) ⟨"ERR_NOSUCHCHANNEL_MSG", [(t.cl cl).ID, n]⟩, false) := by
      simp only [channelJoin, hv, Bool.not_eq_true] 
      simp
    simp only [joinDo, hj]
    rfl

theorem joinDo_new {n : Str} (hb : Base t) (hs : channelSearch t n = none) (hcl : (t.cl cl).ref = cl) (hne : n ≠ []) :
    (joinDo t cl cl n (if n.head? = some '+' then [] else ['o']) true).core = t.core ∨
    ∃ d : Chan, d.ref = t.nextRef ∧ d.name = n ∧
    (joinDo t cl cl n (if n.head? = some '+' then [] else ['o']) true).core =
      ({ t with cl2 := ⟨cl, d.ref, if d.name.head? = some '+' then [] else ['o']⟩ :: t.cl2,
                chans := d :: t.chans,
                nextRef := t.nextRef + 1 } : Srv).core := by
  by_cases hv : isValidChanName n = true
  · right
    have hlen : n.length < CHANNEL_NAME_LEN := by
      simp only [isValidChanName, Bool.and_eq_true, decide_eq_true_eq] at hv; exact hv.1.2
    have hcut : strlcpy CHANNEL_NAME_LEN n = n := by
      simp only [strlcpy]; exact List.take_of_length_le (by omega)
    have hm : isMemberOf t t.nextRef cl = false := by
      rw [isMemberOf_false]
      intro m hm he
      obtain ⟨c, hc, e⟩ := hb.ch.chan m hm
      have := hb.ch.lt c hc
      omega
    have hj : channelJoin t (t.cl cl) n = (addClient (channelCreate t n) t.nextRef cl, true) := by
      simp only [channelJoin, hv, hs, hcl, Bool.not_true, Bool.false_eq_true, if_false]
    have hs' : channelSearch (addClient (channelCreate t n) t.nextRef cl) n = some (newChan t n) := by
      show List.find? _ (newChan t n :: t.chans) = _
      rw [List.find?_cons_of_pos]
      simp only [newChan, hcut, beq_self_eq_true, Bool.true_and]
      exact (caseEq_iff _ _).2 rfl
    simp only [joinDo, hj, hs', Bool.true_and]
    generalize hs2 : (if (newChan t n).isModeless then
      (channelModeAdd (channelModeAdd (addClient (channelCreate t n) t.nextRef cl) (newChan t n).ref 't').1
        (newChan t n).ref 'n').1 else addClient (channelCreate t n) t.nextRef cl) = s2
    obtain ⟨d, e1, e2, e3, e4⟩ : ∃ d : Chan, d.ref = t.nextRef ∧ d.name = n ∧ 'P' ∉ d.modes ∧
        s2 = { t with cl2 := ⟨cl, t.nextRef, []⟩ :: t.cl2, chans := d :: t.chans, nextRef := t.nextRef + 1 } := by
      rw [← hs2]
      split
      · refine ⟨{ newChan t n with modes := (modeAdd (modeAdd [] 't').1 'n').1 }, rfl, hcut, (show 'P' ∉ (modeAdd (modeAdd [] 't').1 'n').1 by decide), ?_⟩
        simp only [channelModeAdd, Srv.updChan, addClient, channelCreate]
        congr 1
        simp only [List.map_cons, if_true, List.map_map]
        congr 1
        refine (List.map_congr_left (fun x hx => ?_)).trans (List.map_id _)
        have := hb.ch.lt x hx
        have hne : x.ref ≠ (newChan t n).ref := by show x.ref ≠ t.nextRef; omega
        simp only [Function.comp_apply, if_neg hne, id]
      · exact ⟨newChan t n, rfl, hcut, (show 'P' ∉ ([] : Str) by decide), rfl⟩
    refine ⟨d, e1, e2, ?_⟩
    have hr : (newChan t n).ref = t.nextRef := rfl
    rw [hr]
    have key : ∀ v : Srv, v.core = (joinSetModes s2 t.nextRef cl (if n.head? = some '+' then [] else ['o'])).core →
        v.core = ({ t with cl2 := ⟨cl, d.ref, if d.name.head? = some '+' then [] else ['o']⟩ :: t.cl2, chans := d :: t.chans, nextRef := t.nextRef + 1 } : Srv).core := by
      intro v hv
      rw [hv, e2, e1]
      have hchan : ∀ w : Srv, w.chans = d :: t.chans → (w.chan t.nextRef).hasMode 'P' = false := by
        intro w hw
        have : w.chan t.nextRef = d := by
          simp only [Srv.chan, Srv.chan?, hw]
          rw [List.find?_cons_of_pos]
          · rfl
          · simp [e1]
        rw [this]
        simp only [Chan.hasMode]
        rw [← Bool.not_eq_true, hasChar_iff]; exact e3
      simp only [joinSetModes]
      by_cases hp : n.head? = some '+'
      · simp only [if_pos hp, List.foldl_nil]
        rw [hchan s2 (by rw [e4])]
        simp only [Bool.false_and, Bool.false_eq_true, if_false]
        rw [e4]
      · simp only [if_neg hp, List.foldl_cons, List.foldl_nil]
        rw [hchan (userModeAdd s2 t.nextRef cl 'o').1 (by rw [e4]; rfl)]
        simp only [Bool.false_and, Bool.false_eq_true, if_false]
        have := userModeAdd_fresh (u := s2) (ms := []) (m := 'o') hm (by rw [e4])
        have hmo : (modeAdd [] 'o').1 = ['o'] := by decide
        rw [hmo] at this
        have e : (userModeAdd s2 t.nextRef cl 'o').1 =
          { s2 with cl2 := (userModeAdd s2 t.nextRef cl 'o').1.cl2 } := rfl
        rw [e, this, e4]
    generalize (if n.head? = some '+' then ([] : Str) else ['o']) = fl at key ⊢
    split
    · exact key _ (by rw [core_sendChannelInfo, core_writePrefix, core_joinForward])
    · exact key _ (core_joinForward _ _ _ _ _)
  · left
    have hj : channelJoin t (t.cl cl) n = (writeErr t (t.cl cl) ⟨"ERR_NOSUCHCHANNEL_MSG", [(t.cl cl).ID, n]⟩, false) := by
      simp only [channelJoin, hv, Bool.not_eq_true] 
      simp
    simp only [joinDo, hj]
    rfl


theorem OnceInv.steps {x : Ctx} (hi : OnceInv s) (h : Steps (Okay x) s t) : OnceInv t :=
  h.inv (I := OnceInv) (fun s t hc hi => by rw [OnceInv, core_chans hc]; exact hi)
    (fun _ _ hi hp => hi.act hp) hi

theorem channelSearch_case {n : Str} {c : Chan} (h : channelSearch s n = some c) : SameCase n c.name := by
  have := List.find?_some h
  simp only [Bool.and_eq_true] at this
  exact (caseEq_same _ _).1 this.2

theorem channelSearch_upd {r : Nat} {f : Chan → Chan} (hf : KeepsCh f) {n : Str} :
    channelSearch (s.updChan r f) n = (channelSearch s n).map (fun c => if c.ref = r then f c else c) := by
  simp only [channelSearch, Srv.updChan, List.find?_map]
  congr 1
  refine find?_congr_mem (fun c hc => ?_)
  simp only [Function.comp_apply]
  split
  · rw [(hf c).2.1, (hf c).2.2]
  · rfl

theorem maskCloaked_eq (h1 : t.conf = s.conf) (h2 : t.clients = s.clients) (k : Client) :
    maskCloaked t k = maskCloaked s k := by
  simp only [maskCloaked, displayedHost, genCloak, h1, Srv.cl, Srv.cl?, h2]

theorem mayJoin_lift {A : Chan → Prop} (h : JR A s t cl) {c d : Chan} {key : Str} {k : Client}
    (hs : SameSettings c d) (hi : ∀ e ∈ d.invites, e ∈ c.invites)
    (hm : MayJoin t k d key) : MayJoin s k c key := by
  obtain ⟨e1, e2, e3, e4, e5, e6, e7, e8⟩ := hs
  have hcov : ∀ l, Covers t l k → Covers s l k := by
    rintro l ⟨e, he, h1⟩
    refine ⟨e, he, h1.imp id (fun h1 => ?_)⟩
    rw [← maskCloaked_eq h.conf h.clients]; exact h1
  have hcov' : ∀ l, Covers s l k → Covers t l k := by
    rintro l ⟨e, he, h1⟩
    refine ⟨e, he, h1.imp id (fun h1 => ?_)⟩
    rw [maskCloaked_eq h.conf h.clients]; exact h1
  have hinv : Covers t d.invites k → Covers s c.invites k := by
    intro hc
    obtain ⟨e, he, h1⟩ := hcov _ hc
    exact ⟨e, hi e he, h1⟩
  constructor
  · intro hb
    have := hm.ban (by rw [e6]; exact hcov' _ hb)
    rw [e7] at this
    exact this.imp (hcov _) hinv
  · intro h1; exact hinv (hm.invite (by rw [e3]; exact h1))
  · intro h1
    obtain ⟨g1, g2⟩ := hm.key (by rw [e3]; exact h1)
    rw [e4, e8] at g2
    exact ⟨g1, g2⟩
  · intro h1
    have := hm.limit (by rw [e3]; exact h1)
    rw [e1, e5] at this
    refine Nat.lt_of_le_of_lt ?_ this
    obtain ⟨l, hl, _⟩ := h.news
    simp only [members, hl, List.filter_append, List.length_append]
    omega
  · intro h1
    have := hm.ssl (by rw [e3]; exact h1)
    rw [h.conns] at this; exact this
  · intro h1; exact hm.oper (by rw [e3]; exact h1)
  · intro h1; exact hm.registered (by rw [e3]; exact h1)

theorem JR.cl_eq {A : Chan → Prop} (h : JR A s t cl) (r : Nat) : t.cl r = s.cl r := by
  simp only [Srv.cl, Srv.cl?, h.clients]

/-- Joining channel `n`, admission given. -/
theorem joinDo_JR {A : Chan → Prop} {n : Str} {ch : Chan} (hb : Base t) (h : JR A s t cl)
    (hcl : (s.cl cl).ref = cl)
    (hs : channelSearch t n = some ch) (hm : isMemberOf t ch.ref cl = false)
    (hmax : 0 < s.conf.maxJoins → (joined t cl : Int) < s.conf.maxJoins)
    (hA : ∀ c ∈ s.chans, SameSettings c ch → (∀ e ∈ ch.invites, e ∈ c.invites) → A c) :
    JR A s (joinDo t cl cl n [] false) cl := by
  rcases joinDo_old hb hs hm (by rw [h.cl_eq]; exact hcl) with hc | hc
  · exact h.core hc
  · refine JR.core ?_ hc
    rcases h.chans ch (channelSearch_mem hs) with ⟨c, hc', hs', _, hi⟩ | ⟨_, hon⟩
    · refine h.join hc' (hA c hc' hs' hi) hmax rfl rfl rfl rfl rfl ?_
      show _ :: t.cl2 = _
      rw [h.cl_eq, hs'.1]
      simp only [rankOnJoin, hs'.2.2.1, h.conf]
    · obtain ⟨m, h1, h2, h3⟩ := hon
      exact absurd h2 (by rw [isMemberOf_false] at hm; exact fun h2 => (hm m h1 (by assumption)) (by assumption))

theorem joinOne_JR {A : Chan → Prop} {n key : Str} (hb0 : Base s) (hb : Base t) (ho : OnceInv t) (h : JR A s t cl)
    (hcl : (s.cl cl).ref = cl) (ht : (s.cl cl).type = .user) (hn : n ≠ [])
    (hA : ∀ c ∈ s.chans, SameCase n c.name → ('o' ∈ (s.cl cl).modes ∨ MayJoin s (s.cl cl) c key) → A c) :
    JR A s (joinOne t cl cl n key) cl := by
  have hce := h.cl_eq cl
  simp only [joinOne]
  rw [hce, if_pos ht]
  have hmaxOf : (¬ (decide (t.conf.maxJoins > 0) && decide ((countForUser t cl : Int) ≥ t.conf.maxJoins)) = true) →
      0 < s.conf.maxJoins → (joined t cl : Int) < s.conf.maxJoins := by
    intro h1 h2
    simp only [Bool.and_eq_true, decide_eq_true_eq, not_and, h.conf, joined_eq] at h1
    have := h1 h2
    omega
  cases hs : channelSearch t n with
  | none =>
    simp only [joinChecks, hs]
    by_cases hv : joinTypeOk t n = true
    · simp only [hv, Bool.not_true, Bool.false_eq_true, if_false]
      by_cases hmx : (decide (t.conf.maxJoins > 0) && decide ((countForUser t cl : Int) ≥ t.conf.maxJoins)) = true
      · rw [if_pos hmx]; exact h.core rfl
      · rw [if_neg hmx]
        simp only [Option.isNone_none]
        rcases joinDo_new hb hs (by rw [hce]; exact hcl) hn with hc | ⟨d, e1, e2, hc⟩
        · exact h.core hc
        · refine JR.core ?_ hc
          exact h.create e1 (hmaxOf hmx) rfl rfl rfl (Nat.le_succ _) rfl rfl
    · have hv : joinTypeOk t n = false := by simpa using hv
      simp only [hv, Bool.not_false, if_true]
      exact h.core rfl
  | some ch =>
    have hch := channelSearch_mem hs
    simp only [joinChecks, hs, Option.isNone_some]
    by_cases hmem : isMemberOf t ch.ref cl = true
    · rw [if_pos hmem]; exact h
    have hmem' : isMemberOf t ch.ref cl = false := by simpa using hmem
    rw [if_neg hmem]
    by_cases hmx : (decide (t.conf.maxJoins > 0) && decide ((countForUser t cl : Int) ≥ t.conf.maxJoins)) = true
    · rw [if_pos hmx]; exact h.core rfl
    rw [if_neg hmx]
    by_cases hop : (t.cl cl).hasMode 'o' = true
    · simp only [joinAllowed, hop, if_true]
      refine joinDo_JR hb h hcl hs hmem' (hmaxOf hmx) (fun c hc hss _ => hA c hc ?_ (.inl ?_))
      · rw [← hss.2.1]; exact channelSearch_case hs
      · rw [hce] at hop; exact hasChar_iff.1 hop
    · have hst := (joinAllowed_steps (x := { cl := cl, fresh := True })
        (.inr (.inr (.inr (.inl trivial)))) hb cl hch n key).1.base hb
      have hJ := h.consume ho (r := ch.ref) (k := t.cl cl)
      simp only [joinAllowed, hop, if_false, Bool.false_eq_true] at hst ⊢
      rw [updChan_const hb.ch hch (joinConsume t (t.cl cl))] at hst ⊢
      cases hr : joinRefusal t (t.cl cl) ch key with
      | some e => exact hJ.core rfl
      | none =>
        rw [hr] at hst
        simp only at hst ⊢
        have hmay := joinRefusal_none hr
        have hs2 : channelSearch (t.updChan ch.ref (joinConsume t (t.cl cl))) n = some (joinConsume t (t.cl cl) ch) := by
          rw [channelSearch_upd (f := joinConsume t (t.cl cl)) (fun _ => ⟨rfl, rfl, rfl⟩), hs]
          simp
        refine joinDo_JR hst hJ hcl hs2 hmem' (hmaxOf hmx) (fun c hc hss _ => hA c hc ?_ (.inr ?_))
        · rw [← hss.2.1]; exact channelSearch_case hs2
        · rcases h.chans ch hch with ⟨c', hc', hs', _, hi⟩ | ⟨hge, _⟩
          · have : c' = c := chan_eq_of_ref hb0.ch hc' hc (by rw [← hs'.1, ← hss.1]; rfl)
            subst this
            rw [← hce]
            exact mayJoin_lift h hs' hi hmay
          · exfalso
            have := hb0.ch.lt c hc
            have e : ch.ref = c.ref := hss.1
            omega

theorem joinLoop_JR {A : Chan → Prop} (hb0 : Base s) (hcl : (s.cl cl).ref = cl) (ht : (s.cl cl).type = .user)
    (hmem : ∃ c ∈ s.clients, c.ref = cl)
    (ns ks : List Str) (t : Srv) (hb : Base t) (ho : OnceInv t) (h : JR A s t cl) (hne : ∀ n ∈ ns, n ≠ [])
    (hA : ∀ (j : Nat) n, ns[j]? = some n → ∀ c ∈ s.chans, SameCase n c.name →
      ('o' ∈ (s.cl cl).modes ∨ MayJoin s (s.cl cl) c (ks[j]?.getD [])) → A c) :
    JR A s (joinLoop cl cl ns ks t) cl := by
  induction ns generalizing ks t with
  | nil => exact h
  | cons n ns ih =>
    simp only [joinLoop]
    have h1 : JR A s (joinOne t cl cl n (ks.headD [])) cl := by
      refine joinOne_JR hb0 hb ho h hcl ht (hne n List.mem_cons_self) (fun c hc hn hm => hA 0 n rfl c hc hn ?_)
      cases ks <;> exact hm
    have hj : Joiner { cl := cl, fresh := True } t cl := by
      refine ⟨by rw [h.clients]; exact hmem, by rw [h.cl_eq]; exact hcl, .inl (.inl ?_), .inr ⟨rfl, .inr trivial⟩⟩
      rw [h.cl_eq]; exact ht
    have hk := joinOne_steps hb hj (cl := cl) (n := n) (k := ks.headD [])
      (.inl ⟨fun h' => (by rw [h.cl_eq, ht] at h'; cases h'), hne n List.mem_cons_self⟩)
    refine ih ks.tail _ (hk.1.base hb) (ho.steps hk.1) h1 (fun m hm => hne m (List.mem_cons_of_mem _ hm)) ?_
    intro j m hj c hc hn hm
    refine hA (j + 1) m hj c hc hn ?_
    cases ks <;> exact hm

end Ngircd
