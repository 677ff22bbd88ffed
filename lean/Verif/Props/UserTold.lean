import Verif.Spec.Modes
import Verif.Props.ModeTold
import Verif.Props.Wallops

/-!
# C62: user mode changes take effect, and the user and the other servers are told
# C63: what others get to see of a cloaked host name
-/

set_option linter.unusedSimpArgs false

namespace Ngircd
open Spec

variable {s : Srv} {i : Nat} {l : Str} {cl : Nat} {req : Request} {f x : Client} {c : Chan}

/-! ## Cloaked host names -/

theorem displayedHost_public (s : Srv) (c : Client) : displayedHost s c = publicHost s c := by
  unfold displayedHost publicHost
  by_cases hx : 'x' ∈ c.modes
  · rw [if_neg (by rw [hasMode_iff.2 hx]; decide), if_neg (by simpa using hx)]
    cases c.cloaked with
    | some h => rfl
    | none =>
      simp only [genCloak]
      cases s.conf.cloakHostModeX with
      | none => rfl
      | some fmt =>
        simp only
        rw [strlcat_eq 64 (strlcpy 64 c.host) s.conf.cloakHostSalt (by simp only [strlcpy, List.length_take]; omega)]
        rfl
  · rw [if_pos (by rw [hasMode_false.2 hx]; rfl), if_pos hx]

/-- **C63** The mask of a user shown to others is made from its nick, its user name and its public host name. -/
theorem C63_mask (s : Srv) {c : Client} (hc : c.type ≠ .server) : maskCloaked s c = publicMask s c := by
  unfold maskCloaked publicMask
  rw [displayedHost_public]
  by_cases hx : 'x' ∈ c.modes
  · rw [if_neg (by rw [hasMode_iff.2 hx]; decide)]; rfl
  · rw [if_pos (by rw [hasMode_false.2 hx]; rfl), Client.mask, if_neg hc]
    simp only [publicHost, if_pos hx]
    rfl

/-! ## User modes -/

/-- The loop over the letters of one argument. -/
theorem umode_loop (hi : (s.cl? t).isSome = true) (set : Bool) (o : Nat) {ms0 M0 : Str} {the0 : Str}
    (hok : ∀ m ∈ ms0, m ≠ '+' ∧ m ≠ '-' ∧ m ≠ 'a' ∧ ∀ M, (∀ a ∈ M, a ∈ M0 ∨ (set = true ∧ a ∈ ms0)) → (∀ a ∈ M0, a ∈ M ∨ (set = false ∧ a ∈ ms0)) →
      userModeVerdict (s.updCl t (fun d => { d with modes := M })) ((s.updCl t (fun d => { d with modes := M })).cl cl)
        ((s.updCl t (fun d => { d with modes := M })).cl o) set m = .set) :
    ∀ (ms : Str) (M the : Str) (b : Bool), (∀ m ∈ ms, m ∈ ms0) →
      (∀ a ∈ M, a ∈ M0 ∨ (set = true ∧ a ∈ ms0)) → (∀ a ∈ M0, a ∈ M ∨ (set = false ∧ a ∈ ms0)) →
      M.Nodup → ms.Nodup → (set = true → M.length + ms.length ≤ 20) → the.length + ms.length < 512 →
      ms.foldl (fun st m => userModeChar st cl o t m) { s := s.updCl t (fun d => { d with modes := M }), the := the, set := set, hidden := b } =
        { s := s.updCl t (fun d => { d with modes := modesWith set M ms }), the := the ++ changed set M ms, set := set, hidden := b || ms.contains 'x' } := by
  intro ms
  induction ms with
  | nil =>
    intro M the b _ _ _ hM hn hl ht
    have e1 : modesWith set M [] = M := by
      cases set <;> simp [modesWith, changed]
    have e2 : changed set M [] = [] := rfl
    rw [e1, e2, List.append_nil]
    simp
  | cons m ms ih =>
    intro M the b hsub hlo hhi hM hn hl ht
    obtain ⟨m1, m2, m3, m4⟩ := hok m (hsub m (by simp))
    rw [List.nodup_cons] at hn
    have hl' : set = true → M.length < 20 := by
      intro h; have := hl h; simp at this; omega
    have ht' : the.length < 511 := by simp at ht; omega
    have hcl : (s.updCl t (fun d => { d with modes := M })).cl t = { s.cl t with modes := M } := by
      rw [cl_updCl s t t (fun d => { d with modes := M }) (fun _ => rfl) (fun _ => hi), if_pos rfl]
    have hupd : ∀ g : Str → Str, (s.updCl t (fun d => { d with modes := M })).updCl t (fun d => { d with modes := g d.modes }) =
        s.updCl t (fun d => { d with modes := g M }) := by
      intro g
      simp only [Srv.updCl, List.map_map]
      congr 1
      refine List.map_congr_left (fun d _ => ?_)
      simp only [Function.comp]
      by_cases e : d.ref = t <;> simp [e]
    have hstep : userModeChar { s := s.updCl t (fun d => { d with modes := M }), the := the, set := set, hidden := b } cl o t m =
        { s := s.updCl t (fun d => { d with modes := modesWith set M [m] }), the := the ++ changed set M [m], set := set, hidden := b || m == 'x' } := by
      have hcat : strlcat COMMAND_LEN the [m] = the ++ [m] := strlcat_fits (by simp only [COMMAND_LEN, List.length_singleton]; omega)
      simp only [userModeChar]
      rw [if_neg (fun h => h.elim m1 m2), m4 M hlo hhi]
      simp only [if_neg m3]
      cases set with
      | true =>
        simp only [if_true, clientModeAdd, hcl]
        rw [hupd (fun x => (modeAdd x m).1), (modeAdd_with m (hl' rfl)).1]
        by_cases hin : m ∈ M
        · have e3 : changed true M [m] = [] := by simp [changed, hin]
          have : (modeAdd M m).2 = false := by
            rw [← Bool.not_eq_true, (modeAdd_with m (hl' rfl)).2]; exact fun h => h hin
          rw [this, e3, List.append_nil]
          rfl
        · have e3 : changed true M [m] = [m] := by simp [changed, hin]
          rw [(modeAdd_with m (hl' rfl)).2.2 hin, e3, if_pos rfl, hcat]
      | false =>
        simp only [Bool.false_eq_true, if_false, clientModeDel, hcl]
        rw [hupd (fun x => (modeDel x m).1), (modeDel_with m hM).1]
        by_cases hin : m ∈ M
        · have e3 : changed false M [m] = [m] := by simp [changed, hin]
          rw [(modeDel_with m hM).2.2 hin, e3, if_pos rfl, hcat]
        · have e3 : changed false M [m] = [] := by simp [changed, hin]
          have : (modeDel M m).2 = false := by
            rw [← Bool.not_eq_true, (modeDel_with m hM).2]; exact hin
          rw [this, e3, List.append_nil]
          rfl
    have hmem : ∀ a ∈ ms, a ∈ M ↔ a ∈ modesWith set M [m] := by
      intro a ha
      have hne : a ≠ m := by rintro rfl; exact hn.1 ha
      cases set with
      | true =>
        simp only [modesWith, if_true, changed, List.mem_append, List.mem_filter, List.mem_singleton]
        exact ⟨.inl, fun h => h.resolve_right (fun h => hne h.1)⟩
      | false =>
        simp only [modesWith, Bool.false_eq_true, if_false, List.mem_filter]
        simp [hne]
    have hnd : (modesWith set M [m]).Nodup := by
      cases set with
      | true =>
        simp only [modesWith, if_true, changed]
        rw [List.nodup_append]
        refine ⟨hM, (show ([m] : Str).Nodup from by simp).sublist List.filter_sublist, ?_⟩
        intro a ha b hb e
        subst e
        simp only [List.mem_filter] at hb
        have := hb.2
        simp [ha] at this
      | false =>
        simp only [modesWith, Bool.false_eq_true, if_false]
        exact hM.sublist List.filter_sublist
    have hch1 : (changed set M [m]).length ≤ 1 := List.length_filter_le _ _
    have hm0 := hsub m (by simp)
    rw [List.foldl_cons, hstep, ih (modesWith set M [m]) (the ++ changed set M [m]) (b || m == 'x') (fun a ha => hsub a (by simp [ha]))
      (by
        intro a ha
        cases set with
        | true =>
          simp only [modesWith, if_true, changed, List.mem_append, List.mem_filter, List.mem_singleton] at ha
          rcases ha with ha | ha
          · exact hlo a ha
          · exact .inr ⟨rfl, ha.1 ▸ hm0⟩
        | false =>
          simp only [modesWith, Bool.false_eq_true, if_false, List.mem_filter] at ha
          exact hlo a ha.1)
      (by
        intro a ha
        cases set with
        | true =>
          rcases hhi a ha with h | h
          · left
            simp only [modesWith, if_true, List.mem_append]
            exact .inl h
          · exact .inr h
        | false =>
          rcases hhi a ha with h | h
          · by_cases e : a = m
            · exact .inr ⟨rfl, e ▸ hm0⟩
            · left
              simp only [modesWith, Bool.false_eq_true, if_false, List.mem_filter]
              simp [e, h]
          · exact .inr h)
      hnd hn.2
      (by
        intro h
        have h1 := hl h
        subst h
        simp only [modesWith, if_true, List.length_append]
        simp only [List.length_cons] at h1
        omega)
      (by
        simp only [List.length_append]
        simp only [List.length_cons] at ht
        omega)]
    have e6 : changed set (modesWith set M [m]) ms = changed set M ms := changed_congr (fun a ha => (hmem a ha).symm)
    have e7 : changed set M (m :: ms) = changed set M [m] ++ changed set M ms := by
      rw [changed_cons, changed_cons]; simp [changed]
    have e8 : modesWith set (modesWith set M [m]) ms = modesWith set M (m :: ms) := by
      cases set with
      | true => simp only [modesWith, if_true] at e6 ⊢; rw [e6, e7, List.append_assoc]
      | false =>
        simp only [modesWith, Bool.false_eq_true, if_false, List.filter_filter]
        refine List.filter_congr (fun a _ => ?_)
        simp [Bool.and_comm]
    rw [e6, e8, e7, List.append_assoc, List.contains_cons, ← Bool.or_assoc]
    have : (m == 'x') = ('x' == m) := by rw [Bool.eq_iff_iff, beq_iff_eq, beq_iff_eq]; exact ⟨Eq.symm, Eq.symm⟩
    rw [this]

/-- What a user may do, the program lets it do. -/
theorem verdict_user {conf : Conf} {v : Srv} {d : Client} {old : Str} {set : Bool} {m : Char} (hv : v.conf = conf) (ht : d.type = .user)
    (hm : MayUserMode conf old set m) (ho : set = true → 'o' ∈ old → 'o' ∈ d.modes) (hr : m = 'B' ∨ m = 'x' → 'r' ∉ old → 'r' ∉ d.modes) :
    userModeVerdict v d d set m = .set := by
  have hB : ∀ c : Char, "bCiIsw".toList.contains c = true ↔ c ∈ "bCiIsw".toList := fun c => List.contains_iff_mem
  rcases hm with h | ⟨rfl, h⟩ | ⟨rfl, h⟩ | ⟨h, h2⟩ | ⟨rfl, h⟩ | ⟨rfl, h, h2⟩
  · simp only [userModeVerdict, (hB m).2 h, if_true]
  · subst h; simp only [userModeVerdict]; rw [if_neg (by decide), if_neg (by decide), if_neg (by decide), if_neg (by decide), if_neg (by decide), if_pos trivial]; rfl
  · subst h; simp only [userModeVerdict]; rw [if_neg (by decide), if_neg (by decide), if_neg (by decide), if_neg (by decide), if_pos trivial]; rfl
  · have h3 : m = 'c' ∨ m = 'q' ∨ m = 'F' := by simpa using h
    have e : (!set || decide (d.type = .server) || d.hasMode 'o') = true := by
      rcases h2 with rfl | h2
      · rfl
      · cases set with
        | false => rfl
        | true => rw [hasMode_iff.2 (ho rfl h2), Bool.or_true]
    simp only [userModeVerdict]
    rw [if_neg (by rcases h3 with rfl | rfl | rfl <;> decide), if_neg (by rcases h3 with rfl | rfl | rfl <;> decide),
      if_neg (by rcases h3 with rfl | rfl | rfl <;> decide), if_pos h3, if_pos e]
  · simp only [userModeVerdict]
    rw [if_neg (by decide), if_neg (by decide), if_pos trivial, if_neg (by rw [hasMode_false.2 (hr (.inl rfl) h)]; decide)]
  · simp only [userModeVerdict]
    rw [if_neg (by decide), if_neg (by decide), if_neg (by decide), if_neg (by decide), if_neg (by decide), if_neg (by decide), if_neg (by decide), if_pos trivial,
      if_neg (by rw [hasMode_false.2 (hr (.inr rfl) h)]; decide), if_pos]
    rcases h2 with rfl | h2 | h2
    · rfl
    · rw [hv, Option.isSome_iff_ne_none.2 h2]
      cases set <;> simp
    · cases set with
      | false => rfl
      | true => rw [hasMode_iff.2 (ho rfl h2), Bool.or_true]

/-- The end of a MODE command of a local user about itself. -/
theorem umode_told (hb : Base s) (g1 : s.cl cl ∈ s.clients) (g2 : (s.cl cl).ref = cl) (g3 : (s.cl cl).conn = some i) (hty : (s.cl cl).type = .user)
    (M ms ch : Str) (sg : Char) (hch : ch ≠ []) (hpm : ∀ m ∈ ch, m ≠ '+' ∧ m ≠ '-') (set : Bool) :
    ∃ o, userModeFinish { s := s.updCl cl (fun d => { d with modes := M }), the := sg :: ch, set := set, hidden := ms.contains 'x' } cl cl cl =
        { s.updCl cl (fun d => { d with modes := M }) with out := o ++ s.out } ∧
      UserModeTold (withClient s cl (fun d => { d with modes := M })) i { s.cl cl with modes := M } ms sg ch o := by
  obtain ⟨u, hu⟩ : ∃ u, u = s.updCl cl (fun d => { d with modes := M }) := ⟨_, rfl⟩
  have hsome : (s.cl? cl).isSome = true := cl?_isSome_of_conn (by rw [g3]; rfl)
  obtain ⟨f, hf⟩ : ∃ f : Client, f = { s.cl cl with modes := M } := ⟨_, rfl⟩
  have hcl : u.cl cl = f := by
    rw [hu, hf, cl_updCl s cl cl (fun d => { d with modes := M }) (fun _ => rfl) (fun _ => hsome), if_pos rfl]
  have hbu : Base u := by
    rw [hu]
    refine ⟨hb.cl.upd (fun d hd _ => ⟨rfl, rfl, rfl, hb.cl.hash d hd, .inl rfl⟩), ?_⟩
    exact ⟨hb.ch.ord, hb.ch.lt, hb.ch.pairs, hb.ch.chan, hb.ch.clt⟩
  have hfm : f ∈ u.clients := by
    rw [hu, hf]
    have := List.mem_map_of_mem (f := fun d : Client => if d.ref = cl then { d with modes := M } else d) g1
    rwa [if_pos g2] at this
  have hfc : f.conn = some i := by rw [hf]; exact g3
  have hft : f.type = .user := by rw [hf]; exact hty
  have hhop : nextHop u f = f := hbu.nextHop_conn hfm (by rw [hfc]; rfl)
  obtain ⟨m, hm⟩ : ∃ m : Msg, m = ⟨"MODE", [f.ID, sg :: ch]⟩ := ⟨_, rfl⟩
  obtain ⟨o, h1, h2, h3⟩ := servers_spec hbu (some cl) f m
  have hlk : ∀ j, isLink u j = true ↔ ∃ d ∈ u.clients, d.type = .server ∧ d.conn = some j := fun j => isLink_mem
  have hci' : ∀ j, isLink u j = true → j ≠ i := by
    rintro j hj rfl
    rw [isLink_iff hbu hfm hfc, hft] at hj
    cases hj
  have hoi : onConn o i = [] := by
    rw [onConn, List.filter_eq_nil_iff]
    intro y hy hyi
    obtain ⟨d, hd, d1, d2, -⟩ := h3 y hy
    exact hci' y.conn ((hlk _).2 ⟨d, hd, d1, d2⟩) (by simpa using hyi)
  have hne : ∀ d ∈ u.clients, d.type = .server → d.ref ≠ cl := by
    intro d hd d1 e
    have : d = f := hbu.cl.ord.eq_of_ref hd hfm (e.trans (by rw [hf]; exact g2.symm))
    rw [this, hft] at d1; cases d1
  have hda : dropAction (sg :: ch) = sg :: ch := by
    obtain ⟨z, hz⟩ : ∃ z, (sg :: ch).getLast? = some z ∧ z ∈ ch := by
      refine ⟨ch.getLast hch, ?_, List.getLast_mem hch⟩
      rw [List.getLast?_cons, List.getLast?_eq_some_getLast hch]; rfl
    simp only [dropAction, hz.1]
    exact if_neg (by simp only [Bool.or_eq_true, beq_iff_eq]; exact fun z' => z'.elim (hpm z hz.2).1 (hpm z hz.2).2)
  have hline : ∀ (w : List Sent) (q : Msg), lineTo { u with out := w } f f q = some ⟨i, some (maskCloaked u f), q⟩ := by
    intro w q
    have e : nextHop { u with out := w } f = f := ((Like.hop (v := u) (t := { u with out := w }) ⟨rfl, rfl, rfl, rfl, rfl⟩ f).trans hhop :)
    simp only [lineTo, e, hfc, Option.map_some, getPrefix, hft]
    rfl
  have hwp : ∀ (w : List Sent) (q : Msg), writePrefix { u with out := w } f f q = { u with out := ⟨i, some (maskCloaked u f), q⟩ :: w } := by
    intro w q
    simp only [writePrefix, hline, Option.toList_some, List.singleton_append, Option.isNone_some, Bool.or_false]
  have hlen : ¬ (sg :: ch).length < 2 := by
    cases ch with
    | nil => exact absurd rfl hch
    | cons a as => simp
  have hmask : maskCloaked u f = publicMask u f := C63_mask u (by rw [hft]; decide)
  refine ⟨(if ms.contains 'x' then [⟨i, some (publicMask u f), ⟨"RPL_HOSTHIDDEN_MSG", [f.ID, publicHost u f]⟩⟩] else []) ++ (o ++ [⟨i, some (publicMask u f), m⟩]), ?_, ?_⟩
  · rw [← hu]
    simp only [userModeFinish, if_neg hlen, hda, hcl, hft]
    have e1 := hwp u.out m
    rw [show ({ u with out := u.out } : Srv) = u from rfl] at e1
    rw [← hm]
    rw [if_neg (show ¬ CType.user = CType.server from by decide), e1]
    have e2 := h1 { u with out := ⟨i, some (maskCloaked u f), m⟩ :: u.out } ⟨rfl, rfl, rfl, rfl, rfl⟩
    have e3 : Srv.cl { u with out := ⟨i, some (maskCloaked u f), m⟩ :: u.out } cl = f := hcl
    rw [e3, e2]
    have e4 : ∀ w, Srv.cl { u with out := w } cl = f := fun w => hcl
    simp only [e4, hfc, Option.isSome_some, Bool.and_true]
    have e5 : ∀ w, displayedHost { u with out := w } f = publicHost u f := fun w => displayedHost_public u f
    rw [hmask]
    have hso : s.out = u.out := by rw [hu]; rfl
    by_cases hx : ms.contains 'x' = true
    · rw [if_pos hx, if_pos hx, hwp, e5, hmask, hso]
      simp
    · rw [if_neg hx, if_neg hx, hso]
      simp
  · have hw : withClient s cl (fun d => { d with modes := M }) = u := by rw [hu]; rfl
    rw [hw, ← hf]
    have hx : ('x' ∈ ms) ↔ ms.contains 'x' = true := List.contains_iff_mem.symm
    refine ⟨?_, ?_, ?_⟩
    · simp only [onConn, List.filter_append] at hoi ⊢
      rw [hoi, hm]
      by_cases h : ms.contains 'x' = true
      · simp only [if_pos h, if_pos (hx.2 h)]
        simp
      · simp only [if_neg h, if_neg (fun g => h (hx.1 g))]
        simp
    · intro j hj
      obtain ⟨d, hd, d1, d2⟩ := (hlk j).1 hj
      have h4 := h2 j d hd d1 d2 (by intro e; injection e with e; exact hne d hd d1 e)
      have hji : ¬ i = j := fun e => hci' j hj e.symm
      simp only [onConn, List.filter_append] at h4 ⊢
      rw [h4, hm]
      by_cases h : ms.contains 'x' = true
      · simp [if_pos h, hji]
      · simp [if_neg h, hji]
    · intro y hy
      rw [List.mem_append, List.mem_append] at hy
      rcases hy with hy | hy | hy
      · split at hy
        · rw [List.mem_singleton] at hy; exact .inl (by rw [hy])
        · cases hy
      · obtain ⟨d, hd, d1, d2, -⟩ := h3 y hy
        exact .inr ((hlk _).2 ⟨d, hd, d1, d2⟩)
      · rw [List.mem_singleton] at hy; exact .inl (by rw [hy])

/-- The MODE command of a local user about itself. -/
theorem umode_run (h : PoliteRun s) (hr : Received s i l cl req) (his : Is req "MODE") (hty : (s.cl cl).type = .user) (rnd : Int)
    {a : Str} {rest : List Str} (hargs : req.argv = a :: rest) (hv : ValidNick s.conf.maxNickLength a) (hname : SameCase (s.cl cl).id (nickPart a)) :
    step s (.line i rnd l) = clientMode (s.roll rnd) cl cl cl req := by
  have hb := h.reachable.base
  obtain ⟨g1, g2, g3, g4⟩ := hr.owner hb
  have hf : Originator s cl req (s.cl cl) := ⟨g1, .inr ⟨(by rw [hty]; simp), g2⟩⟩
  obtain ⟨hg, -⟩ := sender_is h hr hf (by rw [hty]; decide) rnd
  have ha := hr.asker hb rnd
  have hst : step s (.line i rnd l) = (ircMODE (s.roll rnd) cl req).1 :=
    step_do hr rnd his rfl (by rw [hty]; rfl) (by
      simp only [Command.argcOk, Bool.and_eq_true, decide_eq_true_eq, Request.argc, hargs]
      exact ⟨Nat.succ_le_succ (Nat.zero_le _), trivial⟩)
  have hmc : modeCl (s.roll rnd) cl req = cl := by
    simp only [modeCl]
    split
    · rename_i c hc
      split
      · rename_i he
        exfalso
        cases hp : req.prefix? with
        | none => rw [hp] at hc; cases hc
        | some p =>
          rw [hp] at hc
          have hc : clientSearch (s.roll rnd) p = some c := hc
          have h1 := (nextHop_iff ha.base ha.conn (clientSearch_mem hc)).1 (ha.pre p c hp hc)
          exact h1.ne_this ha.base (clientSearch_mem hc) he
      · rfl
    · rfl
  have harg : req.arg 0 = a := by simp only [Request.arg, hargs]; rfl
  have hid : (s.cl cl).id ≠ [] := (polite_nick h).named _ g1 (by rw [g3]; rfl) (.inr (.inl hty))
  have hs1 : clientSearch (s.roll rnd) a = some (s.cl cl) := by
    rw [roll_search]; exact (C13_lookup h a _).2 ⟨g1, hid, hname⟩
  rw [hst]
  rw [g2] at hg
  have hv' : isValidNick (s.roll rnd).conf.maxNickLength a = true := (isValidNick_iff _ _).2 hv
  simp only [ircMODE, hg, hmc, harg, hv', if_true, hs1, g2]

/-- **C62** The modes a local user may change of its own are set and cleared exactly as asked, and nothing else changes.
If any of them is new, the user and every server link get exactly one MODE line with the letters that changed, and the
user also its new public host name if that was asked for; otherwise nobody gets anything. -/
theorem C62_change (h : PoliteRun s) (hr : Received s i l cl req) (his : Is req "MODE") (hty : (s.cl cl).type = .user) (rnd : Int)
    {set : Bool} {a ms : Str} (hargs : req.argv = [a, (if set then '+' else '-') :: ms])
    (hv : ValidNick s.conf.maxNickLength a) (hname : SameCase (s.cl cl).id (nickPart a))
    (hms : ∀ m ∈ ms, MayUserMode s.conf (s.cl cl).modes set m) (hrx : 'r' ∈ ms → 'B' ∉ ms ∧ 'x' ∉ ms) (hmn : ms.Nodup)
    (hroom : (s.cl cl).modes.length + ms.length ≤ 20) :
    ∃ o, Emitted (withClient s cl (fun d => { d with modes := modesWith set (s.cl cl).modes ms })) (step s (.line i rnd l)) o ∧
      if changed set (s.cl cl).modes ms = [] then o = [] else
        UserModeTold (withClient s cl (fun d => { d with modes := modesWith set (s.cl cl).modes ms })) i
          { s.cl cl with modes := modesWith set (s.cl cl).modes ms } ms (if set then '+' else '-') (changed set (s.cl cl).modes ms) o := by
  have hb := h.reachable.base
  obtain ⟨g1, g2, g3, g4⟩ := hr.owner hb
  have hb' : Base (s.roll rnd) := Base.of_core (s := s) rfl hb
  have hsome : ((s.roll rnd).cl? cl).isSome = true := cl?_isSome_of_conn (s := s.roll rnd) (by show ((s.cl cl).conn).isSome = true; rw [g3]; rfl)
  rw [umode_run h hr his hty rnd hargs hv hname]
  have hlet : ∀ m, MayUserMode s.conf (s.cl cl).modes set m → m ≠ '+' ∧ m ≠ '-' ∧ m ≠ 'a' := by
    intro m hm
    refine ⟨?_, ?_, ?_⟩ <;> rintro rfl <;> rcases hm with h | ⟨h, -⟩ | ⟨h, -⟩ | ⟨h, -⟩ | ⟨h, -⟩ | ⟨h, -⟩ <;> exact absurd h (by decide)
  obtain ⟨sg, hsg⟩ : ∃ sg, sg = (if set then '+' else '-') := ⟨_, rfl⟩
  have hself : (s.roll rnd).updCl cl (fun d => { d with modes := (s.cl cl).modes }) = s.roll rnd := by
    simp only [Srv.updCl]
    have : (s.roll rnd).clients.map (fun d => if d.ref = cl then { d with modes := (s.cl cl).modes } else d) = (s.roll rnd).clients := by
      refine (List.map_congr_left (fun d hd => ?_)).trans (List.map_id _)
      simp only [id]
      split
      · rename_i e
        have hd' : d = s.cl cl := hb.cl.ord.eq_of_ref hd g1 (e.trans g2.symm)
        rw [hd']
      · rfl
    rw [this]
  have hloop := umode_loop (s := s.roll rnd) (t := cl) (cl := cl) hsome set cl (ms0 := ms) (M0 := (s.cl cl).modes) (the0 := [])
    (fun m hm => ⟨(hlet m (hms m hm)).1, (hlet m (hms m hm)).2.1, (hlet m (hms m hm)).2.2, fun M h1 h2 => by
      have hcl : ((s.roll rnd).updCl cl (fun d => { d with modes := M })).cl cl = { s.cl cl with modes := M } := by
        rw [cl_updCl (s.roll rnd) cl cl (fun d => { d with modes := M }) (fun _ => rfl) (fun _ => hsome), if_pos rfl]; rfl
      rw [hcl]
      refine verdict_user (conf := s.conf) rfl hty (hms m hm) ?_ ?_
      · rintro rfl ho
        exact (h2 'o' ho).resolve_right (fun g => absurd g.1 (by decide))
      · intro hBx hr' hin
        rcases h1 'r' hin with g | g
        · exact hr' g
        · have := hrx g.2
          rcases hBx with rfl | rfl
          · exact this.1 hm
          · exact this.2 hm⟩)
    ms (s.cl cl).modes [sg] false (fun m hm => hm) (fun a ha => .inl ha) (fun a ha => .inl ha) ((polite_mode h).cl _ g1) hmn (fun _ => hroom) (by simp; omega)
  rw [hself] at hloop
  have hrun : clientMode (s.roll rnd) cl cl cl req = userModeFinish { s := (s.roll rnd).updCl cl (fun d => { d with modes := modesWith set (s.cl cl).modes ms }), the := sg :: changed set (s.cl cl).modes ms, set := set, hidden := ms.contains 'x' } cl cl cl := by
    have hd : req.argv.drop 1 = [sg :: ms] := by rw [hargs, ← hsg]; rfl
    have hsgn : sg = '+' ∨ sg = '-' := by rw [hsg]; cases set <;> simp
    have hsgs : (sg == '+') = set := by rw [hsg]; cases set <;> rfl
    simp only [clientMode, hd, if_pos hsgn, hsgs, userModeLoop]
    rw [if_neg (by simp), hloop]
    simp only [Bool.false_or, List.singleton_append]
  rw [hrun, ← hsg]
  by_cases hch : changed set (s.cl cl).modes ms = []
  · refine ⟨[], ⟨rnd, ?_⟩, ?_⟩
    · simp only [userModeFinish, hch]
      rfl
    · rw [if_pos hch]
  · simp only [if_neg hch]
    obtain ⟨o, e1, e2⟩ := umode_told (s := s.roll rnd) (i := i) (cl := cl) hb' g1 g2 g3 hty (modesWith set (s.cl cl).modes ms) ms
      (changed set (s.cl cl).modes ms) sg hch (fun m hm => by
        have := hlet m (hms m (List.mem_filter.1 hm).1)
        exact ⟨this.1, this.2.1⟩) set
    exact ⟨o, ⟨rnd, e1⟩, e2.self, e2.links, e2.others⟩

/-- **C62** Asked for its modes, the server tells a user its own ones, and nothing else. -/
theorem C62_query (h : PoliteRun s) (hr : Received s i l cl req) (his : Is req "MODE") (hty : (s.cl cl).type = .user) (rnd : Int)
    {a : Str} (hargs : req.argv = [a]) (hv : ValidNick s.conf.maxNickLength a) (hname : SameCase (s.cl cl).id (nickPart a)) :
    ∃ src, Emitted s (step s (.line i rnd l)) [⟨i, src, ⟨"RPL_UMODEIS_MSG", [(s.cl cl).ID, (s.cl cl).modes]⟩⟩] := by
  have hb := h.reachable.base
  obtain ⟨g1, g2, g3, g4⟩ := hr.owner hb
  rw [umode_run h hr his hty rnd hargs hv hname]
  have hd : req.argv.drop 1 = [] := by rw [hargs]; rfl
  refine ⟨some (getPrefix (s.roll rnd) (s.cl cl) ((s.roll rnd).cl s.this)), rnd, ?_⟩
  simp only [clientMode, hd]
  rw [if_neg (by simp)]
  rw [write_local (u := s.roll rnd) (c := (s.roll rnd).cl cl) (i := i) (hb.cl.loc (s.cl cl) g1 (by rw [g3]; rfl)) g3]
  rfl

/-- **C63** In the lines local clients get about a user, this mask is what the sender looks like; only servers get the
bare nick. -/
theorem C63_shown (s : Srv) {c : Client} (hc : c.type ≠ .server) (j : Nat) :
    shownAs s c j = if isLink s j then c.ID else publicMask s c := by
  rw [shownAs, C63_mask s hc]

/-- **C63** With mode `x` the real host name is not in the mask: replacing it by any other one makes no difference, unless
the server makes the shown name from its hash. -/
theorem C63_hidden (s : Srv) {c : Client} (hx : 'x' ∈ c.modes) (h : c.cloaked ≠ none ∨ s.conf.cloakHostModeX = none) (host : Str) :
    publicMask s { c with host := host } = publicMask s c ∧ publicHost s { c with host := host } = publicHost s c := by
  have e : publicHost s { c with host := host } = publicHost s c := by
    unfold publicHost
    rw [if_neg (show ¬ 'x' ∉ ({ c with host := host } : Client).modes from fun g => g hx), if_neg (fun g => g hx)]
    cases hc : c.cloaked with
    | some z => rfl
    | none =>
      rcases h with h | h
      · exact absurd hc h
      · simp only [hc, h]
  exact ⟨by simp only [publicMask, e], e⟩

/-! ## Cases -/

/-- alice, an operator here, becomes invisible and cloaks its host name. -/
example : ∃ req, PoliteRun Sample.s5op ∧ Received Sample.s5op 5 "MODE Alice +ix".toList 3 req ∧ Is req "MODE" ∧ (Sample.s5op.cl 3).type = .user ∧
    req.argv = ["Alice".toList, (if true then '+' else '-') :: ['i', 'x']] ∧ ValidNick Sample.s5op.conf.maxNickLength "Alice".toList ∧
    SameCase (Sample.s5op.cl 3).id (nickPart "Alice".toList) ∧ (∀ m ∈ ['i', 'x'], MayUserMode Sample.s5op.conf (Sample.s5op.cl 3).modes true m) ∧
    ('r' ∈ ['i', 'x'] → 'B' ∉ ['i', 'x'] ∧ 'x' ∉ ['i', 'x']) ∧ ['i', 'x'].Nodup ∧ (Sample.s5op.cl 3).modes.length + ['i', 'x'].length ≤ 20 ∧
    changed true (Sample.s5op.cl 3).modes ['i', 'x'] = ['i', 'x'] :=
  ⟨⟨none, "MODE".toList, ["Alice".toList, "+ix".toList]⟩, polite_s5op, recv_sound (by decide +kernel), by simp only [Is]; decide, by decide +kernel, rfl,
    (C14_nick_check _ _).1 (by decide +kernel), (caseEq_same _ _).1 (by decide +kernel), fun m hm => (by
      rcases List.mem_cons.1 hm with rfl | hm
      · exact .inl (by decide)
      · rw [List.mem_singleton] at hm
        subst hm
        exact .inr (.inr (.inr (.inr (.inr ⟨rfl, by decide +kernel, .inr (.inr (by decide +kernel))⟩))))),
    by decide, by decide, by decide +kernel, by decide +kernel⟩

/-- bob asks for his modes. -/
example : ∃ req, PoliteRun Sample.s5op ∧ Received Sample.s5op 6 "MODE bob".toList 4 req ∧ Is req "MODE" ∧ (Sample.s5op.cl 4).type = .user ∧
    req.argv = ["bob".toList] ∧ ValidNick Sample.s5op.conf.maxNickLength "bob".toList ∧ SameCase (Sample.s5op.cl 4).id (nickPart "bob".toList) :=
  ⟨⟨none, "MODE".toList, ["bob".toList]⟩, polite_s5op, recv_sound (by decide +kernel), by simp only [Is]; decide, by decide +kernel, rfl,
    (C14_nick_check _ _).1 (by decide +kernel), (caseEq_same _ _).1 (by decide +kernel)⟩

/-- alice with mode `x`: others see the name of its server instead of its address. -/
example : publicMask Sample.s5 { Sample.s5.cl 3 with modes := ['x'] } = "alice!~alice@irc.example.net".toList ∧
    publicMask Sample.s5 (Sample.s5.cl 3) = "alice!~alice@1.2.3.4".toList := by decide +kernel

/-! ## Asking for the modes of a channel -/

/-- **C64** Anybody may ask for the modes of a channel; but only members are told the key and the limit, too. -/
theorem C64_query (h : PoliteRun s) (hr : Received s i l cl req) (his : Is req "MODE") (hty : (s.cl cl).type = .user) (rnd : Int)
    {a : Str} (hargs : req.argv = [a]) (hc : c ∈ s.chans) (hname : SameCase c.name a) (hml : c.name.head? ≠ some '+') :
    ∃ src, Emitted s (step s (.line i rnd l))
      [⟨i, src, ⟨"RPL_CREATIONTIME_MSG", [(s.cl cl).ID, c.name, intStr c.creationTime]⟩⟩,
       ⟨i, src, ⟨"RPL_CHANNELMODEIS_MSG", [(s.cl cl).ID, c.name, c.modes ++ if OnChannel s c.ref cl then modeArgs c else []]⟩⟩] := by
  have hb := h.reachable.base
  obtain ⟨g1, g2, g3, g4⟩ := hr.owner hb
  have hf : Originator s cl req (s.cl cl) := ⟨g1, .inr ⟨(by rw [hty]; simp), g2⟩⟩
  have harg : req.arg 0 = a := by simp only [Request.arg, hargs]; rfl
  rw [mode_chan h hr his (.inl hty) hf (by rw [hty]; decide) rnd (by rw [hargs]; simp) hc (by rw [harg]; exact hname), g2]
  have hloc := hb.cl.loc (s.cl cl) g1 (by rw [g3]; rfl)
  have hm : ¬ c.isModeless = true := by simpa [Chan.isModeless] using hml
  have hd : req.argv.drop 1 = [] := by rw [hargs]; rfl
  have hthe : (if isMemberOf (s.roll rnd) c.ref ((s.roll rnd).cl cl).ref = true then c.modes ++ modeArgs c else c.modes) = c.modes ++ if OnChannel s c.ref cl then modeArgs c else [] := by
    have e : isMemberOf (s.roll rnd) c.ref ((s.roll rnd).cl cl).ref = true ↔ OnChannel s c.ref cl := by
      rw [show ((s.roll rnd).cl cl).ref = cl from g2]; exact isMemberOf_iff
    by_cases hon : OnChannel s c.ref cl
    · rw [if_pos (e.2 hon), if_pos hon]
    · rw [if_neg (fun g => hon (e.1 g)), if_neg hon, List.append_nil]
  have hrun : channelMode (s.roll rnd) cl cl c req = write (write (s.roll rnd) (s.cl cl) ⟨"RPL_CHANNELMODEIS_MSG",
      [(s.cl cl).ID, c.name, c.modes ++ if OnChannel s c.ref cl then modeArgs c else []]⟩) (s.cl cl) ⟨"RPL_CREATIONTIME_MSG", [(s.cl cl).ID, c.name, intStr c.creationTime]⟩ := by
    rw [← hthe]
    simp only [channelMode, if_neg hm, hd]
    rfl
  rw [hrun, write_local (u := s.roll rnd) (c := s.cl cl) (i := i) hloc g3, write_local (c := s.cl cl) (i := i) (by exact hloc) g3]
  exact ⟨some (getPrefix (s.roll rnd) (s.cl cl) ((s.roll rnd).cl s.this)), rnd, rfl⟩

/-- alice, a member, asks for the modes of #c. -/
example : ∃ req, PoliteRun Sample.s5 ∧ Received Sample.s5 5 "MODE #C".toList 3 req ∧ Is req "MODE" ∧ (Sample.s5.cl 3).type = .user ∧
    req.argv = ["#C".toList] ∧ Sample.s5.chan 5 ∈ Sample.s5.chans ∧ SameCase (Sample.s5.chan 5).name "#C".toList ∧ (Sample.s5.chan 5).name.head? ≠ some '+' :=
  ⟨⟨none, "MODE".toList, ["#C".toList]⟩, polite_s5, recv_sound (by decide +kernel), by simp only [Is]; decide, by decide +kernel, rfl,
    sample_c.1, sample_c.2.1, sample_c.2.2.1⟩

/-- bob, not on #i where alice has set a key, is shown the mode, but not the key. -/
def Sample.s5k : Srv := Sample.lines Sample.s5 5 ["JOIN #i", "MODE #i +k geheim"]

example : (step Sample.s5k (.line 6 0 "MODE #i".toList)).out.take 2 =
    [⟨6, some "irc.example.net".toList, ⟨"RPL_CREATIONTIME_MSG", ["bob".toList, "#i".toList, "1000".toList]⟩⟩,
     ⟨6, some "irc.example.net".toList, ⟨"RPL_CHANNELMODEIS_MSG", ["bob".toList, "#i".toList, "k".toList]⟩⟩] := by decide +kernel

end Ngircd
