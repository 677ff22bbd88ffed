import Verif.Lemmas.HLogin

/-!
# PASS, NICK, USER, … as runs of guarded actions
-/

set_option linter.unusedSimpArgs false

namespace Ngircd

variable {x : Ctx} {s t u : Srv}

theorem ircPASS_steps {cl : Nat} {req : Request} (h : Hnd x s cl req) (hm : Spec.Is req "PASS") :
    Steps (Okay x) s (ircPASS s cl req).1 := by
  simp only [ircPASS]
  split
  · exact .same rfl
  · split
    · rename_i hc
      have hty : (s.cl cl).type = .unknown ∨ (s.cl cl).type = .unknownServer := by
        simp only [Bool.or_eq_true, Bool.and_eq_true, decide_eq_true_eq] at hc
        rcases hc with h | h
        · exact .inl h.1
        · exact h.1
      have hty : (s.cl cl).type = .unknown ∨ ((s.cl cl).type = .unknownServer ∧ ((s.cl cl).id = [] ∨ x.bad)) := by
        rcases hty with ht | ht
        · exact .inl ht
        · refine .inr ⟨ht, ?_⟩
          rcases h.polite with hp | hp
          · exact .inr hp
          · exact .inl (hp.pass ht hm)
      have h1 : Steps (Okay x) s (updConnOf s (s.cl cl) (fun k => { k with pwd := strlcpy 65 (req.arg 0) })) :=
        .updConnOf (fun i hi => ⟨fun _ => ⟨rfl, rfl, rfl⟩, .inr ⟨by rw [h.xcl]; exact hi, by rw [Ctx.is, h.cmd]; exact hm, fun _ => by rw [h.argv]; rfl⟩, .inl (fun _ => ⟨rfl, rfl⟩), .inl (fun _ => rfl)⟩)
      have hcl := updConnOf_clients (s := s) (s.cl cl) (fun k => { k with pwd := strlcpy 65 (req.arg 0) })
      generalize updConnOf s (s.cl cl) (fun k => { k with pwd := strlcpy 65 (req.arg 0) }) = s1 at *
      generalize hty' : (if decide (req.argc ≥ 2) && decide ((req.arg 1).length ≥ 4) then CType.gotPass2813 else .gotPass) = ty
      have h2 : Steps (Okay x) s1 (clientSetType s1 cl ty) := by
        refine .setLocal (h1.base h.base) (by rw [cl_congr hcl]; exact h.conn) ?_ (.inl ?_)
        · rw [← hty']; split <;> decide
        · rw [← hty']
          split <;> (simp only [LocalType]; rw [cl_congr hcl]; exact ⟨h.xcl.symm, hty⟩)
      refine h1.trans (h2.trans ?_)
      split
      · exact .soft (fun _ => ⟨rfl, rfl, rfl, rfl, rfl, rfl, rfl, rfl⟩)
      · exact .rfl'
    · split
      · exact .same (core_needMoreParams _ _ _)
      · exact .same rfl

/-! ## NICK -/

/-- A new name is valid and free, or the old one up to letter case. -/
def NewNick (s : Srv) (r : Nat) (nick : Str) : Prop :=
  (isValidNick s.conf.maxNickLength nick = true ∧ clientSearch s nick = none) ∨
  (caseEq (s.cl r).id nick = true ∧ nick ≠ [])

theorem NewNick.congr {r : Nat} {nick : Str} (h : NewNick s r nick) (hc : t.core = s.core) :
    NewNick t r nick := by
  unfold NewNick
  rw [core_conf hc, core_clientSearch hc, core_cl hc]; exact h

theorem NewNick.ne_nil {r : Nat} {nick : Str} (h : NewNick s r nick) : nick ≠ [] := by
  rcases h with h | h
  · rintro rfl; simp [isValidNick] at h
  · exact h.2

theorem setIdC_ref (conf : Conf) (c : Client) (id : Str) : (setIdC conf c id).ref = c.ref := by
  simp only [setIdC]; split <;> rfl
theorem setIdC_type (conf : Conf) (c : Client) (id : Str) : (setIdC conf c id).type = c.type := by
  simp only [setIdC]; split <;> rfl
theorem setIdC_conn (conf : Conf) (c : Client) (id : Str) : (setIdC conf c id).conn = c.conn := by
  simp only [setIdC]; split <;> rfl
theorem setIdC_id (conf : Conf) (c : Client) (id : Str) :
    (setIdC conf c id).id = strlcpy CLIENT_ID_LEN id := by
  simp only [setIdC]; split <;> rfl
theorem setIdC_intro (conf : Conf) (c : Client) (id : Str) :
    (setIdC conf c id).introducer = c.introducer := by
  simp only [setIdC]; split <;> rfl
theorem setIdC_caps (conf : Conf) (c : Client) (id : Str) : (setIdC conf c id).caps = c.caps := by
  simp only [setIdC]; split <;> rfl

theorem setID_type (s : Srv) (r r' : Nat) (id : Str) :
    ((clientSetID s r id).cl r').type = (s.cl r').type :=
  cl_updCl_field Client.type s r r' _ (fun _ => setIdC_ref _ _ _) (fun _ => setIdC_type _ _ _)
theorem setID_conn (s : Srv) (r r' : Nat) (id : Str) :
    ((clientSetID s r id).cl r').conn = (s.cl r').conn :=
  cl_updCl_field Client.conn s r r' _ (fun _ => setIdC_ref _ _ _) (fun _ => setIdC_conn _ _ _)
theorem setID_id {r : Nat} (id : Str) (h : (s.cl? r).isSome = true) :
    ((clientSetID s r id).cl r).id = strlcpy CLIENT_ID_LEN id := by
  rw [clientSetID, cl_updCl s r r _ (fun c => setIdC_ref _ _ _) (fun _ => h), if_pos rfl, setIdC_id]

theorem strlcpy_id_ne {nick : Str} (h : nick ≠ []) : strlcpy CLIENT_ID_LEN nick ≠ [] := by
  cases nick with
  | nil => exact absurd rfl h
  | cons a l => simp [strlcpy, CLIENT_ID_LEN]

theorem clientCheckNick_true {c : Client} {nick : Str} {s' : Srv}
    (h : clientCheckNick s c nick = (s', true)) :
    s' = s ∧ isValidNick s.conf.maxNickLength nick = true ∧ clientSearch s nick = none := by
  simp only [clientCheckNick] at h
  split at h
  · split at h <;> cases h
  · rename_i h1
    split at h
    · cases h
    · split at h
      · cases h
      · rename_i h2
        injection h with h _
        exact ⟨h.symm, by simpa using h1, by simpa using h2⟩

theorem clientCheckNick_core (c : Client) (nick : Str) :
    (clientCheckNick s c nick).1.core = s.core := by
  simp only [clientCheckNick]
  repeat' split
  all_goals rfl

theorem changeNick_steps {o r : Nat} {nick : Str} {b : Bool} (hne : r ≠ s.this)
    (h : NewNick s r nick ∨ x.bad) (hwh : x.peer ∨ (r = x.cl ∧ x.is "NICK" ∧ ¬ x.fresh)) :
    Steps (Okay x) s (changeNick s o r nick b) := by
  simp only [changeNick]
  generalize hs1 : (if b = true then writeServers (writePrefix s (s.cl r) (s.cl r) ⟨"NICK", [nick]⟩) none (s.cl r) ⟨"NICK", [nick]⟩
    else writeServers s (some o) (s.cl r) ⟨"NICK", [nick]⟩) = s1
  have h1 : s1.core = s.core := by rw [← hs1]; split <;> rfl
  have h2 : (writeRelatedPrefix s1 r (s.cl r) false ⟨"NICK", [nick]⟩).core = s.core :=
    (core_writeRelatedPrefix _ _ _ _ _).trans h1
  generalize writeRelatedPrefix s1 r (s.cl r) false ⟨"NICK", [nick]⟩ = s2 at h2
  refine Steps.trans (t := registerWhowas s2 (s.cl r)) (.trans (.same h2) (.one (.whowas (s.cl r)) ⟨r, by rw [core_cl h2], hwh.imp_right (fun h => ⟨h.1, h.2.1⟩)⟩ rfl)) ?_
  obtain ⟨a, b', hw⟩ := registerWhowas_eq s2 (s.cl r)
  rw [hw]
  refine .one (.setId r nick) ⟨?_, ?_, hwh.imp_right (fun h => ⟨h.1, fun _ => h.2⟩)⟩ rfl
  · show r ≠ s2.this
    rw [core_this h2]; exact hne
  · rcases h with h | h
    · have h' := h.congr h2
      rcases h' with h' | h'
      · exact .inl h'
      · exact .inr (.inl h')
    · exact .inr (.inr (.inr h))

theorem nickNew_steps {cl target : Nat} {nick : Str} (hb : Base s)
    (hc : (s.cl cl).conn.isSome = true) (hne : target ≠ s.this) (hx : x.cl = cl) (hn : x.is "NICK")
    (h : (NewNick s target nick ∧ target = cl ∧
      ((s.cl cl).type = .unknown ∨ (s.cl cl).type = .gotPass ∨ (s.cl cl).type = .gotNick ∨
        (s.cl cl).type = .gotUser)) ∨ (x.bad ∧ (s.cl cl).type ≠ .gotUser))
    (hdef : x.loose ∨ 'P' ∉ s.conf.defaultUserModes) (hfr : (s.cl cl).type ≠ .user → x.fresh) (hown : (s.cl cl).type ≠ .server → ¬ x.peer)
    (hw : x.peer ∨ target = cl) (hu : (s.cl cl).type ≠ .user) :
    Steps (Okay x) s (nickNew s cl target nick).1 := by
  simp only [nickNew]
  have h1 : Steps (Okay x) s (clientSetID s target nick) := by
    refine .one (.setId target nick) ⟨hne, ?_, hw.imp_right (fun h => ⟨h.trans hx.symm, fun e => absurd (by rw [← h]; exact e) hu⟩)⟩ rfl
    rcases h with ⟨h, _⟩ | h
    · rcases h with h | h
      · exact .inl h
      · exact .inr (.inl h)
    · exact .inr (.inr (.inr h.1))
  have hty := setID_type s target cl nick
  have hcn := setID_conn s target cl nick
  have hid : target = cl → nick ≠ [] → ((clientSetID s target nick).cl cl).id ≠ [] := by
    rintro rfl hne
    rw [setID_id nick (cl?_isSome_of_conn hc)]
    exact strlcpy_id_ne hne
  have hconf : (clientSetID s target nick).conf = s.conf := rfl
  generalize clientSetID s target nick = s1 at *
  generalize hs2 : (if s1.conf.authPing = true then
      (match (((Ngircd.updConnOf s1 (s1.cl cl) (fun k => { k with authPing := s1.rnd })).cl cl).conn) with
      | some i => (Ngircd.updConnOf s1 (s1.cl cl) (fun k => { k with authPing := s1.rnd })).emit i none
          ⟨"PING", [intStr (Ngircd.updConnOf s1 (s1.cl cl) (fun k => { k with authPing := s1.rnd })).rnd]⟩
      | none => (Ngircd.updConnOf s1 (s1.cl cl) (fun k => { k with authPing := s1.rnd })).crash)
    else s1) = s2
  have h2 : Steps (Okay x) s1 s2 ∧ s2.clients = s1.clients ∧ s2.conf = s1.conf := by
    rw [← hs2]
    have hu : Steps (Okay x) s1 (updConnOf s1 (s1.cl cl) (fun k => { k with authPing := s1.rnd })) :=
      .updConnOf (fun i hi => ⟨fun _ => ⟨rfl, rfl, rfl⟩, .inl (fun _ => rfl), .inl (fun _ => ⟨rfl, rfl⟩), .inr ⟨by rw [hx]; exact hi, .inl ⟨hn, .inl (by rw [hx, hty]; exact hu)⟩⟩⟩)
    have hcl := updConnOf_clients (s := s1) (s1.cl cl) (fun k => { k with authPing := s1.rnd })
    have hcf : (updConnOf s1 (s1.cl cl) (fun k => { k with authPing := s1.rnd })).conf = s1.conf := by
      simp only [Ngircd.updConnOf]; split <;> rfl
    split
    · split
      · exact ⟨hu.congr_right rfl, hcl, hcf⟩
      · exact ⟨hu.congr_right rfl, hcl, hcf⟩
    · exact ⟨.rfl', rfl, rfl⟩
  obtain ⟨h2, hcl2, hconf2⟩ := h2
  have hb2 := h2.base (h1.base hb)
  have hcl2' := cl_congr hcl2 cl
  have hc2 : (s2.cl cl).conn.isSome = true := by rw [hcl2', hcn]; exact hc
  refine h1.trans (h2.trans ?_)
  split
  · rename_i hu
    rw [hcl2', hty] at hu
    rcases h with ⟨hnn, ht, _⟩ | ⟨_, h⟩
    · refine loginUser_steps hb2 hc2 hx (.inl ⟨?_, hn, ?_⟩) ?_ (hfr (by rw [hu]; decide)) (hown (by rw [hu]; decide))
      · rw [hcl2', hty]; exact hu
      · rw [hcl2']; exact hid ht hnn.ne_nil
      · rw [hconf2, hconf]; exact hdef
    · exact absurd hu h
  · rename_i hu
    rw [hcl2', hty] at hu
    refine .setLocal hb2 hc2 (by decide) ?_
    rcases h with ⟨hnn, ht, h⟩ | ⟨h, _⟩
    · left
      refine ⟨hx.symm, hn, ?_, ?_⟩
      · rw [hcl2']; exact hid ht hnn.ne_nil
      · rw [hcl2', hty]
        rcases h with h | h | h | h
        · exact .inl h
        · exact .inr (.inl h)
        · exact .inr (.inr h)
        · exact absurd h hu
    · exact .inr h

theorem nickTarget_steps {cl target : Nat} {nick : Str} (hb : Base s)
    (hc : (s.cl cl).conn.isSome = true) (hne : target ≠ s.this) (hx : x.cl = cl) (hn : x.is "NICK")
    (h : (target = cl ∧
      ((s.cl cl).type = .unknown ∨ (s.cl cl).type = .gotPass ∨ (s.cl cl).type = .gotNick ∨
        (s.cl cl).type = .gotUser ∨ (s.cl cl).type = .user ∨ (s.cl cl).type = .service)) ∨
      ((Spec.Person (s.cl target) ∨ x.bad) ∧ (s.cl cl).type ≠ .gotUser))
    (hdef : x.loose ∨ 'P' ∉ s.conf.defaultUserModes) (hfr : (s.cl cl).type ≠ .user → x.fresh) (hown : (s.cl cl).type ≠ .server → ¬ x.peer)
    (hw : x.peer ∨ (target = cl ∧ ((s.cl cl).type = .user → ¬ x.fresh) ∧ (s.cl cl).type ≠ .server)) (hs : (s.cl cl).type = .user → target = cl) :
    Steps (Okay x) s (nickTarget s cl target nick).1 := by
  simp only [nickTarget]
  split
  · exact .rfl'
  · rename_i hID
    generalize hchk : (if caseEq (s.cl target).ID nick then ((s, true) : HRes)
      else clientCheckNick s (s.cl target) nick) = chk
    obtain ⟨s1, b⟩ := chk
    cases b with
    | false =>
      simp only
      split at hchk
      · cases hchk
      · have := clientCheckNick_core (s := s) (s.cl target) nick
        rw [hchk] at this
        exact .same this
    | true =>
      simp only
      have hs1 : s1 = s ∧ NewNick s target nick := by
        split at hchk
        · rename_i hce
          injection hchk with hchk _
          refine ⟨hchk.symm, .inr ?_⟩
          by_cases he : (s.cl target).id = []
          · exfalso
            have hstar : (s.cl target).ID = ['*'] := by simp [Client.ID, he]
            rw [hstar] at hce hID
            rw [caseEq_iff] at hce
            match nick, hce, hID with
            | [], hce, _ => simp at hce
            | [c], hce, hID =>
              simp only [lowerStr_cons, lowerStr_nil, List.cons.injEq, and_true] at hce
              apply hID
              have h1 : (toLower '*').toNat = (toLower c).toNat := by rw [hce]
              rw [toLower_toNat, toLower_toNat] at h1
              have h2 : '*'.toNat = c.toNat := by
                have : '*'.toNat = 42 := rfl
                have hA : 'A'.toNat = 65 := rfl
                have hZ : 'Z'.toNat = 90 := rfl
                split at h1 <;> split at h1 <;> simp_all <;> omega
              rw [char_ext_toNat h2]
            | _ :: _ :: _, hce, _ => simp at hce
          · have hID' : (s.cl target).ID = (s.cl target).id := by simp [Client.ID, he]
            rw [hID'] at hce
            refine ⟨hce, ?_⟩
            rintro rfl
            rw [caseEq_iff] at hce
            apply he
            simpa [lowerStr] using hce
        · obtain ⟨h1, h2, h3⟩ := clientCheckNick_true hchk
          exact ⟨h1, .inl ⟨h2, h3⟩⟩
      obtain ⟨rfl, hnn⟩ := hs1
      split
      · rename_i hnr
        simp only [Bool.and_eq_true, decide_eq_true_eq] at hnr
        refine nickNew_steps hb hc hne hx hn ?_ hdef hfr hown (hw.imp_right (fun h => h.1)) (fun e => ?_)
        rotate_left
        · rw [hs e, e] at hnr
          simp at hnr
        rcases h with ⟨rfl, h⟩ | ⟨h, h'⟩
        · refine .inl ⟨hnn, rfl, ?_⟩
          rcases h with h | h | h | h | h | h
          · exact .inl h
          · exact .inr (.inl h)
          · exact .inr (.inr (.inl h))
          · exact .inr (.inr (.inr h))
          · simp [h] at hnr
          · simp [h] at hnr
        · refine .inr ⟨?_, h'⟩
          rcases h with h | h
          · rcases h with h | h <;> simp [h] at hnr
          · exact h
      · simp only [nickChange]
        split
        · exact .same rfl
        · refine changeNick_steps hne (.inl hnn) (hw.imp_right (fun h' => ⟨h'.1.trans hx.symm, hn, h'.2.1 ?_⟩))
          rename_i hnr _ _
          rw [h'.1] at hnr
          have hsv := hb.cl.locSvc _ (mem_of_conn hc).1 hc
          by_cases hu : (s1.cl cl).type = .user
          · exact hu
          · exact absurd (by simp [hu, hsv, h'.2.2]) hnr

end Ngircd
