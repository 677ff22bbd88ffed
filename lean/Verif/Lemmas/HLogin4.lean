import Verif.Lemmas.HLogin3

/-!
# USER, SERVICE, WEBIRC, QUIT, PONG, CAP, METADATA as runs of guarded actions
-/

set_option linter.unusedSimpArgs false

namespace Ngircd

variable {x : Ctx} {s t u : Srv}

/-- A client a prefix names is the sender or is not connected here. -/
theorem Hnd.pre_conn {cl : Nat} {req : Request} (h : Hnd x s cl req) {p : Str} {c : Client}
    (hp : req.prefix? = some p) (hs : clientSearch s p = some c) (hne : c.ref ≠ cl) : c.conn = none := by
  cases hc : c.conn with
  | none => rfl
  | some i =>
    have := h.pre p c hp hs
    rw [h.base.nextHop_conn (clientSearch_mem hs) (by rw [hc]; rfl)] at this
    exact absurd this hne

theorem Hnd.notService {cl : Nat} {req : Request} (h : Hnd x s cl req) : (s.cl cl).type ≠ .service :=
  h.base.cl.locSvc _ h.mem.1 h.conn

theorem keeps_caps (f : Client → Caps) : KeepsCl (fun c => { c with caps := f c }) :=
  fun _ => ⟨rfl, rfl, rfl, rfl, rfl, rfl, rfl, rfl⟩

theorem updCl_conf (r : Nat) (f : Client → Client) : (s.updCl r f).conf = s.conf := rfl

theorem ircUSER_steps {cl : Nat} {req : Request} (h : Hnd x s cl req) (hm : Spec.Is req "USER") :
    Steps (Okay x) s (ircUSER s cl req).1 := by
  have hn : x.is "USER" := by unfold Ctx.is; rw [h.cmd]; exact hm
  simp only [ircUSER]
  split
  · rename_i hty
    split
    · exact .same (core_needMoreParams _ _ _)
    · split
      · split
        · exact .connClose h.base (own_may h.base ‹_› (self_may h.xcl)) _ _
        · exact .same rfl
      · have hnu : (s.cl cl).type ≠ .user := by
          simp only [Bool.or_eq_true, decide_eq_true_eq] at hty
          rcases hty with (h | h) | h <;> rw [h] <;> decide
        generalize hu : cutAt (req.arg 0) '@' = un
        generalize hi : (if (req.arg 3).isEmpty = true then ['-'] else req.arg 3) = inf
        have h1 : Steps (Okay x) s (clientSetInfo (clientSetUser s cl un false) cl inf) :=
          Steps.trans (.setUser _ _ _ (.inl hnu)) (.setInfo _ _ (.inl (by
            exact fun e => hnu ((keeps_cl (s := s) (r := cl) (keeps_setUserC s.conf un false) cl).2.2.1.symm.trans e))))
        have k1 := keeps_cl (s := s) (r := cl) (keeps_setUserC s.conf un false) cl
        have k2 := keeps_cl (s := clientSetUser s cl un false) (r := cl) (keeps_setInfoC s.conf inf) cl
        have hconf : (clientSetInfo (clientSetUser s cl un false) cl inf).conf = s.conf := rfl
        have kt : ((clientSetInfo (clientSetUser s cl un false) cl inf).cl cl).type = (s.cl cl).type :=
          k2.2.2.1.trans k1.2.2.1
        have kc : ((clientSetInfo (clientSetUser s cl un false) cl inf).cl cl).conn = (s.cl cl).conn :=
          k2.2.2.2.trans k1.2.2.2
        generalize clientSetInfo (clientSetUser s cl un false) cl inf = s1 at *
        have hb1 := h1.base h.base
        split
        · rename_i hg
          refine h1.trans (loginUser_steps hb1 (by rw [kc]; exact h.conn) h.xcl ?_ (by rw [hconf]; exact h.defP)
            (h.fresh (by rw [hg]; decide)) (h.own (by rw [hg]; decide)))
          exact .inr (.inl ⟨kt.trans hg, hn⟩)
        · rename_i hg
          refine h1.trans (.setLocal hb1 (by rw [kc]; exact h.conn) (by decide) (.inl ⟨h.xcl.symm, hn, ?_⟩))
          rw [kt]
          simp only [Bool.or_eq_true, decide_eq_true_eq] at hty
          rcases hty with (h | h) | h
          · exact absurd h hg
          · exact .inl h
          · exact .inr h
  · split
    · rename_i hty
      have hs : (s.cl cl).type = .server := by
        simp only [Bool.or_eq_true, decide_eq_true_eq] at hty
        exact hty.resolve_right h.notService
      split
      · exact .same (core_needMoreParams _ _ _)
      · split
        · exact .same (core_needMoreParams _ _ _)
        · rename_i p hp
          split
          · exact .same rfl
          · rename_i u hu
            have h1 : Steps (Okay x) s (clientSetInfo (clientSetHostname (clientSetUser s u.ref (req.arg 0) true)
                u.ref (req.arg 1)) u.ref (req.arg 3)) :=
              Steps.trans (.setUser _ _ _ (.inr (h.peer hs))) (Steps.trans (.setHost _ _ (.inr (h.peer hs)))
                (.setInfo _ _ (.inr (h.peer hs))))
            have k1 := keeps_cl (s := s) (r := u.ref) (keeps_setUserC s.conf (req.arg 0) true) u.ref
            have k2 := keeps_cl (s := clientSetUser s u.ref (req.arg 0) true) (r := u.ref)
              (keeps_setHostC s.conf (req.arg 1)) u.ref
            have k3 := keeps_cl (s := clientSetHostname (clientSetUser s u.ref (req.arg 0) true) u.ref (req.arg 1))
              (r := u.ref) (keeps_setInfoC s.conf (req.arg 3)) u.ref
            have kt := k3.2.2.1.trans (k2.2.2.1.trans k1.2.2.1)
            have kc := k3.2.2.2.trans (k2.2.2.2.trans k1.2.2.2)
            split
            · rename_i hg
              have hne : u.ref ≠ cl := by
                intro he
                have := cl_ref_of_search h.base hu
                rw [he] at this
                rw [this] at hs
                rw [hs] at hg
                cases hg
              have hcu : (s.cl u.ref).type = .gotNick := by rw [cl_ref_of_search h.base hu]; exact hg
              refine h1.trans (clientIntroduce_remote ?_ ?_ ?_ (h.peer hs) (.inl rfl) (.inl ?_))
              · show u.ref ≠ s.this
                exact h.pre_ne hp hu
              · exact kc.trans (by rw [cl_ref_of_search h.base hu]; exact h.pre_conn hp hu hne)
              · have : ((clientSetInfo (clientSetHostname (clientSetUser s u.ref (req.arg 0) true)
                  u.ref (req.arg 1)) u.ref (req.arg 3)).cl u.ref).type = .gotNick := kt.trans hcu
                cases hf : (clientSetInfo (clientSetHostname (clientSetUser s u.ref (req.arg 0) true)
                  u.ref (req.arg 1)) u.ref (req.arg 3)).cl? u.ref with
                | none => simp [Srv.cl, hf, noClient] at this
                | some _ => rfl
              · have : ((clientSetInfo (clientSetHostname (clientSetUser s u.ref (req.arg 0) true)
                  u.ref (req.arg 1)) u.ref (req.arg 3)).cl u.ref).type = .gotNick := kt.trans hcu
                rw [this]; decide
            · exact h1
    · split <;> exact .same rfl

/-- `'@'` is not in the part before `'!'`. -/
theorem cutAt_swap {a : Str} {p q : Char} (h : q ∉ cutAt a p) : cutAt (cutAt a q) p = cutAt a p := by
  induction a with
  | nil => rfl
  | cons c a ih =>
    simp only [cutAt, List.takeWhile_cons] at *
    by_cases hp : c = p
    · subst hp
      split <;> simp
    · have hp' : (c != p) = true := by simp [hp]
      rw [if_pos hp'] at h ⊢
      simp only [List.mem_cons, not_or] at h
      have hq : (c != q) = true := by simp; exact fun e => h.1 e.symm
      rw [if_pos hq, List.takeWhile_cons, if_pos hp', ih h.2]

theorem cutAt_take {a : Str} {p : Char} {n : Nat} (h : (cutAt a p).length ≤ n) : cutAt (a.take n) p = cutAt a p := by
  induction a generalizing n with
  | nil => simp [cutAt]
  | cons c a ih =>
    cases n with
    | zero => simp only [cutAt, List.length_eq_zero_iff, Nat.le_zero] at h ⊢; rw [h]; rfl
    | succ n =>
      simp only [cutAt, List.take_succ_cons, List.takeWhile_cons] at *
      split
      · rw [if_pos ‹_›] at h
        rw [ih (by simpa using h)]
      · rfl

theorem cutAt_strlcpy {a : Str} {p : Char} (h : (cutAt a p).length < CLIENT_ID_LEN) :
    cutAt (strlcpy CLIENT_ID_LEN a) p = cutAt a p := cutAt_take (by simp only [CLIENT_ID_LEN] at *; omega)

theorem ircSERVICE_steps {cl : Nat} {req : Request} (h : Hnd x s cl req) (hm : Spec.Is req "SERVICE") :
    Steps (Okay x) s (ircSERVICE s cl req).1 := by
  have hb := h.base
  have hne : (some cl : Option Nat) ≠ some s.this := by
    intro he; injection he with he; exact h.ne_this he
  simp only [ircSERVICE]
  split
  · exact .same rfl
  · split
    · exact .same rfl
    · rename_i hs
      have hs : (s.cl cl).type = .server := Classical.not_not.1 hs
      split
      · exact .killClient hb hne (.inl (h.peer hs)) _ _
      · rename_i hfree
        split
        · exact .killClient hb hne (.inl (h.peer hs)) _ _
        · rename_i intr hintr
          obtain ⟨i1, i2, i3⟩ := clientGetFromToken_some hb h.ne_this hintr
          generalize afterOr (req.arg 0) '@' intr.host = host
          generalize afterOr (cutAt (req.arg 0) '@') '!' (cutAt (cutAt (req.arg 0) '@') '!') = user
          generalize hmd : (if (req.arg 3).head? = some '+' then (req.arg 3).tail else []) = modes
          have h1 : Steps (Okay x) s (clientNewRemoteUser s intr.ref (cutAt (cutAt (req.arg 0) '@') '!')
              (atoi (req.arg 4)) user host (atoi (req.arg 1)) modes (req.arg 5)) := by
            refine newRemoteUser_steps (h.peer hs) ⟨intr, i1, rfl, i2, i3⟩ ?_
            rcases h.polite with hp | hp
            · exact .inr hp
            · obtain ⟨g1, g2, g3, g4⟩ := hp.service hs hm
              have hg : GoodName (Spec.serviceNick (req.arg 0)) := ⟨g1, not_mem_cutAt _ _, g2⟩
              have hnick : cutAt (cutAt (req.arg 0) '@') '!' = Spec.serviceNick (req.arg 0) :=
                cutAt_swap g3
              rw [hnick]
              refine .inl ⟨hg, nameFree_of_search hb hg ?_, ?_⟩
              · rw [← hfree]
                simp only [clientSearch, searchId_of_good hg]
                have hl : (cutAt (req.arg 0) '!').length < CLIENT_ID_LEN := g2
                rw [cutAt_strlcpy hl]; rfl
              rw [← hmd]
              split
              · exact g4
              · simp [strlcpy]
          obtain ⟨n1, n2, n3, n4⟩ := newRemoteUser_new (s := s) intr.ref (cutAt (cutAt (req.arg 0) '@') '!')
            user host modes (req.arg 5) (atoi (req.arg 4)) (atoi (req.arg 1))
          have hth := h1.this_eq
          generalize clientNewRemoteUser s intr.ref (cutAt (cutAt (req.arg 0) '@') '!')
              (atoi (req.arg 4)) user host (atoi (req.arg 1)) modes (req.arg 5) = s1 at *
          have hnt : s.nextRef ≠ s1.this := by
            rw [hth]
            intro he
            have := hb.cl.lt _ hb.this_mem.1
            rw [hb.this_mem.2.1] at this
            omega
          exact h1.trans (clientIntroduce_remote hnt n3 n1 (h.peer hs) (.inr rfl) (.inl (by rw [n2]; decide)))

theorem ircWEBIRC_steps {cl : Nat} {req : Request} (hu : (s.cl cl).type ≠ .user) : Steps (Okay x) s (ircWEBIRC s cl req).1 := by
  simp only [ircWEBIRC]
  split
  · exact .same rfl
  · refine Steps.trans (.setUser _ _ _ (.inl hu)) (Steps.trans (.setHost _ _ (.inl ?_)) (.soft ?_))
    · exact fun e => hu ((keeps_cl (s := s) (r := cl) (keeps_setUserC s.conf (req.arg 1) true) cl).2.2.1.symm.trans e)
    exact fun _ => ⟨rfl, rfl, rfl, rfl, rfl, rfl, rfl, rfl⟩

theorem closeClient_steps (hb : Base s) (cl : Nat) (hm : x.mayAll cl) (fwd : Option Str) :
    Steps (Okay x) s (closeClient s (s.cl cl) fwd).1 := by
  simp only [closeClient]
  split
  · exact .connClose hb (own_may hb ‹_› hm) _ _
  · exact .same rfl

theorem ircQUIT_steps {cl : Nat} {req : Request} (h : Hnd x s cl req) :
    Steps (Okay x) s (ircQUIT s cl req).1 := by
  simp only [ircQUIT]
  split
  · rename_i hs
    split
    · exact .same (core_needMoreParams _ _ _)
    · rename_i p hp
      split
      · exact .rfl'
      · rename_i t ht
        split
        · rename_i hne
          exact .clientDestroy h.base (clientSearch_mem ht) (h.pre_ne hp ht) (h.pre_conn hp ht hne) (.inl (h.peer hs)) _ _
        · exact closeClient_steps h.base _ (self_may h.xcl) _
  · exact closeClient_steps h.base _ (self_may h.xcl) _

theorem ircQUIT_HTTP_steps {cl : Nat} {req : Request} (h : Hnd x s cl req)  :
    Steps (Okay x) s (ircQUIT_HTTP s cl req).1 := by
  simp only [ircQUIT_HTTP, ircQUIT]
  split
  · rename_i hs
    split
    · exact .same (core_needMoreParams _ _ _)
    · rename_i p hp
      split
      · exact .rfl'
      · rename_i t ht
        split
        · rename_i hne
          exact .clientDestroy h.base (clientSearch_mem ht) (h.pre_ne hp ht) (h.pre_conn hp ht hne) (.inl (h.peer hs)) _ _
        · exact closeClient_steps h.base _ (self_may h.xcl) _
  · exact closeClient_steps h.base _ (self_may h.xcl) _

theorem updConnOf_conf (c : Client) (f : Conn → Conn) : (updConnOf s c f).conf = s.conf := by
  simp only [Ngircd.updConnOf]
  split <;> rfl

theorem pongAuth_steps {cl : Nat} {req : Request} (h : Hnd x s cl req) (hm : Spec.Is req "PONG") :
    Steps (Okay x) s (pongAuth s cl req) := by
  simp only [pongAuth]
  split
  · exact .rfl'
  · split
    · rename_i hnum
      have h1 : Steps (Okay x) s (updConnOf s (s.cl cl) (fun k => { k with authPing := 0 })) :=
        .updConnOf (fun i hi => ⟨fun _ => ⟨rfl, rfl, rfl⟩, .inl (fun _ => rfl), .inl (fun _ => ⟨rfl, rfl⟩), .inr ⟨by rw [h.xcl]; exact hi,
          .inr ⟨by rw [Ctx.is, h.cmd]; exact hm, by rw [h.xcl, h.argv]; exact hnum, fun _ => rfl⟩⟩⟩)
      have hcl := updConnOf_clients (s := s) (s.cl cl) (fun k => { k with authPing := 0 })
      have hcf := updConnOf_conf (s := s) (s.cl cl) (fun k => { k with authPing := 0 })
      generalize updConnOf s (s.cl cl) (fun k => { k with authPing := 0 }) = s1 at *
      refine h1.trans ?_
      split
      · rename_i hw
        have h2 := loginUser_steps (x := x) (s := s1) (cl := cl) (h1.base h.base) (by rw [cl_congr hcl]; exact h.conn) h.xcl
          (by rw [cl_congr hcl]; exact .inr (.inr (.inl hw))) (by rw [hcf]; exact h.defP)
          (h.fresh (by rw [hw]; decide)) (h.own (by rw [hw]; decide))
        split
        · rename_i s2 heq; rw [heq] at h2; exact h2
        · rename_i s2 heq; rw [heq] at h2; exact h2.congr_right rfl
      · exact .rfl'
    · exact .same rfl

theorem ircPONG_steps {cl : Nat} {req : Request} (h : Hnd x s cl req) (hm : Spec.Is req "PONG") :
    Steps (Okay x) s (ircPONG s cl req).1 := by
  simp only [ircPONG]
  split
  · split <;> exact .same rfl
  · split
    · exact .same (core_needMoreParams _ _ _)
    · split
      · split
        · exact .same (core_needMoreParams _ _ _)
        · split
          · exact .same rfl
          · split
            · split <;> exact .same rfl
            · exact pongAuth_steps h hm
      · exact pongAuth_steps h hm

/-! ## CAP -/

/-- CAP changes its sender's capabilities. -/
theorem Hnd.caps {cl : Nat} {req : Request} (h : Hnd x s cl req) {f : Client → Caps}
    (hf : CapOk x (s.cl cl).type (s.cl cl).caps (f (s.cl cl))) :
    Steps (Okay x) s (s.updCl cl (fun c => { c with caps := f c })) :=
  .softCl ⟨keeps_caps f, .inr ⟨h.xcl.symm, hf⟩, .inl (fun _ => ⟨rfl, rfl, rfl⟩)⟩

theorem capEND_steps {cl : Nat} {req : Request} (h : Hnd x s cl req) (hc : x.is "CAP")
    (he : caseEq (req.arg 0) "END".toList = true) :
    Steps (Okay x) s (capEND s cl).1 := by
  simp only [capEND]
  split
  · have h1 : Steps (Okay x) s (s.updCl cl (fun c => { c with caps := { c.caps with pending := false } })) :=
      h.caps (f := fun c => { c.caps with pending := false }) ⟨hc, .inl, fun _ _ => by rw [h.argv]; exact he, fun e => absurd e ‹_›⟩
    have k := keeps_cl (s := s) (r := cl) (keeps_caps (fun c => { c.caps with pending := false })) cl
    have hcf : (s.updCl cl (fun c => { c with caps := { c.caps with pending := false } })).conf = s.conf := rfl
    generalize s.updCl cl (fun c => { c with caps := { c.caps with pending := false } }) = s1 at *
    refine h1.trans ?_
    split
    · rename_i hw
      exact loginUser_steps (h1.base h.base) (by rw [k.2.2.2]; exact h.conn) h.xcl
        (.inr (.inr (.inr hw))) (by rw [hcf]; exact h.defP)
        (h.fresh (by rw [← k.2.2.1, hw]; decide)) (h.own (by rw [← k.2.2.1, hw]; decide))
    · exact .rfl'
  · exact .rfl'

theorem setCapNegotiation_steps {cl : Nat} {req : Request} (h : Hnd x s cl req) (hc : x.is "CAP") :
    Steps (Okay x) s (setCapNegotiation s cl) :=
  h.caps (f := fun c => { c.caps with pending := c.caps.pending || decide (c.type ≠ .user), supported := true })
    ⟨hc, .inl, fun h1 h2 => (by simp only [h1, Bool.true_or] at h2; cases h2),
      fun e => by simp [e]⟩

theorem parseCapLoop_on {ws : List Str} {a b : Caps} (h : parseCapLoop ws a = some b) :
    (b.multiPrefix = true → a.multiPrefix = true ∨ capMultiPrefix ∈ ws) ∧ b.pending = a.pending ∧
      b.supported = a.supported := by
  induction ws generalizing a with
  | nil => injection h with h; subst h; exact ⟨.inl, rfl, rfl⟩
  | cons w ws ih =>
    simp only [parseCapLoop] at h
    split at h
    · cases h
    · rename_i on hon
      obtain ⟨h1, h2, h3⟩ := ih h
      refine ⟨fun hb => ?_, h2, h3⟩
      rcases h1 hb with h1 | h1
      · right
        simp only at h1
        subst h1
        simp only [capWord] at hon
        split at hon
        · split at hon <;> cases hon
        · split at hon
          · rename_i he; rw [he]; exact List.mem_cons_self
          · cases hon
      · exact .inr (List.mem_cons_of_mem _ h1)

theorem ircCAP_steps {cl : Nat} {req : Request} (h : Hnd x s cl req) (hm : Spec.Is req "CAP") :
    Steps (Okay x) s (ircCAP s cl req).1 := by
  have hc : x.is "CAP" := by rw [Ctx.is, h.cmd]; exact hm
  simp only [ircCAP]
  split
  · simp only [capCLEAR]
    exact Steps.congr_right (h.caps (f := fun c => { c.caps with multiPrefix := false })
      ⟨hc, fun h => by (simp only at h; cases h), fun h1 h2 => by (simp only at h2; rw [h1] at h2; cases h2), fun _ => rfl⟩) rfl
  · split
    · rename_i he
      simp only [Bool.and_eq_true] at he
      exact capEND_steps h hc he.2
    · split
      · simp only [capLS]
        exact (setCapNegotiation_steps h hc).congr_right rfl
      · split
        · exact .same rfl
        · split
          · rename_i hq
            simp only [Bool.and_eq_true] at hq
            simp only [capREQ]
            refine (setCapNegotiation_steps h hc).trans ?_
            split
            · exact .same rfl
            · rename_i caps hp
              refine Steps.congr_right (t := (setCapNegotiation s cl).updCl cl (fun c => { c with caps := caps })) ?_ rfl
              obtain ⟨p1, p2, -⟩ := parseCapLoop_on hp
              refine .softCl ⟨keeps_caps (fun _ => caps), .inr ⟨h.xcl.symm, hc, fun hb => ?_, fun h1 h2 => ?_, fun _ => p2⟩,
                .inl (fun _ => ⟨rfl, rfl, rfl⟩)⟩
              · exact (p1 hb).imp_right (fun hb => ⟨by rw [h.argv]; exact hq.2, by rw [h.argv]; exact hb⟩)
              · rw [p2, h1] at h2; cases h2
          · split <;> exact .same rfl

/-! ## METADATA -/

theorem metadataSet_steps (hp : x.peer) (s : Srv) (t p : Nat) (k v : Str) : Steps (Okay x) s (metadataSet s t p k v) := by
  simp only [metadataSet]
  split
  · refine Steps.trans (.setHost t v (.inr hp)) ?_
    split
    · exact .rfl'
    · simp only [tellHost]; split <;> exact .same rfl
  · split
    · exact .setInfo _ _ (.inr hp)
    · split
      · exact .setUser _ _ _ (.inr hp)
      · split
        · exact .soft (fun _ => ⟨rfl, rfl, rfl, rfl, rfl, rfl, rfl, rfl⟩)
        · exact .rfl'

theorem ircMETADATA_steps {cl : Nat} {req : Request} (hp : x.peer) : Steps (Okay x) s (ircMETADATA s cl req).1 := by
  simp only [ircMETADATA]
  split
  · exact .same (core_needMoreParams _ _ _)
  · split
    · exact .same rfl
    · split
      · exact .same rfl
      · rename_i pre _ _ t _
        generalize hs1 : (if t.hasFlag 'M' = true then s
          else s.updCl t.ref (fun c => { c with flags := strlcpy 16 (c.flags ++ ['M']) })) = s1
        have h1 : Steps (Okay x) s s1 := by
          rw [← hs1]
          split
          · exact .rfl'
          · exact .soft (fun _ => ⟨rfl, rfl, rfl, rfl, rfl, rfl, rfl, rfl⟩)
        refine h1.trans ?_
        split
        · have h2 : Steps (Okay x) s1 (updateCloak s1 t.ref pre.ref
              (if (req.arg 2).isEmpty = true then none else some (req.arg 2))) := by
            simp only [updateCloak]
            refine Steps.congr_right (.soft (r := t.ref) ?_) rfl
            exact fun _ => ⟨rfl, rfl, rfl, rfl, rfl, rfl, rfl, rfl⟩
          refine h2.trans ?_
          simp only [tellHost]
          repeat' split
          all_goals exact .same rfl
        · exact (metadataSet_steps hp _ _ _ _ _).congr_right rfl

end Ngircd
