import Verif.Lemmas.HLogin2

/-!
# NICK, USER, SERVICE, QUIT, PONG, CAP as runs of guarded actions
-/

set_option linter.unusedSimpArgs false

namespace Ngircd

variable {x : Ctx} {s t u : Srv}

/-! ## Killing clients -/

theorem Steps.killClient {client from_ : Option Nat} (hb : Base s) (hne : client ≠ some s.this) (hmay : x.peer ∨ x.oper)
    (nick reason : Str) : Steps (Okay x) s (killClient s client from_ nick reason).1 := by
  simp only [Ngircd.killClient]
  split
  · exact .rfl'
  · rename_i c hc
    split
    · split <;> exact .same rfl
    · rename_i hbad
      have hm := clientSearch_mem hc
      generalize hs1 : writeServers s (if from_.isSome = true then client else none)
        (match from_ with | some f => s.cl f | none => s.cl s.this) ⟨"KILL", [nick, reason]⟩ = s1
      have h1 : s1.core = s.core := by rw [← hs1]; rfl
      have hb1 : Base s1 := hb.of_core h1
      refine Steps.trans (.same h1) ?_
      split
      · exact .connClose hb1 (fun _ _ => any_may hmay _) _ _
      · rename_i hcn
        refine .clientDestroy hb1 (by rw [core_clients h1]; exact hm) ?_ hcn (any_may hmay _) _ _
        rw [core_this h1]
        intro he
        have hthis := hb.this_mem
        rw [cl_of_mem' hb.cl.ord hm he] at hthis
        apply hbad
        simp [hthis.2.2.1, hne]

/-! ## New remote clients -/

theorem withOpt_caps {o : Option Str} {c : Client} {f : Client → Str → Client} (hf : ∀ c u, (f c u).caps = c.caps) :
    (withOpt o c f).caps = c.caps := by
  cases o with
  | none => rfl
  | some _ => exact hf _ _

theorem newClientC_caps (s : Srv) (conn : Option Nat) (intr : Nat) (top : Option Nat) (ty : CType)
    (id user host info : Option Str) (hops tok : Int) (modes : Option Str) (b : Bool) :
    (newClientC s conn intr top ty id user host info hops tok modes b).caps = {} := by
  unfold newClientC
  extract_lets c0 c1 c2 c3 c4 c5 c6 c7
  have h1 : c1.caps = c0.caps := withOpt_caps (setIdC_caps _)
  have h2 : c2.caps = c1.caps := withOpt_caps (fun c u => setUserC_caps _ c u _)
  have h3 : c3.caps = c2.caps := withOpt_caps (setHostC_caps _)
  have h4 : c4.caps = c3.caps := withOpt_caps (setInfoC_caps _)
  have h6 : c6.caps = c5.caps := withOpt_caps (fun _ _ => rfl)
  have h7 : c7.caps = c6.caps := by simp only [c7]; split <;> rfl
  have h0 : c7.caps = {} := by rw [h7, h6]; show c4.caps = {}; rw [h4, h3, h2, h1]
  split <;> exact h0

theorem newClientC_fields (s : Srv) (conn : Option Nat) (intr : Nat) (top : Option Nat) (ty : CType)
    (id user host info : Option Str) (hops tok : Int) (modes : Option Str) (b : Bool) :
    (newClientC s conn intr top ty id user host info hops tok modes b).ref = s.nextRef ∧
    (newClientC s conn intr top ty id user host info hops tok modes b).conn = conn ∧
    (newClientC s conn intr top ty id user host info hops tok modes b).introducer = intr ∧
    (newClientC s conn intr top ty id user host info hops tok modes b).type = ty ∧
    (newClientC s conn intr top ty id user host info hops tok modes b).id =
      (id.map (strlcpy CLIENT_ID_LEN)).getD [] ∧
    (newClientC s conn intr top ty id user host info hops tok modes b).hash =
      (id.map (fun i => Hash (strlcpy CLIENT_ID_LEN i))).getD 0 ∧
    (newClientC s conn intr top ty id user host info hops tok modes b).modes =
      (modes.map (strlcpy CLIENT_MODE_LEN)).getD [] ∧
    (newClientC s conn intr top ty id user host info hops tok modes b).mytoken =
      (if ty = .server then genMyToken s else -1) := by
  have hid : ∀ (c : Client) (i : Str), (setIdC s.conf c i).ref = c.ref ∧ (setIdC s.conf c i).conn = c.conn ∧
      (setIdC s.conf c i).introducer = c.introducer ∧ (setIdC s.conf c i).type = c.type ∧
      (setIdC s.conf c i).id = strlcpy CLIENT_ID_LEN i ∧
      (setIdC s.conf c i).hash = Hash (strlcpy CLIENT_ID_LEN i) ∧
      (setIdC s.conf c i).modes = c.modes ∧ (setIdC s.conf c i).mytoken = c.mytoken := by
    intro c i; simp only [setIdC]; split <;> exact ⟨rfl, rfl, rfl, rfl, rfl, rfl, rfl, rfl⟩
  -- step by step
  let P (c : Client) : Prop := c.ref = s.nextRef ∧ c.conn = conn ∧ c.introducer = intr ∧ c.type = ty ∧
      c.id = (id.map (strlcpy CLIENT_ID_LEN)).getD [] ∧
      c.hash = (id.map (fun i => Hash (strlcpy CLIENT_ID_LEN i))).getD 0 ∧
      c.modes = [] ∧ c.mytoken = -1
  have keep : ∀ (f : Client → Client), KeepsCl f → ∀ c, P c → P (f c) := by
    intro f hf c ⟨h1, h2, h3, h4, h5, h6, h7, h8⟩
    obtain ⟨k1, k2, k3, k4, k5, k6, k7, k8⟩ := hf c
    exact ⟨k1.trans h1, k5.trans h2, k6.trans h3, k4.trans h4, k2.trans h5, k3.trans h6, k7.trans h7, k8.trans h8⟩
  let c0 : Client := { ref := s.nextRef, conn := conn, introducer := intr,
                       topserver := top, type := ty, starttime := s.now }
  have p1 : P (withOpt id c0 (setIdC s.conf)) := by
    cases id with
    | none => exact ⟨rfl, rfl, rfl, rfl, rfl, rfl, rfl, rfl⟩
    | some i => exact hid c0 i
  have p2 : ∀ c, P c → P (withOpt user c (fun c u => setUserC s.conf c u b)) := by
    intro c hc
    cases user with
    | none => exact hc
    | some u => exact keep (fun c => setUserC s.conf c u b) (keeps_setUserC _ _ _) c hc
  have p3 : ∀ c, P c → P (withOpt host c (setHostC s.conf)) := by
    intro c hc
    cases host with
    | none => exact hc
    | some u => exact keep (fun c => setHostC s.conf c u) (keeps_setHostC _ _) c hc
  have p4 : ∀ c, P c → P (withOpt info c (setInfoC s.conf)) := by
    intro c hc
    cases info with
    | none => exact hc
    | some u => exact keep (fun c => setInfoC s.conf c u) (keeps_setInfoC _ _) c hc
  have p5 : ∀ c, P c → P { c with hops := hops, token := tok } := by
    intro c hc; exact hc
  let g (c : Client) : Client :=
    let c := withOpt modes c (fun c m => { c with modes := strlcpy CLIENT_MODE_LEN m })
    let c := if ty = .server then { c with mytoken := genMyToken s } else c
    if c.hasMode 'a' then { c with away := some "Away".toList } else c
  have p6 : ∀ c, P c → (g c).ref = s.nextRef ∧ (g c).conn = conn ∧ (g c).introducer = intr ∧ (g c).type = ty ∧
      (g c).id = (id.map (strlcpy CLIENT_ID_LEN)).getD [] ∧
      (g c).hash = (id.map (fun i => Hash (strlcpy CLIENT_ID_LEN i))).getD 0 ∧
      (g c).modes = (modes.map (strlcpy CLIENT_MODE_LEN)).getD [] ∧
      (g c).mytoken = (if ty = .server then genMyToken s else -1) := by
    intro c ⟨h1, h2, h3, h4, h5, h6, h7, h8⟩
    have hg : ∃ o, g c = { withOpt modes c (fun c m => { c with modes := strlcpy CLIENT_MODE_LEN m }) with
        mytoken := if ty = .server then genMyToken s else c.mytoken, away := o } := by
      simp only [g]
      by_cases hty : ty = .server <;> cases modes <;> simp only [withOpt, hty, if_true, if_false, reduceCtorEq] <;> split <;>
        first
        | exact ⟨some "Away".toList, rfl⟩
        | exact ⟨c.away, rfl⟩
    obtain ⟨o, hg⟩ := hg
    rw [hg, h8]
    cases modes with
    | none => exact ⟨h1, h2, h3, h4, h5, h6, h7, rfl⟩
    | some m => exact ⟨h1, h2, h3, h4, h5, h6, rfl, rfl⟩
  have h5 := p5 _ (p4 _ (p3 _ (p2 _ p1)))
  generalize hc5 : ({ (withOpt info (withOpt host (withOpt user (withOpt id c0 (setIdC s.conf))
    (fun c u => setUserC s.conf c u b)) (setHostC s.conf)) (setInfoC s.conf)) with hops := hops, token := tok } : Client) = c5
    at h5
  have heq : newClientC s conn intr top ty id user host info hops tok modes b = g c5 := by
    subst hc5
    simp only [newClientC, g]
    rfl
  rw [heq]
  exact p6 _ h5

theorem cutAt_of_not_mem {a : Str} {c : Char} (h : c ∉ a) : cutAt a c = a := by
  induction a with
  | nil => rfl
  | cons b l ih =>
    simp only [List.mem_cons, not_or] at h
    have hb : b ≠ c := fun e => h.1 e.symm
    simp only [cutAt] at ih ⊢
    rw [List.takeWhile_cons_of_pos (by simpa using hb), ih h.2]

theorem not_mem_cutAt (a : Str) (c : Char) : c ∉ cutAt a c := by
  induction a with
  | nil => simp [cutAt]
  | cons b l ih =>
    simp only [cutAt] at ih ⊢
    rw [List.takeWhile_cons]
    split
    · rename_i hb
      simp only [List.mem_cons, not_or]
      exact ⟨fun e => by simp [e] at hb, ih⟩
    · simp

theorem strlcpy_of_lt {n : Nat} {a : Str} (h : a.length < n) : strlcpy n a = a := by
  simp only [strlcpy]
  exact List.take_of_length_le (by omega)

/-- The name a lookup uses. -/
theorem searchId_of_good {id : Str} (h : GoodName id) : cutAt (strlcpy CLIENT_ID_LEN id) '!' = id := by
  rw [strlcpy_of_lt h.2.2, cutAt_of_not_mem h.2.1]

theorem nameFree_of_search (hb : Base s) {id : Str} (hg : GoodName id) (h : clientSearch s id = none) :
    NameFree s id := by
  intro c hc
  simp only [clientSearch, searchId_of_good hg] at h
  have := List.find?_eq_none.1 h c hc
  cases hce : caseEq c.id id with
  | false => rfl
  | true =>
    exfalso
    apply this
    have hlow := (caseEq_iff c.id id).1 hce
    have hne : c.id ≠ [] := by
      intro he
      rw [he] at hlow
      apply hg.1
      simpa [lowerStr] using hlow.symm
    have hh : c.hash = Hash c.id := (hb.cl.hash c hc).resolve_right (fun h => hne h.1)
    have : Hash c.id = Hash id := C35_hash_case _ _ ((sameCase_iff _ _).2 hlow)
    simp [hce, hh, this]

theorem clientGetFromToken_some (hb : Base s) {cl : Nat} {tok : Int} {c : Client} (hne : cl ≠ s.this)
    (h : clientGetFromToken s cl tok = some c) : c ∈ s.clients ∧ c.type = .server ∧ c.ref ≠ s.this := by
  simp only [clientGetFromToken] at h
  split at h
  · cases h
  · have hm := List.mem_of_find?_eq_some h
    have hp := List.find?_some h
    simp only [Bool.and_eq_true, decide_eq_true_eq, beq_iff_eq] at hp
    refine ⟨hm, hp.1.1, fun he => ?_⟩
    have hthis := hb.this_mem
    rw [cl_of_mem' hb.cl.ord hm he] at hthis
    exact hne (hp.1.2.symm.trans hthis.2.2.2.2)

/-- A new remote user. -/
theorem newRemoteUser_steps {intr : Nat} {nick user host modes info : Str} {hops tok : Int}
    (hp : x.peer) (hi : ∃ p ∈ s.clients, p.ref = intr ∧ p.type = .server ∧ p.ref ≠ s.this)
    (hn : (GoodName nick ∧ NameFree s nick ∧ (strlcpy CLIENT_MODE_LEN modes).Nodup) ∨ x.bad) :
    Steps (Okay x) s (clientNewRemoteUser s intr nick hops user host tok modes info) := by
  obtain ⟨h1, h2, h3, h4, h5, h6, h7, h8⟩ := newClientC_fields s none intr none .user (some nick) (some user)
    (some host) (some info) hops tok (some modes) true
  refine .one (.newCl _) ⟨hp, h1, h2, ?_, ?_, .inl h4, ?_, ?_, newClientC_caps ..⟩ rfl
  · rw [h5, h6]
    rfl
  · rw [h3]; exact hi
  · rw [h8, h4]
  · rcases hn with ⟨hg, hf, hm⟩ | hn
    · left
      rw [h5, h7]
      simp only [Option.map_some, Option.getD_some]
      rw [strlcpy_of_lt hg.2.2]
      exact ⟨hg, hf, hm⟩
    · exact .inr hn

theorem newRemoteUser_new (intr : Nat) (nick user host modes info : Str) (hops tok : Int) :
    ((clientNewRemoteUser s intr nick hops user host tok modes info).cl? s.nextRef).isSome = true ∧
    ((clientNewRemoteUser s intr nick hops user host tok modes info).cl s.nextRef).type = .user ∧
    ((clientNewRemoteUser s intr nick hops user host tok modes info).cl s.nextRef).conn = none ∧
    (clientNewRemoteUser s intr nick hops user host tok modes info).cl2 = s.cl2 := by
  obtain ⟨h1, h2, h3, h4, h5, h6, h7, h8⟩ := newClientC_fields s none intr none .user (some nick) (some user)
    (some host) (some info) hops tok (some modes) true
  simp only [clientNewRemoteUser, initNewClient]
  generalize newClientC s none intr none .user (some nick) (some user)
    (some host) (some info) hops tok (some modes) true = c at *
  obtain ⟨a, b, hadj⟩ := adjustCounters_eq { s with clients := c :: s.clients, nextRef := s.nextRef + 1 } c
  rw [hadj]
  simp only [Srv.cl, Srv.cl?]
  rw [List.find?_cons_of_pos (by simp [h1])]
  exact ⟨rfl, h4, h2, trivial⟩

/-! ## NICK -/

theorem nickRemote_steps {cl : Nat} {req : Request} (h : Hnd x s cl req) (hs : (s.cl cl).type = .server)
    (hm : Spec.Is req "NICK") (hargc : req.argc ≠ 1) : Steps (Okay x) s (nickRemote s cl req).1 := by
  have hne : (some cl : Option Nat) ≠ some s.this := by
    intro he; injection he with he; exact h.ne_this he
  have hb := h.base
  simp only [nickRemote]
  split
  · exact .same (core_needMoreParams _ _ _)
  · split
    · exact .killClient hb hne (.inl (h.peer hs)) _ _
    · rename_i hsr
      split
      · exact .killClient hb hne (.inl (h.peer hs)) _ _
      · rename_i intr hintr
        obtain ⟨i1, i2, i3⟩ := clientGetFromToken_some hb h.ne_this hintr
        have h1 : Steps (Okay x) s (clientNewRemoteUser s intr.ref (req.arg 0) (nickIntro s cl req).hops
            (nickIntro s cl req).user (nickIntro s cl req).host (nickIntro s cl req).token
            (nickIntro s cl req).modes (nickIntro s cl req).info) := by
          refine newRemoteUser_steps (h.peer hs) ⟨intr, i1, rfl, i2, i3⟩ ?_
          rcases h.polite with hp | hp
          · exact .inr hp
          · obtain ⟨hg, hnd⟩ := hp.nick hs hm hargc
            refine .inl ⟨hg, nameFree_of_search hb hg hsr, ?_⟩
            simp only [nickIntro]
            split
            · exact hnd
            · simp [strlcpy]
        obtain ⟨n1, n2, n3, n4⟩ := newRemoteUser_new (s := s) intr.ref (req.arg 0) (nickIntro s cl req).user
          (nickIntro s cl req).host (nickIntro s cl req).modes (nickIntro s cl req).info
          (nickIntro s cl req).hops (nickIntro s cl req).token
        have hth := h1.this_eq
        generalize clientNewRemoteUser s intr.ref (req.arg 0) (nickIntro s cl req).hops
            (nickIntro s cl req).user (nickIntro s cl req).host (nickIntro s cl req).token
            (nickIntro s cl req).modes (nickIntro s cl req).info = s1 at *
        have hnt : s.nextRef ≠ s1.this := by
          rw [hth]
          intro he
          have := hb.cl.lt _ hb.this_mem.1
          rw [hb.this_mem.2.1] at this
          omega
        split
        · refine h1.trans (.setRemote hnt n3 (h.peer hs) (.inl ⟨.inr (.inr ⟨rfl, ?_⟩), by rw [n2]; decide⟩))
          intro m hmm
          rw [n4] at hmm
          have := hb.ch.clt m hmm
          omega
        · exact h1.trans (clientIntroduce_remote hnt n3 n1 (h.peer hs) (.inl rfl) (.inl (by rw [n2]; decide)))

theorem ircNICK_steps {cl : Nat} {req : Request} (h : Hnd x s cl req) (hm : Spec.Is req "NICK") :
    Steps (Okay x) s (ircNICK s cl req).1 := by
  have hn : x.is "NICK" := by unfold Ctx.is; rw [h.cmd]; exact hm
  simp only [ircNICK]
  split
  · rename_i hty
    split
    · exact .same (core_needMoreParams _ _ _)
    · split
      · exact .same rfl
      · simp only [Bool.or_eq_true, decide_eq_true_eq] at hty
        refine nickTarget_steps h.base h.conn h.ne_this h.xcl hn (.inl ⟨rfl, ?_⟩) h.defP h.fresh h.own
          (.inr ⟨rfl, h.stale, by rcases hty with ((((h | h) | h) | h) | h) | h <;> rw [h] <;> decide⟩) (fun _ => rfl)
        rcases hty with ((((h | h) | h) | h) | h) | h <;> simp [h]
  · split
    · rename_i hs
      split
      · rename_i hargc
        split
        · exact .same (core_needMoreParams _ _ _)
        · rename_i p hp
          split
          · exact .same rfl
          · rename_i c hc
            refine nickTarget_steps h.base h.conn (h.pre_ne hp hc) h.xcl hn (.inr ⟨?_, by rw [hs]; decide⟩) h.defP h.fresh h.own (.inl (h.peer hs))
              (fun e => absurd (hs.symm.trans e) (by decide))
            rw [cl_ref_of_search h.base hc]
            exact h.polite.elim .inr (fun hpol => .inl (hpol.rename hs hm hargc p c hp hc))
      · rename_i hargc
        exact nickRemote_steps h hs hm hargc
    · exact .same rfl

theorem ircSVSNICK_steps {cl : Nat} {req : Request} (h : Hnd x s cl req) (hs : (s.cl cl).type = .server) :
    Steps (Okay x) s (ircSVSNICK s cl req).1 := by
  simp only [ircSVSNICK]
  split
  · exact .same (core_needMoreParams _ _ _)
  · split
    · exact .same rfl
    · rename_i t ht
      split
      · exact .same rfl
      · split
        · exact .same rfl
        · rename_i hcn
          generalize hf : svsFrom s cl _ = f
          have hcore := clientCheckNick_core (s := s) (s.cl f) (req.arg 1)
          generalize hr : clientCheckNick s (s.cl f) (req.arg 1) = r at hcore
          obtain ⟨s1, b⟩ := r
          cases b with
          | false => exact .same hcore
          | true =>
            obtain ⟨rfl, h1, h2⟩ := clientCheckNick_true hr
            refine changeNick_steps ?_ (.inl (.inl ⟨h1, h2⟩)) (.inl (h.peer hs))
            refine h.base.ne_this ?_
            rw [cl_ref_of_search h.base ht]
            cases hc : t.conn with
            | none => rw [hc] at hcn; simp at hcn
            | some i => rfl

end Ngircd
