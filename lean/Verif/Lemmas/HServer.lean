import Verif.Lemmas.HLogin4

/-!
# SERVER, NJOIN, SQUIT and the operator commands as runs of guarded actions
-/

set_option linter.unusedSimpArgs false

namespace Ngircd

variable {x : Ctx} {s t u : Srv}

/-! ## Clients only go -/

theorem connClose_sub (hb : Base s) (i : Nat) (fwd : Option Str) (inf : Bool) :
    (connClose s i fwd inf).clients.Sublist s.clients := by
  cases hk : s.conn? i with
  | none => simp [Ngircd.connClose, hk, Srv.crash]
  | some k =>
    obtain ⟨u, h1, h2, h3, h4⟩ := connClose_steps { peer := True } hb hk (.inl trivial) fwd inf
    rw [core_clients h4, destroy_run_clients]
    exact List.Sublist.trans List.filter_sublist (child_keep h1).1

theorem clientDestroy_sub (hb : Base s) {c : Client} (hc : c ∈ s.clients)
    (hne : c.ref ≠ s.this) (hconn : c.conn = none) (fwd : Option Str) (q : Bool) :
    (clientDestroy s c.ref fwd q).clients.Sublist s.clients := by
  obtain ⟨u, h1, h2, h3, h4⟩ := clientDestroy_steps { peer := True } hb hc hne hconn (.inl trivial) fwd q
  rw [core_clients h4, destroy_run_clients]
  exact List.Sublist.trans List.filter_sublist (child_keep h1).1

theorem killClient_sub {client from_ : Option Nat} (hb : Base s) (hne : client ≠ some s.this)
    (nick reason : Str) : (killClient s client from_ nick reason).1.clients.Sublist s.clients := by
  simp only [Ngircd.killClient]
  split
  · exact List.Sublist.refl _
  · rename_i c hc
    split
    · split <;> exact List.Sublist.refl _
    · rename_i hbad
      have hm := clientSearch_mem hc
      generalize hs1 : writeServers s (if from_.isSome = true then client else none)
        (match from_ with | some f => s.cl f | none => s.cl s.this) ⟨"KILL", [nick, reason]⟩ = s1
      have h1 : s1.core = s.core := by rw [← hs1]; rfl
      have hb1 : Base s1 := hb.of_core h1
      have hcl := core_clients h1
      split
      · exact List.Sublist.trans (connClose_sub hb1 _ _ _) (by rw [hcl]; exact List.Sublist.refl _)
      · rename_i hcn
        refine List.Sublist.trans (clientDestroy_sub hb1 (by rw [hcl]; exact hm) ?_ hcn _ _) (by rw [hcl]; exact List.Sublist.refl _)
        rw [core_this h1]
        intro he
        have hthis := hb.this_mem
        rw [cl_of_mem' hb.cl.ord hm he] at hthis
        apply hbad
        simp [hthis.2.2.1, hne]

/-! ## SERVER -/

theorem clientCheckID_steps (hb : Base s) (cl : Nat) (hm : x.mayAll cl) (id : Str) :
    Steps (Okay x) s (clientCheckID s (s.cl cl) id).1 := by
  simp only [clientCheckID]
  split
  · exact .same rfl
  · split
    · exact .same rfl
    · split
      · exact .connClose hb (own_may hb ‹_› hm) _ _
      · exact .rfl'

theorem clientCheckID_true {c : Client} {id : Str} {s' : Srv} (h : clientCheckID s c id = (s', true)) :
    s' = s ∧ NameFree s id := by
  simp only [clientCheckID] at h
  split at h
  · cases h
  · split at h
    · cases h
    · split at h
      · cases h
      · rename_i hany
        injection h with h _
        refine ⟨h.symm, fun c hc => ?_⟩
        cases hce : caseEq c.id id with
        | false => rfl
        | true => exact absurd (List.any_eq_true.2 ⟨c, hc, hce⟩) hany

theorem numENDOFMOTD_steps {cl : Nat} (hb : Base s) (hx : x.cl = cl) (hc : (s.cl cl).conn.isSome = true)
    (ht : (s.cl cl).type = .unknownServer ∨ (s.cl cl).type = .server) (hm : x.is "SERVER" ∨ atoi x.cmd = 376) :
    Steps (Okay x) s (numENDOFMOTD s cl).1 := by
  simp only [numENDOFMOTD]
  refine Steps.congr_right (Steps.setLocal (ty := .server) (x := x) hb hc (by decide) (.inl ⟨hx.symm, ht, hm⟩)) ?_
  simp only [core_emits]
  split <;> rfl

theorem numISUPPORT_steps {cl : Nat} {req : Request} (hb : Base s) (hm : x.mayAll cl) :
    Steps (Okay x) s (numISUPPORT s cl req).1 := by
  simp only [numISUPPORT]
  split
  · split
    · exact .connClose hb (own_may hb ‹_› hm) _ _
    · exact .same rfl
  · exact .rfl'

/-- Change the type, nothing else. -/
def toUnkServer (r : Nat) (s : Srv) : Srv := s.updCl r (fun c => { c with type := .unknownServer })

theorem setType_unkServer {cl : Nat} (hc : (s.cl cl).conn.isSome = true) :
    clientSetType s cl .unknownServer = toUnkServer cl s := by
  simp only [clientSetType, toUnkServer, show ¬ CType.unknownServer = CType.server by decide, if_false]
  simp only [adjustCounters]
  rw [if_pos]
  rw [cl_updCl s cl cl (fun c => { c with type := .unknownServer }) (fun _ => rfl)
    (fun _ => cl?_isSome_of_conn hc), if_pos rfl]
  show CType.unknownServer ≠ CType.user; decide

theorem updCl_comm {r : Nat} {f g : Client → Client} (h : ∀ c, f (g c) = g (f c))
    (hf : ∀ c, (f c).ref = c.ref) (hg : ∀ c, (g c).ref = c.ref) :
    (s.updCl r f).updCl r g = (s.updCl r g).updCl r f := by
  simp only [Srv.updCl, List.map_map]
  congr 1
  refine List.map_congr_left (fun c _ => ?_)
  simp only [Function.comp]
  by_cases hr : c.ref = r
  · rw [if_pos hr, if_pos hr, if_pos (by rw [hf]; exact hr), if_pos (by rw [hg]; exact hr), h]
  · rw [if_neg hr, if_neg hr]; rw [if_neg hr]

theorem unk_upd {r : Nat} {g : Client → Client} (h : ∀ c, g { c with type := .unknownServer } = { g c with type := .unknownServer })
    (hg : ∀ c, (g c).ref = c.ref) : toUnkServer r (s.updCl r g) = (toUnkServer r s).updCl r g := by
  simp only [toUnkServer]
  exact updCl_comm (f := g) (g := fun c => { c with type := .unknownServer }) h hg (fun _ => rfl)

/-- The order of the changes does not matter: the type first. -/
theorem serverAccept_steps {cl i : Nat} {cs : ConfServer} {req : Request} (hb : Base s) (hx : x.cl = cl) (hm : x.is "SERVER")
    (hc : (s.cl cl).conn.isSome = true)
    (ht : (s.cl cl).type = .gotPass ∨ (s.cl cl).type = .gotPass2813)
    (hn : (∃ cs ∈ s.conf.servers, caseEq (req.arg 0) cs.name = true) ∧ NameFree s (req.arg 0)) :
    Steps (Okay x) s (serverAccept s cl i cs req).1 := by
  have h0 : Steps (Okay x) s (toUnkServer cl s) := by
    rw [← setType_unkServer hc]
    exact Steps.setLocal (ty := .unknownServer) (x := x) hb hc (by decide) (.inl ⟨hx.symm, ht, hm⟩)
  have hT : ∀ u : Srv, (u.cl cl).conn = (s.cl cl).conn → ((toUnkServer cl u).cl cl).type = .unknownServer ∧
      ((toUnkServer cl u).cl cl).conn = (s.cl cl).conn := by
    intro u hu
    have hu' : (u.cl cl).conn.isSome = true := by rw [hu]; exact hc
    rw [toUnkServer, cl_updCl u cl cl (fun c => { c with type := .unknownServer }) (fun _ => rfl)
      (fun _ => cl?_isSome_of_conn hu'), if_pos rfl]
    exact ⟨rfl, hu⟩
  have hne := hb.ne_this hc
  simp only [serverAccept]
  have h1 : Steps (Okay x) s (toUnkServer cl (clientSetID s cl (req.arg 0))) := by
    rw [clientSetID, unk_upd]
    · refine h0.trans (.one (.setId cl (req.arg 0)) ⟨hne, .inr (.inr (.inl ⟨hn.1, ?_, (hT s rfl).1⟩)), .inr ⟨hx.symm, fun e => by rw [(hT s rfl).1] at e; cases e⟩⟩ rfl)
      intro c hc'
      obtain ⟨d, hd, rfl⟩ := mem_updCl.1 hc'
      split <;> exact hn.2 d hd
    · intro c; simp only [setIdC]; split <;> rfl
    · exact fun c => setIdC_ref _ _ _
  have c1 := setID_conn s cl cl (req.arg 0)
  generalize clientSetID s cl (req.arg 0) = s1 at *
  have hk : KeepsCl (fun c => { c with hops := 1 }) := fun _ => ⟨rfl, rfl, rfl, rfl, rfl, rfl, rfl, rfl⟩
  have h2 : Steps (Okay x) s (toUnkServer cl (clientSetInfo (s1.updCl cl (fun c => { c with hops := 1 })) cl
      (req.argv.getLast?.getD []))) := by
    rw [clientSetInfo, unk_upd, unk_upd]
    · refine h1.trans (Steps.trans (.soft hk) (.setInfo _ _ (.inl (fun e => ?_))))
      rw [(keeps_cl hk cl).2.2.1, (hT s1 c1).1] at e; cases e
    · exact fun _ => rfl
    · exact fun _ => rfl
    · intro c; simp only [setInfoC]; split <;> rfl
    · intro c; exact (keeps_setInfoC _ _ c).1
  have k1 := keeps_cl (s := s1) (r := cl) hk cl
  have k2 := keeps_cl (s := s1.updCl cl (fun c => { c with hops := 1 })) (r := cl)
    (keeps_setInfoC s1.conf (req.argv.getLast?.getD [])) cl
  have c2 : ((clientSetInfo (s1.updCl cl (fun c => { c with hops := 1 })) cl (req.argv.getLast?.getD [])).cl cl).conn
      = (s.cl cl).conn := k2.2.2.2.trans (k1.2.2.2.trans c1)
  generalize clientSetInfo (s1.updCl cl (fun c => { c with hops := 1 })) cl (req.argv.getLast?.getD []) = s2 at *
  clear k1 k2 h1 c1
  generalize hs3 : (if (s2.cl cl).token ≠ TOKEN_OUTBOUND then
      (write (write s2 (s2.cl cl) ⟨"PASS", [cs.pwdOut, "0210-IRC+".toList]⟩)
        ((write s2 (s2.cl cl) ⟨"PASS", [cs.pwdOut, "0210-IRC+".toList]⟩).cl cl) ⟨"SERVER",
        [(write s2 (s2.cl cl) ⟨"PASS", [cs.pwdOut, "0210-IRC+".toList]⟩).conf.serverName, "1".toList,
         (write s2 (s2.cl cl) ⟨"PASS", [cs.pwdOut, "0210-IRC+".toList]⟩).conf.serverInfo]⟩).updCl cl
        (fun c => { c with introducer := cl, token := 1 })
    else s2.updCl cl (fun c => { c with token := atoi (req.arg 1) })) = s3
  have h3 : Steps (Okay x) s (toUnkServer cl s3) ∧ (s3.cl cl).conn = (s.cl cl).conn := by
    rw [← hs3]
    split
    · refine ⟨?_, ?_⟩
      · rw [unk_upd]
        · exact h2.trans (.one (.setIntro cl 1) (by
            show ((toUnkServer cl s2).cl cl).conn.isSome = true; rw [(hT s2 c2).2]; exact hc) rfl)
        · exact fun _ => rfl
        · exact fun _ => rfl
      · exact (cl_updCl_field Client.conn _ cl cl (fun c => { c with introducer := cl, token := 1 })
          (fun _ => rfl) (fun _ => rfl)).trans c2
    · refine ⟨?_, ?_⟩
      · rw [unk_upd]
        · exact h2.trans (.soft (fun _ => ⟨rfl, rfl, rfl, rfl, rfl, rfl, rfl, rfl⟩))
        · exact fun _ => rfl
        · exact fun _ => rfl
      · exact (cl_updCl_field Client.conn _ cl cl (fun c => { c with token := atoi (req.arg 1) })
          (fun _ => rfl) (fun _ => rfl)).trans c2
  clear hs3 h2 c2
  generalize hs4 : (if (s3.cl cl).type = .gotPass then s3.updConn i (fun k => { k with rfc1459 := true }) else s3) = s4
  have h4 : Steps (Okay x) s (toUnkServer cl s4) ∧ (s4.cl cl).conn = (s.cl cl).conn := by
    rw [← hs4]
    split
    · exact ⟨h3.1.trans (.one (.conn i (fun k => { k with rfc1459 := true })) ⟨fun _ => ⟨rfl, rfl, rfl⟩, .inl (fun _ => rfl), .inl (fun _ => ⟨rfl, rfl⟩), .inl (fun _ => rfl)⟩ rfl), h3.2⟩
    · exact h3
  clear hs4
  have hc4 : (s4.cl cl).conn.isSome = true := by rw [h4.2]; exact hc
  rw [setType_unkServer hc4]
  have h5 := h4.1
  obtain ⟨t5, c5⟩ := hT s4 h4.2
  generalize toUnkServer cl s4 = s5 at *
  split
  · exact h5.congr_right rfl
  · exact h5.trans (numENDOFMOTD_steps (h5.base hb) hx (by rw [c5]; exact hc) (.inl t5) (.inl hm))

theorem confSetServer_steps (hb : Base s) (slot i : Nat) (hop : ∃ k ∈ s.conns, k.idx = i) (hm : ∀ k, s.conn? i = some k → x.mayAll k.client) : Steps (Okay x) s (confSetServer s slot i).1 := by
  simp only [confSetServer]
  split
  · split
    · exact .connClose hb hm _ _
    · exact .rfl'
  · refine .one (.srvConn ((slot, i) :: s.srvConn)) (fun p hp => ?_) rfl
    rcases List.mem_cons.1 hp with rfl | hp
    · exact .inr hop
    · exact .inl hp

theorem confSetServer_true {slot i : Nat} {s' : Srv} (h : confSetServer s slot i = (s', true)) :
    s'.clients = s.clients ∧ s'.conf = s.conf := by
  simp only [confSetServer] at h
  split at h
  · split at h
    · cases h
    · injection h with h _; rw [← h]; exact ⟨rfl, rfl⟩
  · injection h with h _; rw [← h]; exact ⟨rfl, rfl⟩

theorem confFindServer_some {name : Str} {slot : Nat} (h : confFindServer s name = some slot) :
    ∃ cs ∈ s.conf.servers, caseEq name cs.name = true := by
  simp only [confFindServer] at h
  obtain ⟨h1, h2, _⟩ := List.findIdx?_eq_some_iff_getElem.1 h
  exact ⟨_, List.getElem_mem h1, h2⟩

theorem serverLink_steps {cl i : Nat} {req : Request} (h : Hnd x s cl req) (hm : Spec.Is req "SERVER")
    (ht : (s.cl cl).type = .gotPass ∨ (s.cl cl).type = .gotPass2813) (hi : (s.cl cl).conn = some i) :
    Steps (Okay x) s (serverLink s cl i req).1 := by
  simp only [serverLink]
  split
  · exact .same (core_needMoreParams _ _ _)
  · split
    · exact closeClient_steps h.base _ (self_may h.xcl) _
    · rename_i slot hslot
      split
      · exact closeClient_steps h.base _ (self_may h.xcl) _
      · have h1 := clientCheckID_steps (x := x) h.base cl (self_may h.xcl) (req.arg 0)
        generalize hr : clientCheckID s (s.cl cl) (req.arg 0) = r at h1
        obtain ⟨s1, b⟩ := r
        cases b with
        | false => exact h1
        | true =>
          obtain ⟨rfl, hf⟩ := clientCheckID_true hr
          have h2 := confSetServer_steps (x := x) h.base slot i
            (let ⟨k, hk, e, _⟩ := h.base.cl.clConn _ (mem_of_conn (by rw [hi]; rfl)).1 i hi; ⟨k, hk, e⟩) (own_may h.base hi (self_may h.xcl))
          simp only
          generalize hr2 : confSetServer s1 slot i = r2 at h2
          obtain ⟨s2, b2⟩ := r2
          cases b2 with
          | false => exact h2
          | true =>
            obtain ⟨hcl, hcf⟩ := confSetServer_true hr2
            refine h2.trans (serverAccept_steps (h2.base h.base) h.xcl (by unfold Ctx.is; rw [h.cmd]; exact hm) (by rw [cl_congr hcl]; exact h.conn)
              (by rw [cl_congr hcl]; exact ht) ?_)
            refine ⟨?_, by unfold NameFree; rw [hcl]; exact hf⟩
            rw [hcf]
            exact confFindServer_some hslot

theorem serverRemote_steps {cl : Nat} {req : Request} (h : Hnd x s cl req) (hm : Spec.Is req "SERVER")
    (hs : (s.cl cl).type = .server) : Steps (Okay x) s (serverRemote s cl req).1 := by
  simp only [serverRemote]
  split
  · exact .same (core_needMoreParams _ _ _)
  · have h1 := clientCheckID_steps (x := x) h.base cl (self_may h.xcl) (req.arg 0)
    generalize hr : clientCheckID s (s.cl cl) (req.arg 0) = r at h1
    obtain ⟨s1, b⟩ := r
    cases b with
    | false => exact h1
    | true =>
      obtain ⟨rfl, hf⟩ := clientCheckID_true hr
      simp only
      split
      · exact closeClient_steps h.base _ (self_may h.xcl) _
      · split
        · exact closeClient_steps h.base _ (self_may h.xcl) _
        · rename_i f _
          refine Steps.congr_right (t := clientNewRemoteServer s1 cl (req.arg 0) f.ref (atoi (req.arg 1))
            (atoi (req.arg 2)) (req.arg 3)) ?_ rfl
          obtain ⟨g1, g2, g3, g4, g5, g6, g7, g8⟩ := newClientC_fields s1 none cl (some f.ref) .server
            (some (req.arg 0)) none (some (req.arg 0)) (some (req.arg 3)) (atoi (req.arg 1)) (atoi (req.arg 2)) none true
          refine .one (.newCl _) ⟨h.peer hs, g1, g2, ?_, ?_, .inr g4, ?_, ?_, newClientC_caps ..⟩ rfl
          · rw [g5, g6]; rfl
          · rw [g3]; exact ⟨s1.cl cl, h.mem.1, h.mem.2, hs, by rw [h.mem.2]; exact h.ne_this⟩
          · rw [g8, g4]
          · rcases h.polite with hp | hp
            · exact .inr hp
            · left
              have hg := hp.server hs hm
              rw [g5, g7]
              simp only [Option.map_some, Option.getD_some, Option.map_none, Option.getD_none]
              rw [strlcpy_of_lt hg.2.2]
              exact ⟨hg, hf, List.nodup_nil⟩

theorem ircSERVER_steps {cl : Nat} {req : Request} (h : Hnd x s cl req) (hm : Spec.Is req "SERVER") :
    Steps (Okay x) s (ircSERVER s cl req).1 := by
  simp only [ircSERVER]
  split
  · exact .same rfl
  · split
    · rename_i ht
      exact serverLink_steps h hm (by simpa using ht) ‹_›
    · split
      · exact serverRemote_steps h hm ‹_›
      · exact .same (core_needMoreParams _ _ _)

/-! ## NJOIN -/

theorem njoinOne_steps {cl : Nat} {name tok out : Str} (hb : Base s) (hpe : x.peer)
    (hj : (∀ c, clientSearch s (tok.dropWhile isNjoinPrefix) = some c → Spec.Person c) ∨ x.bad)
    (hn : name ≠ [] ∨ x.bad) :
    Steps (Okay x) s (njoinOne s cl name tok out).1 ∧
    (njoinOne s cl name tok out).1.clients.Sublist s.clients := by
  simp only [njoinOne]
  split
  · exact ⟨.rfl', List.Sublist.refl _⟩
  · rename_i c hc
    have hjn : Joiner x s c.ref := by
      have hcl := cl_ref_of_search hb hc
      refine ⟨⟨c, clientSearch_mem hc, rfl⟩, by rw [hcl], ?_⟩
      rw [hcl]
      exact ⟨hj.elim (fun h => .inl (h c hc)) .inr, .inl hpe⟩
    have h1 := channelJoin_steps (x := x) (c := c) hjn hn
    generalize channelJoin s c name = r at h1
    obtain ⟨s1, b⟩ := r
    have hb1 := h1.1.base hb
    cases b with
    | false =>
      refine ⟨h1.1.trans (.killClient hb1 (by simp) (.inl hpe) _ _), ?_⟩
      exact List.Sublist.trans (killClient_sub hb1 (by simp) _ _) (by rw [h1.2.1]; exact List.Sublist.refl _)
    | true =>
      simp only
      split
      · exact ⟨h1.1.congr_right rfl, by rw [show s1.crash.clients = s1.clients from rfl, h1.2.1]; exact List.Sublist.refl _⟩
      · rename_i ch _
        generalize hs2 : (njoinModes (tok.takeWhile isNjoinPrefix)).foldl
          (fun s m => (userModeAdd s ch.ref c.ref m).1) s1 = s2
        have h2 : KSteps x s1 s2 := by
          rw [← hs2]
          exact .foldl _ (fun s m => .mmodeAdd hjn.edits _ _ _) _ _
        have h12 := h1.trans h2
        refine (fun (h : KSteps x s _) => ⟨h.1, by rw [h.2.1]; exact List.Sublist.refl _⟩) (h12.congr_right ?_)
        repeat' split
        all_goals first
          | rfl
          | simp only [core_sendChannelInfo, core_writeChannelPrefix]

theorem clientSearch_id {n : Str} {c : Client} (h : clientSearch s n = some c) :
    caseEq c.id (cutAt (strlcpy CLIENT_ID_LEN n) '!') = true := by
  simp only [clientSearch] at h
  have := List.find?_some h
  simp only [Bool.and_eq_true] at this
  exact this.2

theorem njoinLoop_steps {cl : Nat} {name : Str} (l : List Str) (s : Srv) (out : Str) (hb : Base s) (hpe : x.peer)
    (hj : (∀ tok ∈ l, ∀ c ∈ s.clients,
      caseEq c.id (cutAt (strlcpy CLIENT_ID_LEN (tok.dropWhile isNjoinPrefix)) '!') = true → Spec.Person c) ∨ x.bad)
    (hn : name ≠ [] ∨ x.bad) :
    Steps (Okay x) s (njoinLoop cl name l s out).1 := by
  induction l generalizing s out with
  | nil => exact .rfl'
  | cons tok l ih =>
    simp only [njoinLoop]
    obtain ⟨h1, h2⟩ := njoinOne_steps (x := x) (cl := cl) (out := out) hb hpe (tok := tok) (name := name)
      (hj.imp_left (fun h c hc => h tok (List.mem_cons_self ..) c (clientSearch_mem hc) (clientSearch_id hc))) hn
    refine h1.trans (ih _ _ (h1.base hb) (hj.imp_left (fun h t ht c hc =>
      h t (List.mem_cons_of_mem _ ht) c (h2.subset hc))))

theorem ircNJOIN_steps {cl : Nat} {req : Request} (h : Hnd x s cl req) (hm : Spec.Is req "NJOIN")
    (hs : (s.cl cl).type = .server) : Steps (Okay x) s (ircNJOIN s cl req).1 := by
  simp only [ircNJOIN]
  have h1 := njoinLoop_steps (x := x) (cl := cl) (name := req.arg 0) (strtok (strlcpy COMMAND_LEN (req.arg 1)) [',']) s [] h.base (h.peer hs)
    (h.polite.elim .inr (fun hp => .inl (hp.njoin hs hm).2))
    (h.polite.elim .inr (fun hp => .inl (hp.njoin hs hm).1))
  split
  · exact h1
  · exact h1.congr_right rfl

/-! ## SQUIT -/

/-- A command only servers and operators may use. -/
theorem Hnd.peer_oper {cl : Nat} {req : Request} (h : Hnd x s cl req)
    (hm : (s.cl cl).type = .server ∨ (s.cl cl).hasMode 'o' = true) : x.peer ∨ x.oper :=
  hm.imp h.peer (fun hm => h.oper (by simpa [Client.hasMode, hasChar] using hm))

theorem squitDo_steps {cl : Nat} {f : Client} {req : Request} (hb : Base s) (hm : x.peer ∨ x.oper) :
    Steps (Okay x) s (squitDo s cl f req).1 := by
  simp only [squitDo]
  split
  · exact .rfl'
  · rename_i t ht
    split
    · exact .same rfl
    · split
      · have hw := core_sendWallops s s.this (s.cl s.this)
          ("Received SQUIT ".toList ++ req.arg 0 ++ " from ".toList ++ f.ID)
        exact Steps.trans (.same hw) (.connClose (hb.of_core hw) (fun _ _ => any_may hm _) _ _)
      · rename_i hcn
        split
        · exact .same rfl
        · split
          · exact .same rfl
          · exact .clientDestroy hb (clientSearch_mem ht) ‹_› hcn (any_may hm _) _ _

theorem ircSQUIT_steps {cl : Nat} {req : Request} (h : Hnd x s cl req) :
    Steps (Okay x) s (ircSQUIT s cl req).1 := by
  simp only [ircSQUIT]
  split
  · exact .same rfl
  · rename_i h0
    split
    · exact .same rfl
    · exact .same rfl
    · refine squitDo_steps h.base (h.peer_oper ?_)
      cases ht : decide ((s.cl cl).type = .server)
      · right
        simp only [decide_eq_false_iff_not] at ht
        simpa [ht] using h0
      · exact .inl (of_decide_eq_true ht)

end Ngircd
