import Verif.Lemmas.HServer
import Verif.Lemmas.Query
import Verif.Props.Dispatch

/-!
# Operator commands, messages, and the dispatcher as runs of guarded actions
-/

set_option linter.unusedSimpArgs false

namespace Ngircd

variable {x : Ctx} {s t u : Srv}

theorem ircOPER_steps {cl : Nat} {req : Request} (h : Hnd x s cl req) (hm : Spec.Is req "OPER") :
    Steps (Okay x) s (ircOPER s cl req).1 := by
  have hn : x.is "OPER" := by unfold Ctx.is; rw [h.cmd]; exact hm
  simp only [ircOPER]
  split
  · exact .same rfl
  · rename_i op hop
    split
    · exact .same rfl
    · rename_i hpw
      split
      · exact .same rfl
      · rename_i hmask
        have hmem := List.mem_of_find?_eq_some hop
        have hname := List.find?_some hop
        simp only [beq_iff_eq] at hname
        split
        · refine Steps.congr_right (t := (clientModeAdd s cl 'o').1) ?_ rfl
          refine .one (.umode cl 'o' true) ?_ rfl
          refine .inr (.inr ⟨h.xcl.symm, .inl ⟨rfl, .inr (.inr (.inr ⟨rfl, hn, op, hmem, ?_, ?_, ?_⟩))⟩⟩)
          · rw [h.argv]; exact hname
          · rw [h.argv]; exact Classical.not_not.1 hpw
          · intro m hmm
            rw [hmm] at hmask
            simpa [operMaskOk] using hmask
        · exact .same rfl

theorem ircDIE_core (cl : Nat) (req : Request) : (ircDIE s cl req).1.core = s.core := by
  simp only [ircDIE]
  split
  · rfl
  · split
    · show (Srv.core (List.foldl _ s s.conns)) = s.core
      refine foldl_core _ ?_ _ _
      intros; split <;> rfl
    · rfl

theorem ircREHASH_core (cl : Nat) (req : Request) : (ircREHASH s cl req).1.core = s.core := by
  simp only [ircREHASH]; split <;> rfl

theorem ircRESTART_core (cl : Nat) (req : Request) : (ircRESTART s cl req).1.core = s.core := by
  simp only [ircRESTART]; split <;> rfl

theorem connectDo_steps (req : Request) (hg : 3 < req.argc → (req.arg 0 ≠ [] ∧ '!' ∉ req.arg 0) ∨ x.bad) : Steps (Okay x) s (connectDo s req).1 := by
  simp only [connectDo]
  split
  · split <;> exact .same rfl
  · rename_i ha
    split
    · exact .rfl'
    · refine .one (.conf { s.conf with servers := s.conf.servers ++
        [{ name := strlcpy CLIENT_ID_LEN (req.arg 0), pwdOut := strlcpy 65 (req.arg 3), pwdIn := strlcpy 65 (req.arg 4) }] })
        ⟨rfl, rfl, fun cs hcs => ?_, .inr (.inr ⟨rfl, rfl⟩), .inl rfl, .inr ⟨_, rfl⟩⟩ rfl
      rcases List.mem_append.1 hcs with hcs | hcs
      · exact .inl hcs
      · right
        rcases hg (by omega) with hg | hg
        · left
          rw [List.mem_singleton.1 hcs]
          refine ⟨?_, fun hm => hg.2 (List.mem_of_mem_take hm), ?_⟩
          · show strlcpy CLIENT_ID_LEN (req.arg 0) ≠ []
            cases he : req.arg 0 with
            | nil => exact absurd he hg.1
            | cons a l => simp [strlcpy, CLIENT_ID_LEN]
          · show (strlcpy CLIENT_ID_LEN (req.arg 0)).length < _
            simp [strlcpy, CLIENT_ID_LEN]; omega
        · exact .inr hg

theorem connectHere_steps (cl f : Nat) (req : Request)
    (hg : 3 < req.argc → (req.arg 0 ≠ [] ∧ '!' ∉ req.arg 0) ∨ x.bad) :
    Steps (Okay x) s (connectHere s cl f req).1 := by
  have h1 := connectDo_steps (x := x) (s := s) req hg
  simp only [connectHere]
  split
  · exact .same rfl
  · generalize connectDo s req = r at h1
    obtain ⟨s1, b⟩ := r
    cases b with
    | false => exact h1.congr_right rfl
    | true => exact h1.congr_right rfl

theorem ircCONNECT_steps {cl : Nat} {req : Request} (h : Hnd x s cl req) (hm : Spec.Is req "CONNECT") :
    Steps (Okay x) s (ircCONNECT s cl req).1 := by
  generalize hr : ircCONNECT s cl req = r
  simp only [ircCONNECT] at hr
  split at hr
  · subst hr; exact .same (core_needMoreParams _ _ _)
  · split at hr
    · subst hr; exact .same (core_needMoreParams _ _ _)
    · split at hr
      · subst hr; exact .same rfl
      · rename_i ho
        have hg : 3 < req.argc → (req.arg 0 ≠ [] ∧ '!' ∉ req.arg 0) ∨ x.bad := by
          intro ha
          rcases h.polite with hp | hp
          · exact .inr hp
          · refine .inl (hp.connect ?_ hm ha)
            simp only [Bool.and_eq_true, decide_eq_true_eq, Bool.not_eq_true', not_and,
              Bool.not_eq_false] at ho
            by_cases hs : (s.cl cl).type = .server
            · exact .inl hs
            · exact .inr (ho hs)
        split at hr
        · split at hr
          · subst hr; exact .same rfl
          · split at hr
            · subst hr; exact .same rfl
            · split at hr
              · subst hr; exact .same rfl
              · split at hr
                · subst hr; exact .same rfl
                · subst hr; exact connectHere_steps _ _ _ hg
        · subst hr; exact connectHere_steps _ _ _ hg

/-- Who passes the operator check sends as a server or is an operator. -/
theorem Hnd.opCheck {cl : Nat} {req : Request} (h : Hnd x s cl req) {f : Client}
    (ho : Ngircd.opCheck s cl req = some f) : x.peer ∨ x.oper := by
  refine h.peer_oper ?_
  simp only [Ngircd.opCheck] at ho
  by_cases ht : (s.cl cl).type = .server
  · exact .inl ht
  · right
    simp only [ht, if_false, decide_false, Bool.false_and, Bool.false_eq_true] at ho
    cases hm : (s.cl cl).hasMode 'o' with
    | true => rfl
    | false => simp [hm] at ho

theorem ircDISCONNECT_steps {cl : Nat} {req : Request} (h : Hnd x s cl req) :
    Steps (Okay x) s (ircDISCONNECT s cl req).1 := by
  simp only [ircDISCONNECT]
  split
  · exact .same rfl
  · rename_i hop
    have hb := h.base
    have hm : x.peer ∨ x.oper := by
      cases ho : Ngircd.opCheck s cl req with
      | none => rw [ho] at hop; exact absurd rfl hop
      | some f => exact h.opCheck ho
    generalize hs1 : sendWallops s s.this (s.cl s.this)
      ("Received DISCONNECT ".toList ++ req.arg 0 ++ " from ".toList ++ (s.cl cl).ID) = s1
    have h1 : s1.core = s.core := by rw [← hs1]; exact core_sendWallops _ _ _ _
    split
    · exact .same h1
    · split
      · refine Steps.trans (.same (t := { s1 with linkReq := req.arg 0 :: s1.linkReq }) ?_) (.connClose ?_ (fun _ _ => any_may hm _) _ _)
        · exact h1
        · exact hb.of_core h1
      · exact .same h1

theorem setLine_steps (k : LineClass) (l : MaskList) (hl : Lasting (s.line k) → Lasting l)
    (hw : x.peer ∨ ¬ x.fresh) : Steps (Okay x) s (s.setLine k l) := by
  cases k
  · exact .lines (g := l) (k := s.klines) rfl ⟨hl, fun h => h, hw.imp_right .inl⟩
  · exact .lines (g := s.glines) (k := l) rfl ⟨fun h => h, hl, hw.imp_right .inl⟩

theorem xlineKills_steps {cl th : Nat} (hm : x.peer ∨ x.oper) (hne : cl ≠ th) (hw : x.peer ∨ ¬ x.fresh) (k : LineClass) (reason : Str) (l : List Nat) (s : Srv)
    (hb : Base s) (hth : s.this = th) : Steps (Okay x) s (xlineKills cl k reason l s) := by
  induction l generalizing s with
  | nil => exact .rfl'
  | cons r l ih =>
    simp only [xlineKills]
    split
    · exact .same rfl
    · rename_i c _
      split
      · have h1 := setLine_steps (x := x) (s := s) k (listsCheck (s.line k) (masksOf s c)).1 (fun h => h.check _) hw
        generalize listsCheck (s.line k) (masksOf s c) = m at *
        have hb1 := h1.base hb
        have ht1 := h1.this_eq.trans hth
        refine h1.trans ?_
        split
        · split
          · exact .same rfl
          · have h2 := Steps.killClient (x := x) (client := some cl) (from_ := none) hb1 (by
              rw [ht1]; intro he; injection he with he; exact hne he) hm c.ID reason
            exact h2.trans (ih _ (h2.base hb1) (h2.this_eq.trans ht1))
        · exact ih _ hb1 ht1
      · exact ih _ hb hth

theorem xlineDo_steps {cl : Nat} (hm : x.peer ∨ x.oper) (hb : Base s) (hne : cl ≠ s.this) (hw : x.peer ∨ ¬ x.fresh) (f : Client) (k : LineClass) (req : Request) :
    Steps (Okay x) s (xlineDo s cl f k req) := by
  simp only [xlineDo]
  split
  · refine (setLine_steps k (listsDel (s.line k) (listsMakeMask (req.arg 0) MASK_LEN)) (fun h => h.del _) hw).congr_right ?_
    split <;> rfl
  · have h1 : Steps (Okay x) s (s.setLine k (listsAdd true (s.line k) (listsMakeMask (req.arg 0) MASK_LEN)
        (if atoi (req.arg 1) > 0 then (atoi (req.arg 1)).toNat + s.now else 0) (some (req.arg 2)) false).1) :=
      setLine_steps _ _ (fun h => h.add _ _ _ _) hw
    generalize s.setLine k (listsAdd true (s.line k) (listsMakeMask (req.arg 0) MASK_LEN)
        (if atoi (req.arg 1) > 0 then (atoi (req.arg 1)).toNat + s.now else 0) (some (req.arg 2)) false).1 = s1 at *
    generalize hs2 : (if k = .gline then writeServers s1 (some cl) f ⟨"GLINE", req.argv⟩ else s1) = s2
    have h2 : Steps (Okay x) s s2 := h1.congr_right (by rw [← hs2]; split <;> rfl)
    exact h2.trans (xlineKills_steps hm hne hw _ _ _ _ (h2.base hb) h2.this_eq)

theorem Hnd.notFresh {cl : Nat} {req : Request} (h : Hnd x s cl req)
    (ht : (s.cl cl).type = .user ∨ (s.cl cl).type = .server) : x.peer ∨ ¬ x.fresh :=
  ht.elim (fun h' => .inr (h.stale h')) (fun h' => .inl (h.peer h'))

theorem ircXLINE_steps {cl : Nat} {req : Request} (h : Hnd x s cl req) (hw : x.peer ∨ ¬ x.fresh) (k : LineClass) :
    Steps (Okay x) s (ircXLINE k s cl req).1 := by
  simp only [ircXLINE]
  split
  · exact .same (core_needMoreParams _ _ _)
  · split
    · exact .same rfl
    · rename_i hf
      split at hf
      · cases hf
      · exact xlineDo_steps (h.opCheck hf) h.base h.ne_this hw _ _ _

theorem ircERROR_steps {cl : Nat} {req : Request} (h : Hnd x s cl req) : Steps (Okay x) s (ircERROR s cl req).1 := by
  simp only [ircERROR]
  split
  · exact .rfl'
  · split
    · exact .connClose h.base (own_may h.base ‹_› (self_may h.xcl)) _ _
    · exact .rfl'

theorem ircKILL_steps {cl : Nat} {req : Request} (h : Hnd x s cl req) :
    Steps (Okay x) s (ircKILL s cl req).1 := by
  simp only [ircKILL]
  split
  · exact .same rfl
  · rename_i hd
    refine .killClient h.base (by intro he; injection he with he; exact h.ne_this he) ?_ _ _
    by_cases ht : (s.cl cl).type = .server
    · exact .inl (h.peer ht)
    · cases ho : Ngircd.opCheck s cl req with
      | none => exact absurd (by simp [ht, ho]) hd
      | some f => exact h.opCheck ho

/-! ## Messages -/

theorem channelWrite_steps (hb : Base s) {ch : Chan} (hc : ch ∈ s.chans) (f c : Client) (cmd : String)
    (e : Bool) (text : Str) : KSteps x s (channelWrite s ch f c cmd e text) := by
  have h1 : KSteps x s (s.updChan ch.ref (fun _ => (canSendToChannel s ch f).1)) := by
    obtain ⟨g, hg, hgr⟩ : ∃ g : Chan → Chan, SoftCh x g ∧
        (canSendToChannel s ch f).1 = g ch := by
      simp only [canSendToChannel]
      repeat' split
      all_goals first
        | exact ⟨fun c => c, ⟨fun _ => ⟨rfl, rfl, rfl⟩, fun _ => rfl, fun _ h => h,
            .inr (fun _ _ => ⟨rfl, rfl, rfl, rfl, rfl⟩), .inr (.inr (fun _ => rfl)), .inr (fun _ => rfl)⟩, rfl⟩
        | exact ⟨fun c => { c with excepts := (listsCheck c.excepts (masksOf s f)).1 },
            ⟨fun _ => ⟨rfl, rfl, rfl⟩, fun _ => rfl,
              fun c h => h.congr ⟨rfl, listsCheck_once _ (fun e he => h e (.inr he))⟩,
              .inr (fun c h => ⟨rfl, rfl, rfl, listsCheck_once _ (fun e he => h e (.inr he)), rfl⟩),
              .inr (.inr (fun _ => rfl)), .inr (fun _ => rfl)⟩, rfl⟩
        | exact ⟨fun c => { c with excepts := (listsCheck c.excepts (masksOf s f)).1,
                                   bans := (listsCheck c.bans (masksOf s f)).1 },
            ⟨fun _ => ⟨rfl, rfl, rfl⟩, fun _ => rfl,
              fun c h => h.congr ⟨listsCheck_once _ (fun e he => h e (.inl he)),
                listsCheck_once _ (fun e he => h e (.inr he))⟩,
              .inr (fun c h => ⟨rfl, rfl, listsCheck_once _ (fun e he => h e (.inl he)),
                listsCheck_once _ (fun e he => h e (.inr he)), rfl⟩),
              .inr (.inr (fun _ => rfl)), .inr (fun _ => rfl)⟩, rfl⟩
    rw [hgr, updChan_const hb.ch hc g]
    exact .chSoft hg
  simp only [channelWrite]
  refine h1.congr_right ?_
  repeat' split
  all_goals rfl

theorem msgToClient_core (cl : Nat) (f c : Client) (t : Str) (cmd : String) (text : Str) (b e : Bool) :
    (msgToClient s cl f c t cmd text b e).1.core = s.core := by
  simp only [msgToClient]
  generalize msgRefusal s f c b = r
  cases r with
  | none =>
    simp only
    split <;> rfl
  | some m =>
    simp only
    split <;> rfl

theorem sendMessageMask_core (f : Client) (cmd : String) (t text : Str) (e : Bool) :
    (sendMessageMask s f cmd t text e).core = s.core := by
  simp only [sendMessageMask]
  repeat' split
  all_goals first
    | rfl
    | (refine foldl_core _ ?_ _ _; intros; rfl)

theorem msgOne_steps (hb : Base s) (cl : Nat) (f : Client) (t : Str) (cmd : String) (text : Str) (b e : Bool) :
    KSteps x s (msgOne s cl f t cmd text b e).1 := by
  simp only [msgOne]
  split
  · exact .same (msgToClient_core _ _ _ _ _ _ _ _)
  · split
    · rename_i ch hch
      split at hch
      · cases hch
      · exact channelWrite_steps hb (channelSearch_mem hch) _ _ _ _ _
    · split
      · exact .same (sendMessageMask_core _ _ _ _ _)
      · split <;> exact .same rfl

theorem msgLoop_steps (cl f : Nat) (text : Str) (b e : Bool) (l seen : List Str) (cmd : String) (s : Srv)
    (hb : Base s) : KSteps x s (msgLoop cl f text b e l seen cmd s) := by
  induction l generalizing seen cmd s with
  | nil => exact .rfl'
  | cons t l ih =>
    simp only [msgLoop]
    split
    · exact .same rfl
    · split
      · exact ih _ _ _ hb
      · have h1 := msgOne_steps (x := x) hb cl (s.cl f) t cmd text b e
        generalize msgOne s cl (s.cl f) t cmd text b e = r at h1
        obtain ⟨s1, c1, b1⟩ := r
        cases b1 with
        | false => exact h1
        | true => exact h1.trans (ih _ _ _ (h1.1.base hb))

theorem sendMessage_steps (hb : Base s) (cmd : String) (b e : Bool) (cl : Nat) (req : Request) :
    KSteps x s (sendMessage cmd b e s cl req).1 := by
  simp only [sendMessage]
  split
  · refine .same ?_; dsimp only; split <;> rfl
  · split
    · refine .same ?_; dsimp only; split <;> rfl
    · split
      · refine .same ?_; dsimp only; split <;> rfl
      · split
        · exact .same rfl
        · split
          · refine .same ?_; dsimp only; split <;> rfl
          · exact msgLoop_steps _ _ _ _ _ _ _ _ _ hb

/-! ## The table -/

theorem Spec.OnlyOutput.steps (h : Spec.OnlyOutput s t) : Steps (Okay x) s t := .same h.core

/-- Every command of the table. -/
theorem command_steps {cmd : Command} (hc : cmd ∈ myCommands) {cl : Nat} {req : Request} (h : Hnd x s cl req)
    (ht : cmd.types.allows (s.cl cl).type = true) (hm : Spec.Is req cmd.name) :
    Steps (Okay x) s (cmd.run s cl req).1 := by
  simp only [myCommands, List.mem_cons, List.not_mem_nil, or_false] at hc
  rcases hc with rfl | hc
  · exact (oo_ircADMIN _ _ req).steps -- ADMIN
  rcases hc with rfl | hc
  · exact ircAWAY_steps h (by unfold Ctx.is; rw [h.cmd]; exact hm) -- AWAY
  rcases hc with rfl | hc
  · exact ircCAP_steps h hm -- CAP
  rcases hc with rfl | hc
  · exact ircCONNECT_steps h hm -- CONNECT
  rcases hc with rfl | hc
  · exact .same (ircDIE_core _ _) -- DIE
  rcases hc with rfl | hc
  · exact ircDISCONNECT_steps h -- DISCONNECT
  rcases hc with rfl | hc
  · exact ircERROR_steps h -- ERROR
  rcases hc with rfl | hc
  · exact ircXLINE_steps h (h.notFresh (by simpa [CmdTypes.allows] using ht)) _ -- GLINE
  rcases hc with rfl | hc
  · exact (oo_ircHELP _ _ req).steps -- HELP
  rcases hc with rfl | hc
  · exact (oo_ircINFO _ _ req).steps -- INFO
  rcases hc with rfl | hc
  · exact (ircINVITE_steps (by unfold Ctx.is; rw [h.cmd]; exact hm) _ _).1 -- INVITE
  rcases hc with rfl | hc
  · exact (oo_ircISON _ _ req).steps -- ISON
  rcases hc with rfl | hc
  · exact (ircJOIN_hnd h (by simpa [CmdTypes.allows] using ht) hm).1 -- JOIN
  rcases hc with rfl | hc
  · exact (ircKICK_steps (by unfold Ctx.is; rw [h.cmd]; exact hm) _ _).1 -- KICK
  rcases hc with rfl | hc
  · exact ircKILL_steps h -- KILL
  rcases hc with rfl | hc
  · exact ircXLINE_steps h (h.notFresh (by simpa [CmdTypes.allows] using ht)) _ -- KLINE
  rcases hc with rfl | hc
  · exact (oo_ircLINKS _ _ req).steps -- LINKS
  rcases hc with rfl | hc
  · exact (oo_ircLIST _ _ req).steps -- LIST
  rcases hc with rfl | hc
  · exact (oo_ircLUSERS _ _ req).steps -- LUSERS
  rcases hc with rfl | hc
  · exact ircMETADATA_steps (h.peer (by simpa [CmdTypes.allows] using ht)) -- METADATA
  rcases hc with rfl | hc
  · exact ircMODE_steps h (by simpa [CmdTypes.allows] using ht) hm -- MODE
  rcases hc with rfl | hc
  · exact (oo_ircMOTD _ _ req).steps -- MOTD
  rcases hc with rfl | hc
  · exact (oo_ircNAMES _ _ req).steps -- NAMES
  rcases hc with rfl | hc
  · exact ircNICK_steps h hm -- NICK
  rcases hc with rfl | hc
  · exact ircNJOIN_steps h hm (by simpa [CmdTypes.allows] using ht) -- NJOIN
  rcases hc with rfl | hc
  · exact (sendMessage_steps h.base _ _ _ _ _).1 -- NOTICE
  rcases hc with rfl | hc
  · exact ircOPER_steps h hm -- OPER
  rcases hc with rfl | hc
  · exact (ircPART_steps h (by unfold Ctx.is; rw [h.cmd]; exact hm)).1 -- PART
  rcases hc with rfl | hc
  · exact ircPASS_steps h hm -- PASS
  rcases hc with rfl | hc
  · exact (oo_ircPING _ _ req).steps -- PING
  rcases hc with rfl | hc
  · exact ircPONG_steps h hm -- PONG
  rcases hc with rfl | hc
  · exact (sendMessage_steps h.base _ _ _ _ _).1 -- PRIVMSG
  rcases hc with rfl | hc
  · exact ircQUIT_steps h -- QUIT
  rcases hc with rfl | hc
  · exact .same (ircREHASH_core _ _) -- REHASH
  rcases hc with rfl | hc
  · exact .same (ircRESTART_core _ _) -- RESTART
  rcases hc with rfl | hc
  · exact ircSERVER_steps h hm -- SERVER
  rcases hc with rfl | hc
  · exact ircSERVICE_steps h hm -- SERVICE
  rcases hc with rfl | hc
  · exact (oo_ircSERVLIST _ _ req).steps -- SERVLIST
  rcases hc with rfl | hc
  · exact (sendMessage_steps h.base _ _ _ _ _).1 -- SQUERY
  rcases hc with rfl | hc
  · exact ircSQUIT_steps h -- SQUIT
  rcases hc with rfl | hc
  · exact (oo_ircSTATS _ _ req).steps -- STATS
  rcases hc with rfl | hc
  · exact ircSVSNICK_steps h (by simpa [CmdTypes.allows] using ht) -- SVSNICK
  rcases hc with rfl | hc
  · exact (oo_ircSUMMON _ _ req).steps -- SUMMON
  rcases hc with rfl | hc
  · exact (oo_ircTIME _ _ req).steps -- TIME
  rcases hc with rfl | hc
  · exact (ircTOPIC_steps (.inr (.inl (by unfold Ctx.is; rw [h.cmd]; exact hm))) _ _).1 -- TOPIC
  rcases hc with rfl | hc
  · exact (oo_ircTRACE _ _ req).steps -- TRACE
  rcases hc with rfl | hc
  · exact ircUSER_steps h hm -- USER
  rcases hc with rfl | hc
  · exact (oo_ircUSERHOST _ _ req).steps -- USERHOST
  rcases hc with rfl | hc
  · exact (oo_ircUSERS _ _ req).steps -- USERS
  rcases hc with rfl | hc
  · exact (oo_ircVERSION _ _ req).steps -- VERSION
  rcases hc with rfl | hc
  · exact (oo_ircWALLOPS _ _ req).steps -- WALLOPS
  rcases hc with rfl | hc
  · exact ircWEBIRC_steps (by intro he; rw [he] at ht; simp [CmdTypes.allows] at ht) -- WEBIRC
  rcases hc with rfl | hc
  · exact (oo_ircWHO _ _ req).steps -- WHO
  rcases hc with rfl | hc
  · exact (oo_ircWHOIS _ _ req).steps -- WHOIS
  rcases hc with rfl | hc
  · exact (oo_ircWHOWAS _ _ req).steps -- WHOWAS
  rcases hc with rfl | hc
  · exact (ircCHANINFO_steps h (by simpa [CmdTypes.allows] using ht) hm).1 -- CHANINFO
  rcases hc with rfl | hc
  · exact ircQUIT_HTTP_steps h -- GET
  subst hc
  exact ircQUIT_HTTP_steps h -- POST

theorem runCommand_steps {cl : Nat} {req : Request} (h : Hnd x s cl req) {cmd : Command}
    (hf : findCommand req.command = some cmd) : Steps (Okay x) s (runCommand s cl req cmd).1 := by
  have hc := List.mem_of_find?_eq_some hf
  have hn : caseEq req.command cmd.name.toList = true := by
    simpa using List.find?_some (p := fun (c : Command) => caseEq req.command c.name.toList) hf
  simp only [runCommand]
  split
  · split <;> exact .same rfl
  · rename_i ht
    split
    · exact .same (core_needMoreParams _ _ _)
    · exact command_steps hc h (by simpa using ht) hn

theorem handleNumeric_steps {cl : Nat} {req : Request} (h : Hnd x s cl req)
    (ht : (s.cl cl).type = .server ∨ (s.cl cl).type = .unknownServer) :
    Steps (Okay x) s (handleNumeric s cl req).1 := by
  simp only [handleNumeric]
  split
  · exact .rfl'
  · split
    · split
      · exact numISUPPORT_steps h.base (self_may h.xcl)
      · split
        · exact .rfl'
        · split
          · exact numENDOFMOTD_steps h.base h.xcl h.conn ht.symm (.inr (by rw [h.cmd]; assumption))
          · exact .rfl'
    · split
      · exact .rfl'
      · split <;> exact .same rfl

theorem handleRequest_steps {cl : Nat} {req : Request} (h : Hnd x s cl req) :
    Steps (Okay x) s (handleRequest s cl req).1 := by
  simp only [handleRequest]
  split
  · rename_i ht
    simp only [Bool.and_eq_true, Bool.or_eq_true, decide_eq_true_eq] at ht
    exact handleNumeric_steps h ht.1.1
  · split
    · exact runCommand_steps h ‹_›
    · repeat' split
      all_goals exact .same rfl

end Ngircd
