import Verif.Lemmas.Deliver
import Verif.Spec.Messages
import Verif.Props.Join
import Verif.Props.Kick
import Verif.Props.Links

/-!
# C20, C21, C51: messages to channels and clients
-/

set_option linter.unusedSimpArgs false

namespace Ngircd
open Spec

variable {s t u : Srv} {i j cl : Nat} {l : Str} {req : Request} {x : Ctx} {f : Client} {c : Chan}

theorem isLink_iff (hb : Base s) {d : Client} (hd : d ∈ s.clients) (hj : d.conn = some j) :
    isLink s j = decide (d.type = .server) := by
  rw [Bool.eq_iff_iff]
  simp only [isLink, List.any_eq_true, Bool.and_eq_true, beq_iff_eq, decide_eq_true_eq]
  constructor
  · rintro ⟨e, he, h1, h2⟩
    rw [conn_owner hb hd he hj h1]; exact h2
  · intro h; exact ⟨d, hd, hj, h⟩

/-- Who gets what is sent to a channel, over all connections but `i`. -/
theorem writeChannel_spec (hb : Base s) (hk : KindInv s) {client : Nat} (hcl : (s.cl client).conn = some i) (ch : Nat)
    (p : Client) (m : Msg) :
    ∃ o, writeChannelPrefix s client ch p true m = { s with out := o ++ s.out } ∧
      (∀ j, j ≠ i → ∀ x ∈ s.clients, OnChannel s ch x.ref → Behind s j x →
        onConn o j = [⟨j, some (shownAs s p j), m⟩]) ∧
      (∀ y ∈ o, y.conn ≠ i ∧ ∃ x ∈ s.clients, OnChannel s ch x.ref ∧ Behind s y.conn x) := by
  have hm := mem_of_conn (s := s) (r := client) (by rw [hcl]; rfl)
  have hhop : ∀ h, h ∈ (membersOf s ch).filterMap (hopFor s client true) ↔
      ∃ x ∈ s.clients, OnChannel s ch x.ref ∧ h = nextHop s x ∧ h.ref ≠ client := by
    intro h
    rw [List.mem_filterMap]
    constructor
    · rintro ⟨r, hr, e⟩
      obtain ⟨k, hk1, k2, k3⟩ := mem_membersOf.1 hr
      obtain ⟨x, hx, e1, -⟩ := hk.members k hk1
      have : s.cl r = x := cl_of_mem' hb.cl.ord hx (e1.trans k3)
      simp only [hopFor, this, Bool.not_true, Bool.false_and, Bool.false_eq_true, if_false] at e
      split at e
      · cases e
      · rename_i hne
        injection e with e
        exact ⟨x, hx, ⟨k, hk1, k2, e1.symm⟩, e.symm, by rw [← e]; exact hne⟩
    · rintro ⟨x, hx, ⟨k, hk1, k2, k3⟩, rfl, hne⟩
      refine ⟨x.ref, mem_membersOf.2 ⟨k, hk1, k2, k3⟩, ?_⟩
      simp only [hopFor, cl_of_mem hb.cl.ord hx, Bool.not_true, Bool.false_and, Bool.false_eq_true, if_false]
      rw [if_neg hne]
  obtain ⟨o, ho, h1, h2⟩ := marked_spec hb (hops := (membersOf s ch).filterMap (hopFor s client true)) (by
    intro h hh hc
    obtain ⟨x, hx, -, rfl, -⟩ := (hhop h).1 hh
    exact nextHop_mem hx hc) p m
  refine ⟨o, ho, ?_, ?_⟩
  · intro j hj x hx hon hbe
    have hc := (nextHop_conn hb hx).2 hbe
    have hmem := nextHop_mem hx (by rw [hc]; rfl)
    have := h1 (nextHop s x) ((hhop _).2 ⟨x, hx, hon, rfl, ?_⟩) j hc
    · rw [onConn, this, shownAs, isLink_iff hb hmem hc]
      simp only [decide_eq_true_eq]
    · intro he
      have := conn_owner hb hmem hm.1 hc (by
        rw [hb.cl.ord.eq_of_ref hmem hm.1 (he.trans hm.2.symm)] at hc; rw [hc])
      rw [this, hcl] at hc
      injection hc with hc; exact hj hc.symm
  · intro y hy
    obtain ⟨h, hh, hc⟩ := h2 y hy
    obtain ⟨x, hx, hon, rfl, hne⟩ := (hhop h).1 hh
    refine ⟨?_, x, hx, hon, (nextHop_conn hb hx).1 hc⟩
    intro he
    rw [he] at hc
    have hmem := nextHop_mem hx (by rw [hc]; rfl)
    exact hne (by rw [conn_owner hb hmem hm.1 hc hcl]; exact hm.2)

theorem canSend_spec (hb : Base s) (ho : Once c) (hf : f.ref ≠ s.this) :
    (canSendToChannel s c f).1 = c ∧ ((canSendToChannel s c f).2 = true ↔ MaySpeak s f c) := by
  have he : (listsCheck c.excepts (masksOf s f)).1 = c.excepts := listsCheck_once _ (fun e h => ho e (.inr h))
  have hbn : (listsCheck c.bans (masksOf s f)).1 = c.bans := listsCheck_once _ (fun e h => ho e (.inl h))
  have hmode : ∀ m, c.hasMode m = true ↔ m ∈ c.modes := fun m => by simp [Chan.hasMode, hasChar_iff]
  have hrk : ∀ m, (isMemberOf s c.ref f.ref && userHasMode s c.ref f.ref m) = true ↔ HasRank s c.ref f.ref m := by
    intro m
    rw [Bool.and_eq_true, userHasMode_iff hb.ch]
    refine ⟨fun h => h.2, fun h => ⟨?_, h⟩⟩
    obtain ⟨k, hk, k1, k2, -⟩ := h
    exact isMemberOf_iff.2 ⟨k, hk, k1, k2⟩
  have hany : ((isMemberOf s c.ref f.ref && userHasMode s c.ref f.ref 'v') ||
      (isMemberOf s c.ref f.ref && userHasMode s c.ref f.ref 'h') ||
      (isMemberOf s c.ref f.ref && userHasMode s c.ref f.ref 'o') ||
      (isMemberOf s c.ref f.ref && userHasMode s c.ref f.ref 'a') ||
      (isMemberOf s c.ref f.ref && userHasMode s c.ref f.ref 'q')) = true ↔
      ∃ m ∈ "vhoaq".toList, HasRank s c.ref f.ref m := by
    have : "vhoaq".toList = ['v', 'h', 'o', 'a', 'q'] := rfl
    rw [this]
    simp only [Bool.or_eq_true, hrk, List.mem_cons, List.not_mem_nil, or_false, exists_eq_or_imp, exists_eq_left, or_assoc]
  simp only [canSendToChannel, if_neg hf, he, hbn]
  split
  · rename_i h
    rw [Bool.and_eq_true, hmode] at h
    refine ⟨rfl, (by intro g; cases g), fun g => ?_⟩
    have := isMemberOf_iff.2 (g.outside h.1)
    rw [this] at h; exact absurd h.2 (by decide)
  · rename_i h1
    have h1' : 'n' ∈ c.modes → OnChannel s c.ref f.ref := by
      intro hn
      rw [(hmode 'n').2 hn] at h1
      exact isMemberOf_iff.1 (by simpa using h1)
    split
    · rename_i h
      rw [Bool.and_eq_true, Bool.and_eq_true, hmode] at h
      refine ⟨rfl, (by intro g; cases g), fun g => ?_⟩
      have := g.registered h.1.1
      rw [← hasMode_iff, ← hasMode_iff] at this
      rcases this with this | this
      · rw [this] at h; exact absurd h.1.2 (by decide)
      · rw [this] at h; exact absurd h.2 (by decide)
    · rename_i h2
      have h2' : 'M' ∈ c.modes → 'R' ∈ f.modes ∨ 'o' ∈ f.modes := by
        intro hM
        rw [(hmode 'M').2 hM] at h2
        rw [← hasMode_iff, ← hasMode_iff]
        revert h2
        cases f.hasMode 'R' <;> cases f.hasMode 'o' <;> decide
      split
      · rename_i h3
        exact ⟨rfl, fun _ => ⟨h1', h2', .inl (hany.1 h3)⟩, fun _ => rfl⟩
      · rename_i h3
        have h3' : ¬ ∃ m ∈ "vhoaq".toList, HasRank s c.ref f.ref m := fun g => h3 (hany.2 g)
        split
        · rename_i h4
          refine ⟨rfl, (by intro g; cases g), fun g => ?_⟩
          exact absurd ((hmode 'm').1 h4) (g.rank.resolve_left h3').1
        · rename_i h4
          have h4' : 'm' ∉ c.modes := fun g => h4 ((hmode 'm').2 g)
          split
          · rename_i h5
            exact ⟨rfl, fun _ => ⟨h1', h2', .inr ⟨h4', fun _ => covers_iff.1 h5⟩⟩, fun _ => rfl⟩
          · rename_i h5
            have h5' : ¬ Covers s c.excepts f := fun g => h5 (covers_iff.2 g)
            refine ⟨rfl, fun g => ⟨h1', h2', .inr ⟨h4', fun g' => ?_⟩⟩, fun g => ?_⟩
            · rw [covers_iff.2 g'] at g; cases g
            · cases hcov : (listsCheck c.bans (masksOf s f)).2 with
              | false => rfl
              | true => exact absurd ((g.rank.resolve_left h3').2 (covers_iff.1 hcov)) h5'

theorem items_plain {n : Str} (h : ',' ∉ n) (hn : n ≠ []) : items n = [n] := by
  have : ∀ a : Str, ',' ∉ a → pieces a = [a] := by
    intro a
    induction a with
    | nil => intro _; rfl
    | cons c cs ih =>
      intro h
      simp only [List.mem_cons, not_or] at h
      simp only [pieces, if_neg (Ne.symm h.1), ih h.2]
  rw [items, this n h]
  cases n with
  | nil => exact absurd rfl hn
  | cons => rfl

theorem nickPart_plain {n : Str} (hn : PlainName n) : nickPart n = n := by
  have : strlcpy CLIENT_ID_LEN n = n :=
    List.take_of_length_le (by have := hn.2.2.2.2.2; simp only [CLIENT_ID_LEN] at *; omega)
  rw [← nickPart_eq, this]; exact cutAt_of_not_mem hn.1

theorem behind_roll {rnd : Int} {d : Client} : Behind (s.roll rnd) j d ↔ Behind s j d := by
  constructor
  · intro h
    induction h with
    | direct h => exact .direct h
    | via h1 h2 h3 _ ih => exact .via h1 h2 h3 ih
  · intro h
    induction h with
    | direct h => exact .direct h
    | via h1 h2 h3 _ ih => exact .via h1 h2 h3 ih

theorem msgClient_none {n : Str} (hn : PlainName n) (hno : NobodysName s n) : msgClient s n = none := by
  have hpl := nickPart_plain hn
  obtain ⟨h1, h2, h3, -, -, h5⟩ := hn
  have hc : hasChar n '!' = false := by
    rw [← Bool.not_eq_true, hasChar_iff]; exact h1
  have hs : clientSearch s n = none := by
    cases hq : clientSearch s n with
    | none => rfl
    | some d =>
      have := search_name hq
      rw [hpl] at this
      exact absurd this (hno d (clientSearch_mem hq)).1
  have hp : parseMsgTo n = ⟨none, n, none, none⟩ := by
    have e1 : strlcpy COMMAND_LEN n = n := List.take_of_length_le (by simp only [COMMAND_LEN, CLIENT_ID_LEN] at *; omega)
    have e2 : ∀ ch, ch ∉ n → afterChar n ch = none := fun ch h => by rw [afterChar, strchr_none.2 h]; rfl
    simp only [parseMsgTo, e1, e2 _ h2, cutAt_of_not_mem h2, e2 _ h3, cutAt_of_not_mem h3, e2 _ h1]
  simp only [msgClient, hc, hs, hp, Bool.false_eq_true, if_false]
  rw [List.find?_eq_none]
  intro d hd hh
  simp only [msgToHit, Bool.and_eq_true, Bool.or_eq_true, decide_eq_true_eq] at hh
  exact (hno d hd).2 hh.1 ((caseEq_same _ _).1 hh.2.1.1)

theorem msgClient_some (h : PoliteRun s) {n : Str} (hn : PlainName n) {x : Client} (hx : x ∈ s.clients)
    (hid : SameCase x.id n) : msgClient s n = some x := by
  have hpl := nickPart_plain hn
  obtain ⟨h1, -, -, -, h4, -⟩ := hn
  have hc : hasChar n '!' = false := by
    rw [← Bool.not_eq_true, hasChar_iff]; exact h1
  have hs : clientSearch s n = some x := by
    refine (C13_lookup h n x).2 ⟨hx, ?_, by rw [hpl]; exact hid⟩
    intro he
    rw [he] at hid
    cases n with
    | nil => exact h4 rfl
    | cons b bs => have := (caseEq_same _ _).2 hid; cases this
  simp only [msgClient, hc, hs, Bool.false_eq_true, if_false]

/-- The originator of a message. -/
theorem msgFrom_originator (h : PoliteRun s) (hr : Received s i l cl req) (hf : Originator s cl req f) :
    msgFrom s cl req = some f.ref ∧ s.cl f.ref = f ∧ (nextHop s f).conn = some i ∧ f.ref ≠ s.this := by
  have hb := h.reachable.base
  obtain ⟨hmem, hor⟩ := hf
  have hcl := cl_of_mem hb.cl.ord hmem
  have ha : Asker s i cl req := by
    obtain ⟨g1, g2, g3, -⟩ := hr.owner hb
    refine ⟨hb, g1, g2, g3, ?_⟩
    obtain ⟨k, req0, hk, hcl, hp, hv⟩ := hr
    exact (validatePrefix_pass hv).2.2
  rcases hor with ⟨hty, p, hp, hs⟩ | ⟨hno, href⟩
  · have hsearch : clientSearch s p = some f := by
      obtain ⟨k, req0, hk, hcl, hpp, hv⟩ := hr
      have : ∃ d, clientSearch s p = some d := by
        simp only [validatePrefix] at hv
        split at hv
        · rename_i h0
          split at hv
          · cases hv
          · injection hv with hv; rw [← hv, h0] at hp; cases hp
        · rename_i p' h0
          split at hv
          · injection hv with hv; rw [← hv] at hp; cases hp
          · split at hv
            · split at hv <;> cases hv
            · rename_i d hd
              split at hv
              · split at hv <;> cases hv
              · injection hv with hv
                rw [← hv, h0] at hp; injection hp with hp
                exact ⟨d, hp ▸ hd⟩
      obtain ⟨d, hd⟩ := this
      have hd' := (C13_lookup h p d).1 hd
      refine (C13_lookup h p f).2 ⟨hmem, ?_, hs⟩
      intro he
      have h1 := (caseEq_same _ _).2 hs
      have h2 := (caseEq_same _ _).2 hd'.2.2
      rw [he] at h1
      cases hn : nickPart p with
      | nil =>
        rw [hn] at h2
        cases hdd : d.id with
        | nil => exact hd'.2.1 hdd
        | cons a as => rw [hdd] at h2; cases h2
      | cons b bs => rw [hn] at h1; cases h1
    have hhop := ha.pre_hop hp hsearch
    refine ⟨?_, hcl, hhop, ?_⟩
    · simp only [msgFrom, hty, if_true, hp, hsearch, Option.map_some]
    · exact ((nextHop_conn hb hmem).1 hhop).ne_this hb hmem
  · have hff : f = s.cl cl := by rw [← href]; exact hcl.symm
    refine ⟨?_, hcl, by rw [hff]; exact ha.hop, by rw [href]; exact ha.ne_this⟩
    simp only [msgFrom]
    split
    · rename_i hty
      split
      · rename_i p hp
        exact absurd ⟨hty, by rw [hp]; rfl⟩ hno
      · rw [href]
    · rw [href]

theorem msg_single {n text : Str} {cmd : String} {svc se : Bool} (hargs : req.argv = [n, text]) (htext : text ≠ [])
    (hn : PlainName n) (hf : msgFrom s cl req = some f.ref) (hcl : s.cl f.ref = f) :
    (sendMessage cmd svc se s cl req).1 = (msgOne s cl f n cmd text svc se).1 := by
  have h0 : req.arg 0 = n := by simp [Request.arg, hargs]
  have h1 : req.arg 1 = text := by simp [Request.arg, hargs]
  have h2 : req.argc = 2 := by simp [Request.argc, hargs]
  have ht : text.isEmpty = false := by cases text with
    | nil => exact absurd rfl htext
    | cons => rfl
  simp only [sendMessage, h2, hf, h0, h1, ht, strtok_items, items_plain hn.2.2.2.1 hn.2.2.2.2.1]
  rw [if_neg (by decide), if_neg (by decide), if_neg (by decide), if_neg (by decide)]
  simp only [msgLoop, List.length_nil, List.any_nil, MAX_HNDL_TARGETS, hcl]
  rw [if_neg (by decide), if_neg (by decide)]
  split
  · rename_i h; rw [h]
  · rename_i h; rw [h]

theorem step_msg (h : PoliteRun s) (hr : Received s i l cl req) {cmd : String} (hcmd : cmd = "PRIVMSG" ∨ cmd = "NOTICE")
    (his : Is req cmd) (hty : (s.cl cl).type = .user ∨ (s.cl cl).type = .server) {n text : Str}
    (hargs : req.argv = [n, text]) (htext : text ≠ []) (hn : PlainName n) (hf : Originator s cl req f) (rnd : Int) :
    step s (.line i rnd l) = (msgOne (s.roll rnd) cl f n cmd text false (cmd == "PRIVMSG")).1 := by
  obtain ⟨h1, h2, -, -⟩ := msgFrom_originator h hr hf
  have h1' : msgFrom (s.roll rnd) cl req = some f.ref := h1
  rcases hcmd with rfl | rfl
  · have hst : step s (.line i rnd l) = (ircPRIVMSG (s.roll rnd) cl req).1 :=
      step_do hr rnd his rfl (by rcases hty with hty | hty <;> rw [hty] <;> rfl) (by
        simp only [Command.argcOk, Request.argc, hargs]; rfl)
    rw [hst]
    exact msg_single hargs htext hn h1' h2
  · have hst : step s (.line i rnd l) = (ircNOTICE (s.roll rnd) cl req).1 :=
      step_do hr rnd his rfl (by rcases hty with hty | hty <;> rw [hty] <;> rfl) (by
        simp only [Command.argcOk, Request.argc, hargs]; rfl)
    rw [hst]
    exact msg_single hargs htext hn h1' h2

theorem updChan_self (hi : ChInv s) (hc : c ∈ s.chans) : s.updChan c.ref (fun _ => c) = s := by
  rw [updChan_const hi hc (fun d => d)]
  simp only [Srv.updChan]
  have : s.chans.map (fun d => if d.ref = c.ref then d else d) = s.chans := by
    conv => rhs; rw [← List.map_id s.chans]
    refine List.map_congr_left (fun d _ => ?_)
    split <;> rfl
  rw [this]

theorem emitted_write {rnd : Int} {d : Client} (hh : (nextHop (s.roll rnd) d).conn = some i) (p : Client) (m : Msg) :
    Emitted s (writePrefix (s.roll rnd) d p m)
      [⟨i, some (if (nextHop (s.roll rnd) d).type = .server then p.ID else maskCloaked (s.roll rnd) p), m⟩] := by
  refine ⟨rnd, ?_⟩
  have : lineTo (s.roll rnd) d p m =
      some ⟨i, some (if (nextHop (s.roll rnd) d).type = .server then p.ID else maskCloaked (s.roll rnd) p), m⟩ := by
    simp only [lineTo, hh, Option.map_some, getPrefix]
  simp only [writePrefix, this]
  simp [Srv.roll]

theorem emitted_then {o : List Sent} {d : Client} (hu : Emitted s u o) (hh : (nextHop s d).conn = some j) (p : Client)
    (m : Msg) : Emitted s (writePrefix u d p m)
      (⟨j, some (if (nextHop s d).type = .server then p.ID else maskCloaked s p), m⟩ :: o) := by
  obtain ⟨r, rfl⟩ := hu
  refine ⟨r, ?_⟩
  have hn : nextHop { s with out := o ++ s.out, rnd := r } d = nextHop s d :=
    nextHop_core (s := s) (t := { s with out := o ++ s.out, rnd := r }) rfl d
  have : lineTo { s with out := o ++ s.out, rnd := r } d p m =
      some ⟨j, some (if (nextHop s d).type = .server then p.ID else maskCloaked s p), m⟩ := by
    simp only [lineTo, hn, hh, Option.map_some, getPrefix]; rfl
  simp only [writePrefix, this]
  simp

/-- What a PRIVMSG or NOTICE to a channel does. -/
theorem msg_channel (h : PoliteRun s) (hr : Received s i l cl req) {cmd : String} (hcmd : cmd = "PRIVMSG" ∨ cmd = "NOTICE")
    (his : Is req cmd) (hty : (s.cl cl).type = .user ∨ (s.cl cl).type = .server) {n text : Str}
    (hargs : req.argv = [n, text]) (htext : text ≠ []) (hn : PlainName n) (hno : NobodysName s n)
    (hc : c ∈ s.chans) (hname : SameCase c.name n) (hf : Originator s cl req f) (rnd : Int) :
    step s (.line i rnd l) = channelWrite (s.roll rnd) c f ((s.roll rnd).cl cl) cmd (cmd == "PRIVMSG") text := by
  rw [step_msg h hr hcmd his hty hargs htext hn hf rnd]
  have h1 : msgClient (s.roll rnd) n = none := msgClient_none (s := s.roll rnd) hn hno
  have h2 : channelSearch (s.roll rnd) n = some c := (C13_channel_lookup h n c).2 ⟨hc, hname⟩
  simp only [msgOne, h1, h2, Bool.false_eq_true, if_false]

/-- **C21** A message to a channel, from a local user or over a server link, is sent exactly once
over every connection behind which there are members, but not over the one it came from, and
to nobody else; it arrives unchanged and shows who sent it. -/
theorem C21_channel (h : PoliteRun s) (hr : Received s i l cl req) {cmd : String} (hcmd : cmd = "PRIVMSG" ∨ cmd = "NOTICE")
    (his : Is req cmd) (hty : (s.cl cl).type = .user ∨ (s.cl cl).type = .server) {n text : Str}
    (hargs : req.argv = [n, text]) (htext : text ≠ []) (hn : PlainName n) (hno : NobodysName s n)
    (hc : c ∈ s.chans) (hname : SameCase c.name n) (hf : Originator s cl req f) (hmay : MaySpeak s f c) (rnd : Int) :
    ∃ o, Emitted s (step s (.line i rnd l)) o ∧
      (∀ j, j ≠ i → (∃ x ∈ s.clients, OnChannel s c.ref x.ref ∧ Behind s j x) →
        onConn o j = [⟨j, some (shownAs s f j), ⟨cmd, [c.name, text]⟩⟩]) ∧
      (∀ y ∈ o, y.conn ≠ i ∧ ∃ x ∈ s.clients, OnChannel s c.ref x.ref ∧ Behind s y.conn x) := by
  rw [msg_channel h hr hcmd his hty hargs htext hn hno hc hname hf rnd]
  have hb := h.reachable.base
  have hb' : Base (s.roll rnd) := Base.of_core (s := s) rfl hb
  have hft := (msgFrom_originator h hr hf).2.2.2
  have ho : Once c := h.reachable.once c hc
  obtain ⟨g1, g2⟩ := canSend_spec hb' (s := s.roll rnd) ho hft
  have hk : KindInv (s.roll rnd) := (polite_kind h).of_eq rfl (fun m hm => ⟨m, hm, rfl⟩)
  have hup : (s.roll rnd).updChan c.ref (fun _ => c) = s.roll rnd := updChan_self hb'.ch hc
  obtain ⟨hmem, href, hconn, -⟩ := hr.owner hb
  simp only [channelWrite, g1, hup, g2.2 ⟨hmay.outside, hmay.registered, hmay.rank⟩]
  rw [if_neg (by decide)]
  have hrr : ((s.roll rnd).cl cl).ref = cl := href
  rw [hrr]
  obtain ⟨o, ho, k1, k2⟩ := writeChannel_spec hb' hk (client := cl) (i := i) hconn c.ref f ⟨cmd, [c.name, text]⟩
  rw [ho]
  refine ⟨o, ⟨rnd, rfl⟩, ?_, ?_⟩
  · rintro j hj ⟨x, hx, hon, hbe⟩
    exact k1 j hj x hx hon (behind_roll.2 hbe)
  · intro y hy
    obtain ⟨e1, x, hx, hon, hbe⟩ := k2 y hy
    exact ⟨e1, x, hx, hon, behind_roll.1 hbe⟩

/-- Alice writes to #c: bob and the link get the line, alice does not. -/
example : ∃ req, PoliteRun Sample.s5 ∧ Received Sample.s5 5 "PRIVMSG #C :hello".toList 3 req ∧ Is req "PRIVMSG" ∧
    (Sample.s5.cl 3).type = .user ∧ req.argv = ["#C".toList, "hello".toList] ∧ PlainName "#C".toList ∧
    NobodysName Sample.s5 "#C".toList ∧ Sample.s5.chan 5 ∈ Sample.s5.chans ∧
    SameCase (Sample.s5.chan 5).name "#C".toList ∧ Originator Sample.s5 3 req (Sample.s5.cl 3) ∧
    MaySpeak Sample.s5 (Sample.s5.cl 3) (Sample.s5.chan 5) ∧
    (step Sample.s5 (.line 5 0 "PRIVMSG #C :hello".toList)).out.take 2 =
      [⟨6, some "alice!~alice@1.2.3.4".toList, ⟨"PRIVMSG", ["#c".toList, "hello".toList]⟩⟩,
       ⟨7, some "alice".toList, ⟨"PRIVMSG", ["#c".toList, "hello".toList]⟩⟩] :=
  ⟨⟨none, "PRIVMSG".toList, ["#C".toList, "hello".toList]⟩,
    Sample.fine_s5.mono (fun _ h => h.1) (fun _ _ h => h.1), recv_sound (by decide +kernel),
    by simp only [Is]; decide, by decide +kernel, by decide, by simp only [PlainName]; decide,
    by simp only [NobodysName]; decide +kernel, by decide +kernel,
    (caseEq_same _ _).1 (by decide +kernel), ⟨by decide +kernel, .inr ⟨by decide +kernel, by decide +kernel⟩⟩,
    ⟨fun _ => (by simp only [OnChannel]; decide +kernel), (by decide +kernel),
      .inl ⟨'o', by decide, by simp only [HasRank]; decide +kernel⟩⟩, by decide +kernel⟩

/-- **C20** A message to a channel from somebody who may not speak there reaches nobody: a PRIVMSG is
answered with one error line, a NOTICE not even that, and nothing changes. -/
theorem C20_refused (h : PoliteRun s) (hr : Received s i l cl req) {cmd : String} (hcmd : cmd = "PRIVMSG" ∨ cmd = "NOTICE")
    (his : Is req cmd) (hty : (s.cl cl).type = .user ∨ (s.cl cl).type = .server) {n text : Str}
    (hargs : req.argv = [n, text]) (htext : text ≠ []) (hn : PlainName n) (hno : NobodysName s n)
    (hc : c ∈ s.chans) (hname : SameCase c.name n) (hf : Originator s cl req f) (hmay : ¬ MaySpeak s f c) (rnd : Int) :
    (cmd = "PRIVMSG" → ∃ e ∈ ["ERR_NEEDREGGEDNICK_MSG", "ERR_CANNOTSENDTOCHAN_MSG"], ∃ p,
      Emitted s (step s (.line i rnd l)) [⟨i, some p, ⟨e, [f.ID, c.name]⟩⟩]) ∧
    (cmd = "NOTICE" → Emitted s (step s (.line i rnd l)) []) := by
  rw [msg_channel h hr hcmd his hty hargs htext hn hno hc hname hf rnd]
  have hb := h.reachable.base
  have hb' : Base (s.roll rnd) := Base.of_core (s := s) rfl hb
  obtain ⟨-, -, hhop, hft⟩ := msgFrom_originator h hr hf
  have ho : Once c := h.reachable.once c hc
  obtain ⟨g1, g2⟩ := canSend_spec hb' (s := s.roll rnd) ho hft
  have hup : (s.roll rnd).updChan c.ref (fun _ => c) = s.roll rnd := updChan_self hb'.ch hc
  have g3 : (canSendToChannel (s.roll rnd) c f).2 = false := by
    rw [← Bool.not_eq_true, g2]
    exact fun g => hmay ⟨g.outside, g.registered, g.rank⟩
  have hhop' : (nextHop (s.roll rnd) f).conn = some i := by
    rw [nextHop_core (s := s) (t := s.roll rnd) rfl]; exact hhop
  simp only [channelWrite, g1, hup, g3]
  rw [if_pos (by decide)]
  rcases hcmd with rfl | rfl
  · rw [if_neg (by decide)]
    refine ⟨fun _ => ?_, (by intro g; exact absurd g (by decide))⟩
    split
    · exact ⟨_, .head _, _, emitted_write hhop' _ _⟩
    · exact ⟨_, .tail _ (.head _), _, emitted_write hhop' _ _⟩
  · rw [if_pos (by decide)]
    exact ⟨(by intro g; exact absurd g (by decide)), fun _ => ⟨rnd, rfl⟩⟩


/-- Bob, without voice, on a moderated channel. -/
example : ∃ req, PoliteRun (Sample.lines Sample.s5 5 ["MODE #c +m"]) ∧
    Received (Sample.lines Sample.s5 5 ["MODE #c +m"]) 6 "PRIVMSG #c :hello".toList 4 req ∧ Is req "PRIVMSG" ∧
    req.argv = ["#c".toList, "hello".toList] ∧ PlainName "#c".toList ∧
    NobodysName (Sample.lines Sample.s5 5 ["MODE #c +m"]) "#c".toList ∧
    Originator (Sample.lines Sample.s5 5 ["MODE #c +m"]) 4 req ((Sample.lines Sample.s5 5 ["MODE #c +m"]).cl 4) ∧
    ¬ MaySpeak (Sample.lines Sample.s5 5 ["MODE #c +m"]) ((Sample.lines Sample.s5 5 ["MODE #c +m"]).cl 4)
      ((Sample.lines Sample.s5 5 ["MODE #c +m"]).chan 5) :=
  ⟨⟨none, "PRIVMSG".toList, ["#c".toList, "hello".toList]⟩,
    (Sample.fine_lines Sample.fine_s5 _ _ (by decide +kernel)).mono (fun _ h => h.1) (fun _ _ h => h.1),
    recv_sound (by decide +kernel), by simp only [Is]; decide, by decide, by simp only [PlainName]; decide,
    by simp only [NobodysName]; decide +kernel, ⟨by decide +kernel, .inr ⟨by decide +kernel, by decide +kernel⟩⟩,
    fun h => by
      rcases h.rank with ⟨m, hm, hr⟩ | ⟨hm, -⟩
      · revert m; simp only [HasRank]; decide +kernel
      · exact hm (by decide +kernel)⟩

theorem shareChannel_iff {a b : Nat} : shareChannel s a b = true ↔ ∃ ch, OnChannel s ch a ∧ OnChannel s ch b := by
  simp only [shareChannel, List.any_eq_true, isMemberOf_iff]
  constructor
  · rintro ⟨ch, h1, h2⟩
    refine ⟨ch, ?_, h2⟩
    simp only [channelsOf, List.mem_map, List.mem_filter, beq_iff_eq] at h1
    obtain ⟨k, ⟨hk, k1⟩, rfl⟩ := h1
    exact ⟨k, hk, rfl, k1⟩
  · rintro ⟨ch, ⟨k, hk, k1, k2⟩, h2⟩
    refine ⟨ch, ?_, h2⟩
    simp only [channelsOf, List.mem_map, List.mem_filter, beq_iff_eq]
    exact ⟨k, ⟨hk, k2⟩, k1⟩

theorem msgRefusal_iff {d : Client} : msgRefusal s f d false = none ↔ MayMessage s f d := by
  have hb : ∀ m (e : Client), e.hasMode m = true ↔ m ∈ e.modes := fun m e => hasMode_iff
  simp only [msgRefusal]
  split
  · rename_i h
    refine ⟨(by intro g; cases g), fun g => ?_⟩
    rcases g.kind with g | g <;> rw [g] at h <;> exact absurd h (by decide)
  · rename_i h0
    have hk : d.type = .user ∨ d.type = .service := by
      revert h0; cases d.type <;> decide
    split
    · rename_i h
      simp only [Bool.and_eq_true, Bool.not_eq_true', decide_eq_true_eq, hb] at h
      refine ⟨(by intro g; cases g), fun g => ?_⟩
      obtain ⟨⟨⟨⟨a1, a2⟩, a3⟩, a4⟩, a5⟩ := h
      rcases g.blocks a1 with g | g | g | g
      · rw [(hb _ _).2 g] at a2; cases a2
      · rw [(hb _ _).2 g] at a3; cases a3
      · exact absurd g a4
      · exact absurd g a5
    · rename_i h1
      have hb1 : 'b' ∈ d.modes → 'R' ∈ f.modes ∨ 'o' ∈ f.modes ∨ f.type = .server ∨ f.type = .service := by
        intro a1
        rw [← hb] at a1
        simp only [← hb]
        rw [a1] at h1
        revert h1
        cases f.hasMode 'R' <;> cases f.hasMode 'o' <;> cases f.type <;> decide
      split
      · rename_i h
        simp only [Bool.and_eq_true, Bool.not_eq_true', decide_eq_true_eq, hb] at h
        refine ⟨(by intro g; cases g), fun g => ?_⟩
        obtain ⟨⟨⟨⟨a1, a2⟩, a3⟩, a4⟩, a5⟩ := h
        rcases g.common a1 with g | g | g | g
        · rw [(hb _ _).2 g] at a2; cases a2
        · exact absurd g a3
        · exact absurd g a4
        · rw [shareChannel_iff.2 g] at a5; cases a5
      · rename_i h2
        refine ⟨fun _ => ⟨hk, hb1, fun a1 => ?_⟩, fun _ => rfl⟩
        rw [← hb] at a1
        rw [← hb, ← shareChannel_iff]
        rw [a1] at h2
        revert h2
        cases f.hasMode 'o' <;> cases shareChannel s d.ref f.ref <;> cases f.type <;> decide

/-- **C51** A message to a nick, from a local user or over a server link, is sent exactly once, towards
the client bearing that nick and to nobody else, unchanged and showing who sent it.  Besides it, a local
sender of a PRIVMSG is told that the addressee is away. -/
theorem C51_direct (h : PoliteRun s) (hr : Received s i l cl req) {cmd : String} (hcmd : cmd = "PRIVMSG" ∨ cmd = "NOTICE")
    (his : Is req cmd) (hty : (s.cl cl).type = .user ∨ (s.cl cl).type = .server) {n text : Str}
    (hargs : req.argv = [n, text]) (htext : text ≠ []) (hn : PlainName n) {d : Client} (hd : d ∈ s.clients)
    (hid : SameCase d.id n) (hf : Originator s cl req f) (hmay : MayMessage s f d) (rnd : Int) :
    ∃ j p, Behind s j d ∧ Emitted s (step s (.line i rnd l)) (⟨j, some (shownAs s f j), ⟨cmd, [d.ID, text]⟩⟩ ::
      if cmd = "PRIVMSG" ∧ (s.cl cl).type ≠ .server ∧ 'a' ∈ d.modes then
        [⟨i, some p, ⟨"RPL_AWAY_MSG", [f.ID, d.ID, d.away.getD []]⟩⟩] else []) := by
  rw [step_msg h hr hcmd his hty hargs htext hn hf rnd]
  have hb := h.reachable.base
  obtain ⟨-, -, hhop, -⟩ := msgFrom_originator h hr hf
  have h1 : msgClient (s.roll rnd) n = some d := msgClient_some (s := s) h hn hd hid
  have h2 : msgRefusal (s.roll rnd) f d false = none :=
    msgRefusal_iff.2 ⟨hmay.kind, hmay.blocks, hmay.common⟩
  have hdt : d.ref ≠ s.this := by
    intro he
    obtain ⟨c, hc, e1, e2, -⟩ := hb.cl.self
    rw [hb.cl.ord.eq_of_ref hd hc (he.trans e1.symm)] at hmay
    rcases hmay.kind with g | g <;> rw [e2] at g <;> cases g
  obtain ⟨j, -, -, hbe, -⟩ := behind_some hb (polite_kind h) d.ref d hd (Nat.le_refl _) hdt
  have hj := (nextHop_conn hb hd).2 hbe
  have hmem := nextHop_mem hd (by rw [hj]; rfl)
  have h3 : (msgOne (s.roll rnd) cl f n cmd text false (cmd == "PRIVMSG")).1 =
      writePrefix (if ((cmd == "PRIVMSG") && decide (((s.roll rnd).cl cl).type ≠ .server) && d.hasMode 'a') = true then
        write (s.roll rnd) f ⟨"RPL_AWAY_MSG", [f.ID, d.ID, d.away.getD []]⟩ else s.roll rnd) d f ⟨cmd, [d.ID, text]⟩ := by
    simp only [msgOne, h1, msgToClient, h2, Bool.and_false, Bool.false_and, Bool.false_eq_true, if_false]
  rw [h3]
  have hcond : ((cmd == "PRIVMSG") && decide (((s.roll rnd).cl cl).type ≠ .server) && d.hasMode 'a') = true ↔
      (cmd = "PRIVMSG" ∧ (s.cl cl).type ≠ .server ∧ 'a' ∈ d.modes) := by
    rw [Bool.and_eq_true, Bool.and_eq_true, beq_iff_eq, decide_eq_true_eq, hasMode_iff, and_assoc]; rfl
  have hsh' : (if (nextHop s d).type = .server then f.ID else maskCloaked s f) = shownAs s f j := by
    simp only [shownAs, isLink_iff hb hmem hj, decide_eq_true_eq]
  have h0 : Emitted s (s.roll rnd) [] := ⟨rnd, rfl⟩
  refine ⟨j, (if (nextHop s f).type = .server then ((s.roll rnd).cl (s.roll rnd).this).ID
    else maskCloaked s ((s.roll rnd).cl (s.roll rnd).this)), hbe, ?_⟩
  rw [← hsh']
  by_cases hq : cmd = "PRIVMSG" ∧ (s.cl cl).type ≠ .server ∧ 'a' ∈ d.modes
  · rw [if_pos (hcond.2 hq), if_pos hq]
    exact emitted_then (emitted_then h0 hhop _ _) hj f _
  · rw [if_neg (fun g => hq (hcond.1 g)), if_neg hq]
    exact emitted_then h0 hj f _

/-- Bob is away; alice writes to him. -/
example : ∃ req, PoliteRun (Sample.lines Sample.s5 6 ["AWAY :gone"]) ∧
    Received (Sample.lines Sample.s5 6 ["AWAY :gone"]) 5 "PRIVMSG BOB :hello".toList 3 req ∧ Is req "PRIVMSG" ∧
    req.argv = ["BOB".toList, "hello".toList] ∧ PlainName "BOB".toList ∧
    (Sample.lines Sample.s5 6 ["AWAY :gone"]).cl 4 ∈ (Sample.lines Sample.s5 6 ["AWAY :gone"]).clients ∧
    SameCase ((Sample.lines Sample.s5 6 ["AWAY :gone"]).cl 4).id "BOB".toList ∧
    Originator (Sample.lines Sample.s5 6 ["AWAY :gone"]) 3 req ((Sample.lines Sample.s5 6 ["AWAY :gone"]).cl 3) ∧
    MayMessage (Sample.lines Sample.s5 6 ["AWAY :gone"]) ((Sample.lines Sample.s5 6 ["AWAY :gone"]).cl 3)
      ((Sample.lines Sample.s5 6 ["AWAY :gone"]).cl 4) ∧
    'a' ∈ ((Sample.lines Sample.s5 6 ["AWAY :gone"]).cl 4).modes :=
  ⟨⟨none, "PRIVMSG".toList, ["BOB".toList, "hello".toList]⟩,
    (Sample.fine_lines Sample.fine_s5 _ _ (by decide +kernel)).mono (fun _ h => h.1) (fun _ _ h => h.1),
    recv_sound (by decide +kernel), by simp only [Is]; decide, by decide, by simp only [PlainName]; decide,
    by decide +kernel, (caseEq_same _ _).1 (by decide +kernel),
    ⟨by decide +kernel, .inr ⟨by decide +kernel, by decide +kernel⟩⟩,
    ⟨by decide +kernel, by decide +kernel, fun h => absurd h (by decide +kernel)⟩, by decide +kernel⟩

/-- **C51** If the addressee does not accept the message, nobody gets it; a PRIVMSG is answered with one
error line. -/
theorem C51_refused (h : PoliteRun s) (hr : Received s i l cl req) {cmd : String} (hcmd : cmd = "PRIVMSG" ∨ cmd = "NOTICE")
    (his : Is req cmd) (hty : (s.cl cl).type = .user ∨ (s.cl cl).type = .server) {n text : Str}
    (hargs : req.argv = [n, text]) (htext : text ≠ []) (hn : PlainName n) {d : Client} (hd : d ∈ s.clients)
    (hid : SameCase d.id n) (hf : Originator s cl req f) (hmay : ¬ MayMessage s f d) (rnd : Int) :
    (cmd = "PRIVMSG" → ∃ e ∈ ["ERR_NOSUCHNICK_MSG", "ERR_NONONREG_MSG", "ERR_NOTONSAMECHANNEL_MSG"], ∃ p a,
      Emitted s (step s (.line i rnd l)) [⟨i, some p, ⟨e, [f.ID, a]⟩⟩]) ∧
    (cmd = "NOTICE" → Emitted s (step s (.line i rnd l)) []) := by
  rw [step_msg h hr hcmd his hty hargs htext hn hf rnd]
  obtain ⟨-, -, hhop, -⟩ := msgFrom_originator h hr hf
  have h1 : msgClient (s.roll rnd) n = some d := msgClient_some (s := s) h hn hd hid
  have hhop' : (nextHop (s.roll rnd) f).conn = some i := by
    rw [nextHop_core (s := s) (t := s.roll rnd) rfl]; exact hhop
  have hm : ∃ e ∈ ["ERR_NOSUCHNICK_MSG", "ERR_NONONREG_MSG", "ERR_NOTONSAMECHANNEL_MSG"],
      msgRefusal (s.roll rnd) f d false = some e := by
    cases hq : msgRefusal (s.roll rnd) f d false with
    | none =>
      have := msgRefusal_iff.1 hq
      exact absurd ⟨this.kind, this.blocks, this.common⟩ hmay
    | some e =>
      refine ⟨e, ?_, rfl⟩
      simp only [msgRefusal] at hq
      split at hq
      · injection hq with hq; subst hq; exact .head _
      · split at hq
        · injection hq with hq; subst hq; exact .tail _ (.head _)
        · split at hq
          · injection hq with hq; subst hq; exact .tail _ (.tail _ (.head _))
          · cases hq
  obtain ⟨e, he, hq⟩ := hm
  simp only [msgOne, h1, msgToClient, hq]
  rcases hcmd with rfl | rfl
  · refine ⟨fun _ => ⟨e, he, _, _, emitted_write hhop' _ _⟩, (by intro g; exact absurd g (by decide))⟩
  · refine ⟨(by intro g; exact absurd g (by decide)), fun _ => ⟨rnd, rfl⟩⟩

/-- Bob has left the channel and set +C; alice writes to him. -/
example : ∃ req, PoliteRun (Sample.lines Sample.s5 6 ["PART #c", "MODE bob +C"]) ∧
    Received (Sample.lines Sample.s5 6 ["PART #c", "MODE bob +C"]) 5 "PRIVMSG bob :hello".toList 3 req ∧
    Is req "PRIVMSG" ∧ req.argv = ["bob".toList, "hello".toList] ∧
    (Sample.lines Sample.s5 6 ["PART #c", "MODE bob +C"]).cl 4 ∈
      (Sample.lines Sample.s5 6 ["PART #c", "MODE bob +C"]).clients ∧
    SameCase ((Sample.lines Sample.s5 6 ["PART #c", "MODE bob +C"]).cl 4).id "bob".toList ∧
    Originator (Sample.lines Sample.s5 6 ["PART #c", "MODE bob +C"]) 3 req
      ((Sample.lines Sample.s5 6 ["PART #c", "MODE bob +C"]).cl 3) ∧
    ¬ MayMessage (Sample.lines Sample.s5 6 ["PART #c", "MODE bob +C"])
      ((Sample.lines Sample.s5 6 ["PART #c", "MODE bob +C"]).cl 3)
      ((Sample.lines Sample.s5 6 ["PART #c", "MODE bob +C"]).cl 4) :=
  ⟨⟨none, "PRIVMSG".toList, ["bob".toList, "hello".toList]⟩,
    (Sample.fine_lines Sample.fine_s5 _ _ (by decide +kernel)).mono (fun _ h => h.1) (fun _ _ h => h.1),
    recv_sound (by decide +kernel), by simp only [Is]; decide, by decide,
    by decide +kernel, (caseEq_same _ _).1 (by decide +kernel),
    ⟨by decide +kernel, .inr ⟨by decide +kernel, by decide +kernel⟩⟩,
    fun h => by
      rcases h.common (by decide +kernel) with h | h | h | ⟨ch, ⟨k, hk, -, h⟩, -⟩
      · exact absurd h (by decide +kernel)
      · exact absurd h (by decide +kernel)
      · exact absurd h (by decide +kernel)
      · revert k; decide +kernel⟩

/-- **C51** A message to a name that nobody bears and that is no channel either reaches nobody; a PRIVMSG is
answered with one error line. -/
theorem C51_nobody (h : PoliteRun s) (hr : Received s i l cl req) {cmd : String} (hcmd : cmd = "PRIVMSG" ∨ cmd = "NOTICE")
    (his : Is req cmd) (hty : (s.cl cl).type = .user ∨ (s.cl cl).type = .server) {n text : Str}
    (hargs : req.argv = [n, text]) (htext : text ≠ []) (hn : PlainName n) (hno : NobodysName s n)
    (hch : ∀ c ∈ s.chans, ¬ SameCase c.name n) (hmask : '.' ∉ n)
    (hf : Originator s cl req f) (rnd : Int) :
    (cmd = "PRIVMSG" → ∃ p, Emitted s (step s (.line i rnd l)) [⟨i, some p, ⟨"ERR_NOSUCHNICK_MSG", [f.ID, n]⟩⟩]) ∧
    (cmd = "NOTICE" → Emitted s (step s (.line i rnd l)) []) := by
  rw [step_msg h hr hcmd his hty hargs htext hn hf rnd]
  obtain ⟨-, -, hhop, -⟩ := msgFrom_originator h hr hf
  have h1 : msgClient (s.roll rnd) n = none := msgClient_none (s := s.roll rnd) hn hno
  have h2 : channelSearch (s.roll rnd) n = none := by
    cases hq : channelSearch (s.roll rnd) n with
    | none => rfl
    | some c => have := (C13_channel_lookup h n c).1 hq; exact absurd this.2 (hch c this.1)
  have h3 : hasChar n '.' = false := by rw [← Bool.not_eq_true, hasChar_iff]; exact hmask
  have hhop' : (nextHop (s.roll rnd) f).conn = some i := by
    rw [nextHop_core (s := s) (t := s.roll rnd) rfl]; exact hhop
  simp only [msgOne, h1, h2, h3, Bool.false_eq_true, if_false, Bool.and_false]
  rcases hcmd with rfl | rfl
  · exact ⟨fun _ => ⟨_, emitted_write hhop' _ _⟩, (by intro g; exact absurd g (by decide))⟩
  · exact ⟨(by intro g; exact absurd g (by decide)), fun _ => ⟨rnd, rfl⟩⟩

/-- Nobody bears the name. -/
example : ∃ req, PoliteRun Sample.s5 ∧ Received Sample.s5 5 "NOTICE nobody :hello".toList 3 req ∧ Is req "NOTICE" ∧
    req.argv = ["nobody".toList, "hello".toList] ∧ PlainName "nobody".toList ∧
    NobodysName Sample.s5 "nobody".toList ∧ (∀ c ∈ Sample.s5.chans, ¬ SameCase c.name "nobody".toList) ∧
    Originator Sample.s5 3 req (Sample.s5.cl 3) :=
  ⟨⟨none, "NOTICE".toList, ["nobody".toList, "hello".toList]⟩,
    Sample.fine_s5.mono (fun _ h => h.1) (fun _ _ h => h.1), recv_sound (by decide +kernel),
    by simp only [Is]; decide, by decide, by simp only [PlainName]; decide,
    by simp only [NobodysName]; decide +kernel, by decide +kernel,
    ⟨by decide +kernel, .inr ⟨by decide +kernel, by decide +kernel⟩⟩⟩

end Ngircd
