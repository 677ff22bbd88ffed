import Verif.Props.Messages

/-!
# C44: lists of message targets
-/

set_option linter.unusedSimpArgs false

namespace Ngircd
open Spec

variable {s t u : Srv} {i j cl : Nat} {l : Str} {req : Request} {f : Client} {c : Chan} {cmd : String}

theorem Spec.SameCase.refl (a : Str) : SameCase a a := (sameCase_iff _ _).2 rfl

theorem Spec.SameCase.symm {a b : Str} (h : SameCase a b) : SameCase b a :=
  (sameCase_iff _ _).2 ((sameCase_iff _ _).1 h).symm

theorem Spec.SameCase.trans {a b d : Str} (h : SameCase a b) (g : SameCase b d) : SameCase a d :=
  (sameCase_iff _ _).2 (((sameCase_iff _ _).1 h).trans ((sameCase_iff _ _).1 g))

theorem messagesOn_append (a b : List Sent) : messagesOn (a ++ b) cmd j = messagesOn a cmd j ++ messagesOn b cmd j := by
  simp [messagesOn]

theorem messagesOn_nil {o : List Sent} (h : ∀ y ∈ o, y.msg.cmd ≠ cmd) : messagesOn o cmd j = [] := by
  rw [messagesOn, List.filter_eq_nil_iff]
  intro y hy g
  simp only [Bool.and_eq_true, beq_iff_eq] at g
  exact h y hy g.2

theorem messagesOn_one (y : Sent) : (messagesOn [y] cmd j).length ≤ 1 := by
  simp only [messagesOn, List.filter_cons, List.filter_nil]
  split <;> simp

/-- Every user has a next hop with a connection. -/
theorem user_hop (h : PoliteRun s) {d : Client} (hd : d ∈ s.clients) (hk : d.type = .user ∨ d.type = .service) :
    ∃ j, (nextHop s d).conn = some j := by
  have hb := h.reachable.base
  have hdt : d.ref ≠ s.this := by
    intro he
    obtain ⟨c, hc, e1, e2, -⟩ := hb.cl.self
    rw [hb.cl.ord.eq_of_ref hd hc (he.trans e1.symm)] at hk
    rcases hk with g | g <;> rw [e2] at g <;> cases g
  obtain ⟨j, -, -, hbe, -⟩ := behind_some hb (polite_kind h) d.ref d hd (Nat.le_refl _) hdt
  exact ⟨j, (nextHop_conn hb hd).2 hbe⟩

theorem masks_out (h : PoliteRun s) (m : Client → Msg) : ∀ ds : List Client, (∀ d ∈ ds, d ∈ s.clients ∧ d.type = .user) →
    ∃ o', ∀ u o, Emitted s u o → Emitted s (ds.foldl (fun s c => writePrefix s c f (m c)) u) (o' ++ o)
  | [], _ => ⟨[], fun _ _ hu => hu⟩
  | d :: ds, hds => by
    obtain ⟨j, hj⟩ := user_hop h (hds d (.head _)).1 (.inl (hds d (.head _)).2)
    obtain ⟨o', ho'⟩ := masks_out h m ds (fun d hd => hds d (.tail _ hd))
    refine ⟨o' ++ [⟨j, some (if (nextHop s d).type = .server then f.ID else maskCloaked s f), m d⟩], fun u o hu => ?_⟩
    have := ho' _ _ (emitted_then hu hj f (m d))
    simpa using this

/-- What the message to one target does. -/
theorem msgOne_out (h : PoliteRun s) (hcl : (s.cl cl).conn = some i) (hhop : (nextHop s f).conn = some i)
    (hcmd : cmd = "PRIVMSG" ∨ cmd = "NOTICE") (text n : Str) (se : Bool) :
    ∃ o' cont, (∀ u o, Emitted s u o → Emitted s (msgOne u cl f n cmd text false se).1 (o' ++ o) ∧
        (msgOne u cl f n cmd text false se).2 = (cmd, cont)) ∧ (se = true → cont = true) ∧
      ('o' ∉ f.modes → ∀ j, (messagesOn o' cmd j).length ≤ 1) := by
  have hb := h.reachable.base
  have hne : ∀ e ∈ ["ERR_NOSUCHNICK_MSG", "ERR_NONONREG_MSG", "ERR_NOTONSAMECHANNEL_MSG", "RPL_AWAY_MSG",
      "ERR_NEEDREGGEDNICK_MSG", "ERR_CANNOTSENDTOCHAN_MSG", "ERR_NOPRIVILEGES_MSG", "ERR_WILDTOPLEVEL_MSG"], e ≠ cmd := by
    rcases hcmd with rfl | rfl <;> decide
  have one : ∀ (e : String) (a : List Str), e ∈ ["ERR_NOSUCHNICK_MSG", "ERR_NONONREG_MSG", "ERR_NOTONSAMECHANNEL_MSG",
      "RPL_AWAY_MSG", "ERR_NEEDREGGEDNICK_MSG", "ERR_CANNOTSENDTOCHAN_MSG", "ERR_NOPRIVILEGES_MSG",
      "ERR_WILDTOPLEVEL_MSG"] → ∃ o', (∀ u o, Emitted s u o → Emitted s (writeErr u f ⟨e, a⟩) (o' ++ o)) ∧
        ∀ j, (messagesOn o' cmd j).length ≤ 1 := by
    intro e a he
    refine ⟨[⟨i, some (if (nextHop s f).type = .server then (s.cl s.this).ID else maskCloaked s (s.cl s.this)), ⟨e, a⟩⟩],
      fun u o hu => ?_, fun _ => messagesOn_one _⟩
    have := emitted_then hu hhop (s.cl s.this) ⟨e, a⟩
    obtain ⟨r, rfl⟩ := hu
    exact this
  have hcore : ∀ {u o}, Emitted s u o → u.core = s.core := by rintro u o ⟨r, rfl⟩; rfl
  cases hq : msgClient s n with
  | some d =>
    have hdm : d ∈ s.clients := by
      simp only [msgClient] at hq
      split at hq
      · rename_i d' hd'
        injection hq with hq
        split at hd'
        · cases hd'
        · rw [← hq]; exact clientSearch_mem hd'
      · exact List.mem_of_find?_eq_some hq
    have hone : ∀ u o, Emitted s u o → msgOne u cl f n cmd text false se =
        ((msgToClient u cl f d n cmd text false se).1, cmd, true) := by
      rintro u o ⟨r, rfl⟩
      have : msgClient { s with out := o ++ s.out, rnd := r } n = some d := hq
      simp only [msgOne, this, msgToClient, Bool.and_false, Bool.false_and, Bool.false_eq_true, if_false]
      split <;> rfl
    cases hm : msgRefusal s f d false with
    | some e =>
      have he : e ∈ ["ERR_NOSUCHNICK_MSG", "ERR_NONONREG_MSG", "ERR_NOTONSAMECHANNEL_MSG", "RPL_AWAY_MSG",
          "ERR_NEEDREGGEDNICK_MSG", "ERR_CANNOTSENDTOCHAN_MSG", "ERR_NOPRIVILEGES_MSG", "ERR_WILDTOPLEVEL_MSG"] := by
        simp only [msgRefusal] at hm
        split at hm
        · injection hm with hm; subst hm; exact .head _
        · split at hm
          · injection hm with hm; subst hm; exact .tail _ (.head _)
          · split at hm
            · injection hm with hm; subst hm; exact .tail _ (.tail _ (.head _))
            · cases hm
      have hst : ∀ u o, Emitted s u o → (msgToClient u cl f d n cmd text false se).1 = if se = true then writeErr u f ⟨e,
          [f.ID, if (!(decide (d.type = .service) || (!false && decide (d.type = .user)))) = true then n else d.ID]⟩ else u := by
        rintro u o ⟨r, rfl⟩
        have : msgRefusal { s with out := o ++ s.out, rnd := r } f d false = some e := hm
        simp only [msgToClient, this]
      cases se with
      | true =>
        obtain ⟨o', h1, h2⟩ := one e [f.ID, if (!(decide (d.type = .service) || (!false && decide (d.type = .user)))) = true
          then n else d.ID] he
        refine ⟨o', true, fun u o hu => ?_, fun _ => rfl, fun _ => h2⟩
        rw [hone u o hu, hst u o hu]
        exact ⟨h1 u o hu, rfl⟩
      | false =>
        refine ⟨[], true, fun u o hu => ?_, fun _ => rfl, fun _ j => Nat.zero_le _⟩
        rw [hone u o hu, hst u o hu]
        exact ⟨hu, rfl⟩
    | none =>
      have hmay := msgRefusal_iff.1 hm
      obtain ⟨j, hj⟩ := user_hop h hdm hmay.kind
      have hst : ∀ u o, Emitted s u o → (msgToClient u cl f d n cmd text false se).1 =
          writePrefix (if (se && decide ((s.cl cl).type ≠ .server) && d.hasMode 'a') = true then
            writeErr u f ⟨"RPL_AWAY_MSG", [f.ID, d.ID, d.away.getD []]⟩ else u) d f ⟨cmd, [d.ID, text]⟩ := by
        rintro u o ⟨r, rfl⟩
        have : msgRefusal { s with out := o ++ s.out, rnd := r } f d false = none := hm
        simp only [msgToClient, this, Bool.and_false, Bool.false_and, Bool.false_eq_true, if_false]
        rfl
      obtain ⟨o1, h1, h2⟩ := one "RPL_AWAY_MSG" [f.ID, d.ID, d.away.getD []] (.tail _ (.tail _ (.tail _ (.head _))))
      by_cases hc : (se && decide ((s.cl cl).type ≠ .server) && d.hasMode 'a') = true
      · refine ⟨⟨j, some (if (nextHop s d).type = .server then f.ID else maskCloaked s f), ⟨cmd, [d.ID, text]⟩⟩ ::
          [⟨i, some (if (nextHop s f).type = .server then (s.cl s.this).ID else maskCloaked s (s.cl s.this)),
            ⟨"RPL_AWAY_MSG", [f.ID, d.ID, d.away.getD []]⟩⟩], true, fun u o hu => ?_, fun _ => rfl, fun _ k => ?_⟩
        · rw [hone u o hu, hst u o hu, if_pos hc]
          refine ⟨?_, rfl⟩
          have := emitted_then (emitted_then hu hhop (s.cl s.this) ⟨"RPL_AWAY_MSG", [f.ID, d.ID, d.away.getD []]⟩) hj f
            ⟨cmd, [d.ID, text]⟩
          obtain ⟨r, rfl⟩ := hu
          exact this
        · show (messagesOn ([_] ++ [_]) cmd k).length ≤ 1
          rw [messagesOn_append, messagesOn_nil (o := [⟨i, some (if (nextHop s f).type = .server then (s.cl s.this).ID
            else maskCloaked s (s.cl s.this)), ⟨"RPL_AWAY_MSG", [f.ID, d.ID, d.away.getD []]⟩⟩]), List.append_nil]
          · exact messagesOn_one _
          · intro y hy
            rw [List.mem_singleton] at hy
            rw [hy]; exact hne _ (.tail _ (.tail _ (.tail _ (.head _))))
      · refine ⟨[⟨j, some (if (nextHop s d).type = .server then f.ID else maskCloaked s f), ⟨cmd, [d.ID, text]⟩⟩], true,
          fun u o hu => ?_, fun _ => rfl, fun _ k => messagesOn_one _⟩
        rw [hone u o hu, hst u o hu, if_neg hc]
        exact ⟨emitted_then hu hj f _, rfl⟩
  | none =>
    cases hch : channelSearch s n with
    | some c =>
      have hcm : c ∈ s.chans := channelSearch_mem hch
      have ho : Once c := h.reachable.once c hcm
      have hup : s.updChan c.ref (fun _ => c) = s := updChan_self hb.ch hcm
      have hone : ∀ u o, Emitted s u o → msgOne u cl f n cmd text false se =
          (channelWrite u c f (u.cl cl) cmd se text, cmd, true) := by
        rintro u o ⟨r, rfl⟩
        have h1 : msgClient { s with out := o ++ s.out, rnd := r } n = none := hq
        have h2 : channelSearch { s with out := o ++ s.out, rnd := r } n = some c := hch
        simp only [msgOne, h1, h2, Bool.false_eq_true, if_false]
      have hcs : (canSendToChannel s c f).1 = c := by
        by_cases hft : f.ref = s.this
        · simp only [canSendToChannel, if_pos hft]
        · exact (canSend_spec hb ho hft).1
      have hst : ∀ u o, Emitted s u o → channelWrite u c f (u.cl cl) cmd se text =
          if (canSendToChannel s c f).2 = true then writeChannelPrefix u (s.cl cl).ref c.ref f true ⟨cmd, [c.name, text]⟩
          else if se = true then
            if c.hasMode 'M' then writeErr u f ⟨"ERR_NEEDREGGEDNICK_MSG", [f.ID, c.name]⟩
            else writeErr u f ⟨"ERR_CANNOTSENDTOCHAN_MSG", [f.ID, c.name]⟩
          else u := by
        rintro u o ⟨r, rfl⟩
        have h1 : canSendToChannel { s with out := o ++ s.out, rnd := r } c f = canSendToChannel s c f := rfl
        have h2 : Srv.updChan { s with out := o ++ s.out, rnd := r } c.ref (fun _ => c) = { s with out := o ++ s.out, rnd := r } := by
          have := congrArg Srv.chans hup
          simp only [Srv.updChan] at this ⊢
          rw [this]
        simp only [channelWrite, h1, hcs, h2]
        cases (canSendToChannel s c f).2 <;> cases se <;> rfl
      cases hs : (canSendToChannel s c f).2 with
      | false =>
        cases se with
        | false =>
          refine ⟨[], true, fun u o hu => ?_, fun _ => rfl, fun _ j => Nat.zero_le _⟩
          rw [hone u o hu, hst u o hu, hs]
          exact ⟨hu, rfl⟩
        | true =>
          cases hM : c.hasMode 'M' with
          | true =>
            obtain ⟨o', h1, h2⟩ := one "ERR_NEEDREGGEDNICK_MSG" [f.ID, c.name] (by decide)
            refine ⟨o', true, fun u o hu => ?_, fun _ => rfl, fun _ => h2⟩
            rw [hone u o hu, hst u o hu, hs, hM]
            exact ⟨h1 u o hu, rfl⟩
          | false =>
            obtain ⟨o', h1, h2⟩ := one "ERR_CANNOTSENDTOCHAN_MSG" [f.ID, c.name] (by decide)
            refine ⟨o', true, fun u o hu => ?_, fun _ => rfl, fun _ => h2⟩
            rw [hone u o hu, hst u o hu, hs, hM]
            exact ⟨h1 u o hu, rfl⟩
      | true =>
        obtain ⟨o', ho', h1, h2⟩ := writeChannel_spec hb (polite_kind h) (client := cl) hcl c.ref f ⟨cmd, [c.name, text]⟩
        have hcr : (s.cl cl).ref = cl := (mem_of_conn (s := s) (r := cl) (by rw [hcl]; rfl)).2
        have ho2 := congrArg Srv.out ho'
        refine ⟨o', true, fun u o hu => ?_, fun _ => rfl, fun _ k => ?_⟩
        · rw [hone u o hu, hst u o hu, hs, if_pos rfl, hcr]
          refine ⟨?_, rfl⟩
          obtain ⟨r, rfl⟩ := hu
          refine ⟨r, ?_⟩
          have hn : ∀ d, nextHop { s with out := o ++ s.out, rnd := r } d = nextHop s d :=
            nextHop_core (s := s) (t := { s with out := o ++ s.out, rnd := r }) rfl
          have e1 : hopFor { s with out := o ++ s.out, rnd := r } cl true = hopFor s cl true := by
            funext d; simp only [hopFor, hn]; rfl
          simp only [writeChannelPrefix, sendMarked, Srv.emits, e1] at ho2 ⊢
          have e2 := List.append_cancel_right ho2
          rw [← e2, List.append_assoc]
          rfl
        · have hle : (messagesOn o' cmd k).length ≤ (onConn o' k).length := by
            have : messagesOn o' cmd k = (onConn o' k).filter (fun y => y.msg.cmd == cmd) := by
              rw [messagesOn, onConn, List.filter_filter]
              congr 1; funext y; exact Bool.and_comm _ _
            rw [this]; exact List.length_filter_le _ _
          refine Nat.le_trans hle ?_
          cases hoc : onConn o' k with
          | nil => exact Nat.zero_le _
          | cons y ys =>
            have hy : y ∈ onConn o' k := by rw [hoc]; exact .head _
            rw [onConn, List.mem_filter, beq_iff_eq] at hy
            obtain ⟨hne', x, hx, hon, hbe⟩ := h2 y hy.1
            rw [hy.2] at hne' hbe
            rw [← hoc, h1 k hne' x hx hon hbe]
            exact Nat.le_refl _
    | none =>
      by_cases hmask : ((n.head? = some '$' ∨ n.head? = some '#') ∧ hasChar n '.' = true)
      · have hone : ∀ u o, Emitted s u o → msgOne u cl f n cmd text false se =
            (sendMessageMask u f cmd n text se, cmd, true) := by
          rintro u o ⟨r, rfl⟩
          have h1 : msgClient { s with out := o ++ s.out, rnd := r } n = none := hq
          have h2 : channelSearch { s with out := o ++ s.out, rnd := r } n = none := hch
          simp only [msgOne, h1, h2, Bool.false_eq_true, if_false]
          rw [if_pos (by simp [hmask])]
        cases hop : f.hasMode 'o' with
        | false =>
          cases se with
          | true =>
            obtain ⟨o', h1, h2⟩ := one "ERR_NOPRIVILEGES_MSG" [f.ID] (by decide)
            refine ⟨o', true, fun u o hu => ?_, fun _ => rfl, fun _ => h2⟩
            rw [hone u o hu, sendMessageMask, hop]
            exact ⟨h1 u o hu, rfl⟩
          | false =>
            refine ⟨[], true, fun u o hu => ?_, fun _ => rfl, fun _ j => Nat.zero_le _⟩
            rw [hone u o hu, sendMessageMask, hop]
            exact ⟨hu, rfl⟩
        | true =>
          have hoo : 'o' ∈ f.modes := hasMode_iff.1 hop
          cases hw : wildTopLevel n with
          | true =>
            cases se with
            | true =>
              obtain ⟨o', h1, h2⟩ := one "ERR_WILDTOPLEVEL_MSG" [n] (by decide)
              refine ⟨o', true, fun u o hu => ?_, fun _ => rfl, fun _ => h2⟩
              rw [hone u o hu, sendMessageMask, hop, hw]
              exact ⟨h1 u o hu, rfl⟩
            | false =>
              refine ⟨[], true, fun u o hu => ?_, fun _ => rfl, fun _ j => Nat.zero_le _⟩
              rw [hone u o hu, sendMessageMask, hop, hw]
              exact ⟨hu, rfl⟩
          | false =>
            obtain ⟨o', ho'⟩ := masks_out h (f := f) (fun c => ⟨cmd, [c.ID, text]⟩) (maskTargets s n) (by
              intro d hd
              simp only [maskTargets, List.mem_filter, Bool.and_eq_true, decide_eq_true_eq] at hd
              exact ⟨hd.1, hd.2.1⟩)
            refine ⟨o', true, fun u o hu => ?_, fun _ => rfl, fun hno => absurd hoo hno⟩
            rw [hone u o hu, sendMessageMask, hop, hw]
            refine ⟨?_, rfl⟩
            have := ho' u o hu
            obtain ⟨r, rfl⟩ := hu
            exact this
      · have hone : ∀ u o, Emitted s u o → msgOne u cl f n cmd text false se =
            if se = true then (writeErr u f ⟨"ERR_NOSUCHNICK_MSG", [f.ID, n]⟩, cmd, true) else (u, cmd, false) := by
          rintro u o ⟨r, rfl⟩
          have h1 : msgClient { s with out := o ++ s.out, rnd := r } n = none := hq
          have h2 : channelSearch { s with out := o ++ s.out, rnd := r } n = none := hch
          simp only [msgOne, h1, h2, Bool.false_eq_true, if_false]
          rw [if_neg (by simpa using hmask)]
          cases se <;> rfl
        cases se with
        | true =>
          obtain ⟨o', h1, h2⟩ := one "ERR_NOSUCHNICK_MSG" [f.ID, n] (by decide)
          refine ⟨o', true, fun u o hu => ?_, fun _ => rfl, fun _ => h2⟩
          rw [hone u o hu]
          exact ⟨h1 u o hu, rfl⟩
        | false =>
          refine ⟨[], false, fun u o hu => ?_, (by intro g; cases g), fun _ j => Nat.zero_le _⟩
          rw [hone u o hu]
          exact ⟨hu, rfl⟩

theorem pieces_comma : ∀ (n : Str), ∀ t ∈ pieces n, ',' ∉ t
  | [] => by intro t ht; simp only [pieces, List.mem_singleton] at ht; rw [ht]; exact List.not_mem_nil
  | a :: as => by
    intro t ht
    have ih := pieces_comma as
    simp only [pieces] at ht
    split at ht
    · rcases List.mem_cons.1 ht with rfl | ht
      · exact List.not_mem_nil
      · exact ih t ht
    · rename_i hne
      split at ht
      · rename_i hq
        simp only [List.mem_singleton] at ht
        rw [ht, List.mem_singleton]; exact fun g => hne g.symm
      · rename_i p ps hq
        rcases List.mem_cons.1 ht with rfl | ht
        · rw [List.mem_cons, not_or]
          exact ⟨fun g => hne g.symm, ih p (by rw [hq]; exact .head _)⟩
        · exact ih t (by rw [hq]; exact .tail _ ht)

theorem items_item {n t : Str} (h : t ∈ items n) : items t = [t] := by
  simp only [items, List.mem_filter] at h
  refine items_plain (pieces_comma n t h.1) ?_
  rintro rfl
  exact absurd h.2 (by decide)

theorem msg_loop {n text : Str} {svc se : Bool} (hargs : req.argv = [n, text]) (htext : text ≠ [])
    (hf : msgFrom s cl req = some f.ref) :
    (sendMessage cmd svc se s cl req).1 = msgLoop cl f.ref text svc se (items n) [] cmd s := by
  have h0 : req.arg 0 = n := by simp [Request.arg, hargs]
  have h1 : req.arg 1 = text := by simp [Request.arg, hargs]
  have h2 : req.argc = 2 := by simp [Request.argc, hargs]
  have ht : text.isEmpty = false := by cases text with
    | nil => exact absurd rfl htext
    | cons => rfl
  simp only [sendMessage, h2, hf, h0, h1, ht, strtok_items]
  rw [if_neg (by decide), if_neg (by decide), if_neg (by decide), if_neg (by decide)]

theorem msgLoop_out (h : PoliteRun s) (hcl : (s.cl cl).conn = some i) (hf : s.cl f.ref = f) {text : Str} {se : Bool}
    {out : Str → List Sent} {cont : Str → Bool}
    (hout : ∀ n u o, Emitted s u o → Emitted s (msgOne u cl f n cmd text false se).1 (out n ++ o) ∧
      (msgOne u cl f n cmd text false se).2 = (cmd, cont n)) (hcont : ∀ n, se = true → cont n = true) :
    ∀ (ts seen : List Str) u o, Emitted s u o → seen.length ≤ 25 → ∃ served extra,
      served.Sublist ts ∧ served.Pairwise (fun a b => ¬ SameCase a b) ∧ (∀ a ∈ served, ∀ b ∈ seen, ¬ SameCase a b) ∧
      served.length + seen.length ≤ 25 ∧
      Emitted s (msgLoop cl f.ref text false se ts seen cmd u) (extra ++ (served.reverse.map out).flatten ++ o) ∧
      (extra = [] ∨ 25 < ts.length + seen.length ∧ ∃ p t, extra = [⟨i, some p, ⟨"ERR_TOOMANYTARGETS_MSG", [t]⟩⟩]) ∧
      (se = true → (ts.length + seen.length ≤ 25 ↔ extra = []) ∧
        ∀ t ∈ ts.take (25 - seen.length), ∃ t' ∈ served ++ seen, SameCase t t') := by
  intro ts
  induction ts with
  | nil =>
    intro seen u o hu hl
    exact ⟨[], [], .slnil, .nil, (by intro _ g; cases g), by simpa using hl, hu, .inl rfl,
      fun _ => ⟨by simpa using hl, by intro t ht; rw [List.take_nil] at ht; cases ht⟩⟩
  | cons t ts ih =>
    intro seen u o hu hl
    simp only [msgLoop]
    have hr : ∃ r, u = { s with out := o ++ s.out, rnd := r } := hu
    obtain ⟨r, hr⟩ := hr
    have hucl : ∀ k, u.cl k = s.cl k := by rw [hr]; intro k; rfl
    split
    · rename_i hge
      simp only [MAX_HNDL_TARGETS] at hge
      have hlen : seen.length = 25 := by omega
      have hho : (nextHop s (s.cl cl)).conn = some i := by
        exact own_hop h.reachable.base (mem_of_conn (s := s) (r := cl) (by rw [hcl]; rfl)).1 hcl
      refine ⟨[], [⟨i, some (if (nextHop s (s.cl cl)).type = .server then (u.cl u.this).ID
        else maskCloaked s (u.cl u.this)), ⟨"ERR_TOOMANYTARGETS_MSG", [t]⟩⟩], List.nil_sublist _, .nil,
        (by intro _ g; cases g), by simp [hlen], ?_, .inr ⟨by simp [hlen], _, _, rfl⟩, fun _ => ⟨?_, ?_⟩⟩
      · rw [hucl]
        exact emitted_then hu hho _ _
      · simp [hlen]
      · intro t ht
        rw [hlen] at ht; simp at ht
    · rename_i hlt
      simp only [MAX_HNDL_TARGETS] at hlt
      have hlt' : seen.length < 25 := by omega
      split
      · rename_i hdup
        obtain ⟨served, extra, h1, h2, h3, h4, h5, h6, h7⟩ := ih (t :: seen) u o hu (by simp only [List.length_cons]; omega)
        refine ⟨served, extra, h1.cons _, h2, fun a ha b hb => h3 a ha b (.tail _ hb), ?_, h5, ?_, fun hse => ⟨?_, ?_⟩⟩
        · simp only [List.length_cons] at h4; omega
        · rcases h6 with h6 | ⟨h6, h8⟩
          · exact .inl h6
          · exact .inr ⟨by simp only [List.length_cons] at h6 ⊢; omega, h8⟩
        · rw [← (h7 hse).1]; simp only [List.length_cons]; omega
        · intro a ha
          have hta : ∃ t' ∈ served ++ seen, SameCase t t' := by
            rw [List.any_eq_true] at hdup
            obtain ⟨x, hx, hxx⟩ := hdup
            exact ⟨x, List.mem_append_right _ hx, (caseEq_same _ _).1 hxx⟩
          have hk : 25 - seen.length = (25 - (t :: seen).length) + 1 := by simp only [List.length_cons]; omega
          rw [hk, List.take_succ_cons] at ha
          rcases List.mem_cons.1 ha with rfl | ha
          · exact hta
          · obtain ⟨t', ht', hs⟩ := (h7 hse).2 a ha
            rcases List.mem_append.1 ht' with g | g
            · exact ⟨t', List.mem_append_left _ g, hs⟩
            · rcases List.mem_cons.1 g with rfl | g
              · obtain ⟨x, hx, hxx⟩ := hta
                exact ⟨x, hx, Ngircd.Spec.SameCase.trans hs hxx⟩
              · exact ⟨t', List.mem_append_right _ g, hs⟩
      · rename_i hnew
        have hnew' : ∀ b ∈ seen, ¬ SameCase t b := by
          intro b hb g
          exact hnew (List.any_eq_true.2 ⟨b, hb, (caseEq_same _ _).2 g⟩)
        obtain ⟨g1, g2⟩ := hout t u o hu
        rw [hucl, hf]
        generalize hq : msgOne u cl f t cmd text false se = q at g1 g2
        obtain ⟨q1, q2, q3⟩ := q
        simp only [Prod.mk.injEq] at g2
        obtain ⟨rfl, rfl⟩ := g2
        cases hct : cont t with
        | false =>
          simp only [hct]
          have hse : se ≠ true := fun g => by rw [hcont t g] at hct; cases hct
          refine ⟨[t], [], (List.nil_sublist _).cons_cons _, List.pairwise_singleton _ _, ?_, ?_, by simpa using g1, .inl rfl,
            fun g => absurd g hse⟩
          · intro a ha b hb
            rw [List.mem_singleton] at ha; rw [ha]; exact hnew' b hb
          · simp only [List.length_cons, List.length_nil]; omega
        | true =>
          simp only [hct]
          obtain ⟨served, extra, h1, h2, h3, h4, h5, h6, h7⟩ := ih (t :: seen) q1 _ g1 (by simp only [List.length_cons]; omega)
          refine ⟨t :: served, extra, h1.cons_cons _, ?_, ?_, ?_, ?_, ?_, fun hse => ⟨?_, ?_⟩⟩
          · exact List.pairwise_cons.2 ⟨fun a ha g => h3 a ha t (.head _) g.symm, h2⟩
          · intro a ha b hb
            rcases List.mem_cons.1 ha with rfl | ha
            · exact hnew' b hb
            · exact h3 a ha b (.tail _ hb)
          · simp only [List.length_cons] at h4 ⊢; omega
          · simpa using h5
          · rcases h6 with h6 | ⟨h6, h8⟩
            · exact .inl h6
            · exact .inr ⟨by simp only [List.length_cons] at h6 ⊢; omega, h8⟩
          · rw [← (h7 hse).1]; simp only [List.length_cons]; omega
          · intro a ha
            have hk : 25 - seen.length = (25 - (t :: seen).length) + 1 := by simp only [List.length_cons]; omega
            rw [hk, List.take_succ_cons] at ha
            rcases List.mem_cons.1 ha with rfl | ha
            · exact ⟨a, .head _, SameCase.refl _⟩
            · obtain ⟨t', ht', hs⟩ := (h7 hse).2 a ha
              refine ⟨t', ?_, hs⟩
              rcases List.mem_append.1 ht' with g | g
              · exact .tail _ (List.mem_append_left _ g)
              · rcases List.mem_cons.1 g with rfl | g
                · exact .head _
                · exact .tail _ (List.mem_append_right _ g)

/-- **C44** A PRIVMSG or NOTICE to a list of targets does what single messages would do, one after another,
to at most 25 targets of the list, all of them different (ignoring case); unless the sender is an IRC operator
(who may use masks) each of them leads to at most one copy per connection.  A PRIVMSG is sent to all of the
first 25 targets, and if there are more than 25 the sender is told. -/
theorem C44_list (h : PoliteRun s) (hr : Received s i l cl req) (hcmd : cmd = "PRIVMSG" ∨ cmd = "NOTICE")
    (his : Is req cmd) (hty : (s.cl cl).type = .user ∨ (s.cl cl).type = .server) {n text : Str}
    (hargs : req.argv = [n, text]) (htext : text ≠ []) (hf : Originator s cl req f) (rnd : Int) :
    ∃ (served : List Str) (out : Str → List Sent) (extra : List Sent),
      served.Sublist (items n) ∧ served.Pairwise (fun a b => ¬ SameCase a b) ∧ served.length ≤ 25 ∧
      Emitted s (step s (.line i rnd l)) (extra ++ (served.reverse.map out).flatten) ∧
      (∀ a ∈ served, ∀ l' req' rnd', Received s i l' cl req' → Is req' cmd → req'.prefix? = req.prefix? →
        req'.argv = [a, text] → Emitted s (step s (.line i rnd' l')) (out a)) ∧
      ('o' ∉ f.modes → ∀ j, (∀ a, (messagesOn (out a) cmd j).length ≤ 1) ∧
        (messagesOn (extra ++ (served.reverse.map out).flatten) cmd j).length ≤ served.length) ∧
      (extra = [] ∨ 25 < (items n).length ∧ ∃ p a, extra = [⟨i, some p, ⟨"ERR_TOOMANYTARGETS_MSG", [a]⟩⟩]) ∧
      (cmd = "PRIVMSG" → ((items n).length ≤ 25 ↔ extra = []) ∧ ∀ a ∈ (items n).take 25, ∃ b ∈ served, SameCase a b) := by
  have hb := h.reachable.base
  obtain ⟨hm1, hm2, hm3, -⟩ := msgFrom_originator h hr hf
  obtain ⟨ho1, ho2, ho3, -⟩ := hr.owner hb
  have hrun : ∀ {l' req' a rnd'}, Received s i l' cl req' → Is req' cmd → req'.prefix? = req.prefix? →
      req'.argv = [a, text] → step s (.line i rnd' l') =
        msgLoop cl f.ref text false (cmd == "PRIVMSG") (items a) [] cmd (s.roll rnd') := by
    intro l' req' a rnd' hr' his' hpre hargs'
    have hmf : msgFrom (s.roll rnd') cl req' = some f.ref := by
      have : msgFrom (s.roll rnd') cl req' = msgFrom s cl req := by
        simp only [msgFrom, hpre]; rfl
      rw [this]; exact hm1
    rcases hcmd with rfl | rfl
    · have hst : step s (.line i rnd' l') = (ircPRIVMSG (s.roll rnd') cl req').1 :=
        step_do hr' rnd' his' rfl (by rcases hty with hty | hty <;> rw [hty] <;> rfl) (by
          simp only [Command.argcOk, Request.argc, hargs']; rfl)
      rw [hst]
      exact msg_loop hargs' htext hmf
    · have hst : step s (.line i rnd' l') = (ircNOTICE (s.roll rnd') cl req').1 :=
        step_do hr' rnd' his' rfl (by rcases hty with hty | hty <;> rw [hty] <;> rfl) (by
          simp only [Command.argcOk, Request.argc, hargs']; rfl)
      rw [hst]
      exact msg_loop hargs' htext hmf
  have hex : ∀ a, ∃ o', ∃ cont, (∀ u o, Emitted s u o → Emitted s (msgOne u cl f a cmd text false (cmd == "PRIVMSG")).1 (o' ++ o) ∧
        (msgOne u cl f a cmd text false (cmd == "PRIVMSG")).2 = (cmd, cont)) ∧ ((cmd == "PRIVMSG") = true → cont = true) ∧
      ('o' ∉ f.modes → ∀ j, (messagesOn o' cmd j).length ≤ 1) :=
    fun a => msgOne_out h ho3 hm3 hcmd text a _
  obtain ⟨out, hex⟩ := Classical.skolem.1 hex
  obtain ⟨cont, hex⟩ := Classical.skolem.1 hex
  obtain ⟨served, extra, h1, h2, -, h4, h5, h6, h7⟩ := msgLoop_out (f := f) (cmd := cmd) (text := text) h ho3 hm2 (fun a => (hex a).1)
    (fun a => (hex a).2.1) (items n) [] (s.roll rnd) [] ⟨rnd, rfl⟩ (by decide)
  rw [List.append_nil] at h5
  simp only [List.length_nil, Nat.add_zero, List.append_nil, Nat.sub_zero] at h4 h6 h7
  refine ⟨served, out, extra, h1, h2, h4, ?_, ?_, ?_, h6, fun hc => ?_⟩
  · rw [hrun hr his rfl hargs]; exact h5
  · intro a ha l' req' rnd' hr' his' hpre hargs'
    rw [hrun hr' his' hpre hargs', items_item (h1.subset ha)]
    simp only [msgLoop]
    rw [if_neg (by decide), if_neg (by rw [List.any_nil]; decide)]
    have hfr : (s.roll rnd').cl f.ref = f := hm2
    rw [hfr]
    have := ((hex a).1 (s.roll rnd') [] ⟨rnd', rfl⟩).1
    rw [List.append_nil] at this
    split
    · rename_i hq; rw [hq] at this; exact this
    · rename_i hq; rw [hq] at this; exact this
  · intro hno j
    refine ⟨fun a => (hex a).2.2 hno j, ?_⟩
    have hx : messagesOn extra cmd j = [] := by
      refine messagesOn_nil (fun y hy => ?_)
      rcases h6 with h6 | ⟨-, p, a, h6⟩
      · rw [h6] at hy; cases hy
      · rw [h6, List.mem_singleton] at hy
        rw [hy]
        show "ERR_TOOMANYTARGETS_MSG" ≠ cmd
        rcases hcmd with rfl | rfl <;> decide
    rw [messagesOn_append, hx, List.nil_append]
    have : ∀ as : List Str, (messagesOn ((as.map out).flatten) cmd j).length ≤ as.length := by
      intro as
      induction as with
      | nil => exact Nat.le_refl _
      | cons a as ih =>
        simp only [List.map_cons, List.flatten_cons, messagesOn_append, List.length_append, List.length_cons]
        have := (hex a).2.2 hno j
        omega
    have := this served.reverse
    rwa [List.length_reverse] at this
  · exact h7 (by rw [hc]; rfl)

/-- Bob is named twice, and is on #c, too. -/
example : ∃ req, PoliteRun Sample.s5 ∧ Received Sample.s5 5 "PRIVMSG bob,BOB,#c :hello".toList 3 req ∧ Is req "PRIVMSG" ∧
    (Sample.s5.cl 3).type = .user ∧ req.argv = ["bob,BOB,#c".toList, "hello".toList] ∧
    Originator Sample.s5 3 req (Sample.s5.cl 3) ∧ 'o' ∉ (Sample.s5.cl 3).modes ∧
    items "bob,BOB,#c".toList = ["bob".toList, "BOB".toList, "#c".toList] ∧
    (step Sample.s5 (.line 5 0 "PRIVMSG bob,BOB,#c :hello".toList)).out.take 3 =
      [⟨6, some "alice!~alice@1.2.3.4".toList, ⟨"PRIVMSG", ["#c".toList, "hello".toList]⟩⟩,
       ⟨7, some "alice".toList, ⟨"PRIVMSG", ["#c".toList, "hello".toList]⟩⟩,
       ⟨6, some "alice!~alice@1.2.3.4".toList, ⟨"PRIVMSG", ["bob".toList, "hello".toList]⟩⟩] :=
  ⟨⟨none, "PRIVMSG".toList, ["bob,BOB,#c".toList, "hello".toList]⟩,
    Sample.fine_s5.mono (fun _ h => h.1) (fun _ _ h => h.1), recv_sound (by decide +kernel),
    by simp only [Is]; decide, by decide +kernel, by decide,
    ⟨by decide +kernel, .inr ⟨by decide +kernel, by decide +kernel⟩⟩, by decide +kernel, by decide, by decide +kernel⟩

end Ngircd
