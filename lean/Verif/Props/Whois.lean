import Verif.Props.Answers

/-!
# C74: the answer to WHOIS
-/

set_option linter.unusedSimpArgs false

namespace Ngircd
open Spec

variable {s v t : Srv} {i j : Nat} {l : Str} {cl : Nat} {req : Request} {c d p : Client}

theorem told_if (s : Srv) (i : Nat) (c : Client) (ms : List Msg) (b : Bool) (m : Msg) :
    (if b = true then told s i c (ms ++ [m]) else told s i c ms) = told s i c (ms ++ lineIf b m) := by
  cases b with
  | true => rw [if_pos rfl, lineIf, if_pos rfl]
  | false => rw [if_neg (by decide), lineIf, if_neg (by decide), List.append_nil]

theorem ssl_any (hb : Base s) (u : Client) : usesSSL s u = s.conns.any (fun k => decide (u.conn = some k.idx) && k.ssl) := by
  rw [Bool.eq_iff_iff, List.any_eq_true]
  cases hj : u.conn with
  | none => simp [usesSSL, hj]
  | some j =>
    rw [usesSSL_spec hb hj]
    constructor
    · rintro ⟨k, h1, h2, h3⟩
      exact ⟨k, h1, by simp [h2, h3]⟩
    · rintro ⟨k, h1, h2⟩
      simp only [Bool.and_eq_true, decide_eq_true_eq, Option.some.injEq] at h2
      exact ⟨k, h1, h2.1.symm, h2.2⟩

theorem whoisChannels_eq (hb : Base s) (hu : c.type = .user) (u : Client) :
    (whoisChannels s c u).map (fun ch => flagsQualifier c (userModes s ch.ref u.ref) ++ ch.name) =
      (seenChannels s c u).map (fun m => signs c m.modes ++ (s.chan m.chan).name) := by
  have href : ∀ m ∈ s.cl2, (s.chan m.chan).ref = m.chan := fun m hm => by
    obtain ⟨x, h1, h2⟩ := hb.ch.chan m hm
    rw [← h2, chan_of_mem hb.ch h1]
  have e1 : whoisChannels s c u = (seenChannels s c u).map (fun m => s.chan m.chan) := by
    simp only [whoisChannels, channelsOf, seenChannels, List.filter_map, List.map_map, List.filter_filter]
    have : s.cl2.filter (fun m => ((((fun ch => !(ch.hasMode 's' && !isMemberOf s ch.ref c.ref) && !(decide (c.type = .server) && ch.isLocal)) ∘ s.chan) ∘
        fun m : Cl2Chan => m.chan) m) && (m.client == u.ref)) =
        s.cl2.filter (fun m => decide (m.client = u.ref) && (decide ('s' ∉ (s.chan m.chan).modes) || decide (OnChannel s m.chan c.ref))) := by
      refine List.filter_congr (fun m hm => ?_)
      simp only [Function.comp, href m hm, onChan_iff, chanMode_dec, hu, decide_not]
      rw [Bool.and_comm]
      cases decide ('s' ∈ (s.chan m.chan).modes) <;> cases decide (OnChannel s m.chan c.ref) <;> simp <;> rfl
    rw [← this]
    rfl
  rw [e1, List.map_map]
  refine List.map_congr_left (fun m hm => ?_)
  obtain ⟨h1, h2⟩ := List.mem_filter.1 hm
  simp only [Bool.and_eq_true, decide_eq_true_eq] at h2
  simp only [Function.comp, href m h1, signs_eq]
  rw [← h2.1, userModes_mem hb.ch h1]

theorem whoisReply_told (hb : Base s) (hc : c.introducer = c.ref ∨ c.introducer = s.this) (hi : c.conn = some i) (hu : c.type = .user) (u : Client) (ms : List Msg) :
    whoisReply (told s i c ms) c c u = told s i c (ms ++ whoisAbout s c u) := by
  have e1 : ∀ ms, (!u.hasMode 'I' || c.hasMode 'o') = true →
      (if (List.map (fun ch => flagsQualifier c (userModes (told s i c ms) ch.ref u.ref) ++ ch.name) (whoisChannels (told s i c ms) c u)).isEmpty = true then
        told s i c ms else write (told s i c ms) c ⟨"RPL_WHOISCHANNELS_MSG", c.ID :: u.ID ::
        List.map (fun ch => flagsQualifier c (userModes (told s i c ms) ch.ref u.ref) ++ ch.name) (whoisChannels (told s i c ms) c u)⟩) =
      told s i c (ms ++ lineIf (decide (seenChannels s c u ≠ []))
    ⟨"RPL_WHOISCHANNELS_MSG", c.ID :: u.ID :: (seenChannels s c u).map (fun m => signs c m.modes ++ (s.chan m.chan).name)⟩) := by
    intro ms _
    have := whoisChannels_eq hb hu u
    rw [show List.map (fun ch => flagsQualifier c (userModes (told s i c ms) ch.ref u.ref) ++ ch.name) (whoisChannels (told s i c ms) c u) = _ from this]
    by_cases hn : seenChannels s c u = []
    · rw [hn]; simp [lineIf]
    · rw [if_neg (by simpa using hn), told_write hc hi, lineIf, if_pos (decide_eq_true hn)]
  have e2 : ∀ ms, usesSSL (told s i c ms) u = usesSSL s u := fun _ => rfl
  have e3 : ∀ ms r, (told s i c ms).cl r = s.cl r := fun _ _ => rfl
  have e4 : ∀ ms, displayedHost (told s i c ms) u = displayedHost s u := fun _ => rfl
  have e5 : ∀ ms, (told s i c ms).conf = s.conf := fun _ => rfl
  have e6 : ∀ ms, (if (!u.hasMode 'I' || c.hasMode 'o') = true then
      (if (List.map (fun ch => flagsQualifier c (userModes (told s i c ms) ch.ref u.ref) ++ ch.name) (whoisChannels (told s i c ms) c u)).isEmpty = true then
        told s i c ms else told s i c (ms ++ [⟨"RPL_WHOISCHANNELS_MSG", c.ID :: u.ID ::
        List.map (fun ch => flagsQualifier c (userModes (told s i c ms) ch.ref u.ref) ++ ch.name) (whoisChannels (told s i c ms) c u)⟩])) else told s i c ms) =
      told s i c (ms ++ lineIf ((decide ('I' ∉ u.modes) || decide ('o' ∈ c.modes)) && decide (seenChannels s c u ≠ []))
        ⟨"RPL_WHOISCHANNELS_MSG", c.ID :: u.ID :: (seenChannels s c u).map (fun m => signs c m.modes ++ (s.chan m.chan).name)⟩) := by
    intro ms
    rw [← told_write hc hi]
    have hk : (!u.hasMode 'I' || c.hasMode 'o') = (decide ('I' ∉ u.modes) || decide ('o' ∈ c.modes)) := by
      rw [clMode_dec, clMode_dec, decide_not]
    cases hv : (!u.hasMode 'I' || c.hasMode 'o') with
    | true => rw [if_pos rfl, e1 ms hv, ← hk, hv, Bool.true_and]
    | false => rw [if_neg (by decide), ← hk, hv, Bool.false_and, lineIf, if_neg (by decide), List.append_nil]
  simp only [whoisReply, told_write hc hi, e2, e3, e4, e5, e6, told_if]
  simp only [whoisAbout, clMode_dec, displayedHost_public, ssl_any hb]
  have e7 : lineIf u.account.isSome ⟨"RPL_WHOISLOGGEDIN_MSG", [c.ID, u.ID, u.account.getD []]⟩ =
      u.account.toList.map (fun a => (⟨"RPL_WHOISLOGGEDIN_MSG", [c.ID, u.ID, a]⟩ : Msg)) := by cases u.account <;> rfl
  have e8 : lineIf (u.conn.isSome && (c.ref == u.ref || decide ('o' ∈ c.modes))) ⟨"RPL_WHOISHOST_MSG", [c.ID, u.ID, u.host]⟩ ++
      lineIf (u.conn.isSome && (c.ref == u.ref || decide ('o' ∈ c.modes))) ⟨"RPL_WHOISMODES_MSG", [c.ID, u.ID, u.modes]⟩ =
      (if u.conn.isSome = true ∧ (c.ref = u.ref ∨ 'o' ∈ c.modes) then
        [⟨"RPL_WHOISHOST_MSG", [c.ID, u.ID, u.host]⟩, ⟨"RPL_WHOISMODES_MSG", [c.ID, u.ID, u.modes]⟩] else []) := by
    have hk : (u.conn.isSome && (c.ref == u.ref || decide ('o' ∈ c.modes))) = decide (u.conn.isSome = true ∧ (c.ref = u.ref ∨ 'o' ∈ c.modes)) := by
      rw [Bool.eq_iff_iff, decide_eq_true_eq]; simp
    rw [hk]
    by_cases hq : u.conn.isSome = true ∧ (c.ref = u.ref ∨ 'o' ∈ c.modes)
    · rw [if_pos hq, decide_eq_true hq]; rfl
    · rw [if_neg hq, decide_eq_false hq]; rfl
  rw [e7, ← e8]
  simp only [List.append_assoc, List.cons_append, List.nil_append]

theorem wild_told (hb : Base s) (hc : c.introducer = c.ref ∨ c.introducer = s.this) (hi : c.conn = some i) (hu : c.type = .user) (q : Str) :
    ∀ (cs : List Client) (n : Nat) (ms : List Msg), n ≤ 10 → whoisWild c c q cs n (told s i c ms) =
      (told s i c (ms ++ ((matching cs q).take (10 - n)).flatMap (whoisAbout s c) ++
        (if 10 - n ≤ (matching cs.dropLast q).length ∧ cs ≠ [] then [⟨"NOTICE", [c.ID, "WHOIS list limit reached!".toList]⟩] else [])),
       n + ((matching cs q).take (10 - n)).length)
  | [], n, ms, hn => by simp [whoisWild, matching]
  | d :: cs, n, ms, hn => by
    by_cases h10 : n ≥ MAX_RPL_WHOIS
    · have : n = 10 := Nat.le_antisymm hn h10
      subst this
      rw [whoisWild, if_pos (by decide), told_write hc hi]
      simp
    · have hlt : n < 10 := by unfold MAX_RPL_WHOIS at h10; omega
      rw [whoisWild, if_neg h10]
      have hk : (decide (d.type = .user) && !d.hasMode 'i' && matchCaseInsensitive q d.ID) =
          (decide (d.type = .user) && (decide ('i' ∉ d.modes) && matchCaseInsensitive q d.ID)) := by
        rw [clMode_dec, decide_not, Bool.and_assoc]
      have hempty : ¬ (10 - n ≤ (matching [d].dropLast q).length ∧ [d] ≠ []) := by
        rintro ⟨h1, -⟩
        simp only [List.dropLast_singleton, matching, List.filter_nil, List.length_nil] at h1
        omega
      have hno : ∀ k, ¬ (k ≤ (matching ([] : List Client).dropLast q).length ∧ ([] : List Client) ≠ []) := fun k h => h.2 rfl
      by_cases hm : (decide (d.type = .user) && (decide ('i' ∉ d.modes) && matchCaseInsensitive q d.ID)) = true
      · rw [if_pos (hk.trans hm), whoisReply_told hb hc hi hu, wild_told hb hc hi hu q cs (n + 1) _ (by omega)]
        have h1 : matching (d :: cs) q = d :: matching cs q := List.filter_cons_of_pos hm
        have h2 : 10 - n = (10 - (n + 1)) + 1 := by omega
        rw [h1, h2, List.take_succ_cons, List.flatMap_cons, List.length_cons]
        refine Prod.ext ?_ (by simp only; omega)
        simp only [List.append_assoc]
        congr 4
        cases cs with
        | nil => rw [← h2, if_neg hempty, if_neg (hno _)]
        | cons e es =>
          have h3 : matching (d :: e :: es).dropLast q = d :: matching (e :: es).dropLast q := List.filter_cons_of_pos hm
          have h4 : (10 - (n + 1) ≤ (matching (e :: es).dropLast q).length ∧ e :: es ≠ []) ↔
              (10 - (n + 1) + 1 ≤ (matching (d :: e :: es).dropLast q).length ∧ d :: e :: es ≠ []) := by
            rw [h3, List.length_cons]
            exact ⟨fun h => ⟨Nat.succ_le_succ h.1, List.cons_ne_nil _ _⟩, fun h => ⟨Nat.le_of_succ_le_succ h.1, List.cons_ne_nil _ _⟩⟩
          simp only [h4]
      · rw [if_neg (by rw [hk]; exact hm), wild_told hb hc hi hu q cs n _ hn]
        have h1 : matching (d :: cs) q = matching cs q := List.filter_cons_of_neg hm
        rw [h1]
        refine Prod.ext ?_ rfl
        simp only
        congr 2
        cases cs with
        | nil => rw [if_neg hempty, if_neg (hno _)]
        | cons e es =>
          have h3 : matching (d :: e :: es).dropLast q = matching (e :: es).dropLast q := List.filter_cons_of_neg hm
          have h4 : (10 - n ≤ (matching (e :: es).dropLast q).length ∧ e :: es ≠ []) ↔
              (10 - n ≤ (matching (d :: e :: es).dropLast q).length ∧ d :: e :: es ≠ []) := by
            rw [h3]
            exact ⟨fun h => ⟨h.1, List.cons_ne_nil _ _⟩, fun h => ⟨h.1, List.cons_ne_nil _ _⟩⟩
          simp only [h4]

theorem whoisLoop_told (h : PoliteRun s) (hc : c.introducer = c.ref ∨ c.introducer = s.this) (hi : c.conn = some i) (hu : c.type = .user) (rnd : Int) (arg : Str) :
    ∀ (qs before : List Str) (ms : List Msg), whoisLoop c c arg qs (before.any isMask) (told (s.roll rnd) i c ms) =
      told (s.roll rnd) i c (ms ++ whoisAnswer s c arg before qs)
  | [], before, ms => by simp [whoisLoop, whoisAnswer]
  | q :: qs, before, ms => by
    have hb : Base (s.roll rnd) := Base.of_core (s := s) rfl h.reachable.base
    have hmask : q.any (fun x => x == '*' || x == '?') = isMask q := by
      rw [Bool.eq_iff_iff]
      simp only [List.any_eq_true, isMask, Bool.or_eq_true, beq_iff_eq, decide_eq_true_eq]
      constructor
      · rintro ⟨x, h1, rfl | rfl⟩
        · exact .inl h1
        · exact .inr h1
      · rintro (h1 | h1)
        · exact ⟨_, h1, .inl rfl⟩
        · exact ⟨_, h1, .inr rfl⟩
    have hbf : (before ++ [q]).any isMask = (before.any isMask || isMask q) := by simp
    rw [whoisLoop, whoisAnswer, hmask]
    cases hq : isMask q with
    | false =>
      rw [if_pos (by simp)]
      have e : (match clientSearch (told (s.roll rnd) i c ms) q with
          | some u => if (decide (u.type = .user) || decide (u.type = .service)) = true then whoisReply (told (s.roll rnd) i c ms) c c u
            else writeErr (told (s.roll rnd) i c ms) c ⟨"ERR_NOSUCHNICK_MSG", [c.ID, q]⟩
          | none => writeErr (told (s.roll rnd) i c ms) c ⟨"ERR_NOSUCHNICK_MSG", [c.ID, q]⟩) = told (s.roll rnd) i c (ms ++ whoisOne s c q) := by
        rw [show clientSearch (told (s.roll rnd) i c ms) q = clientNamed s q from clientNamed_eq h q]
        unfold whoisOne
        cases clientNamed s q with
        | none => exact told_write (s := s.roll rnd) hc hi ms _
        | some u =>
          simp only
          by_cases hk : u.type = .user ∨ u.type = .service
          · rw [if_pos hk, if_pos (by simpa using hk), whoisReply_told hb hc hi hu]
            rfl
          · rw [if_neg hk, if_neg (by simpa using hk)]
            exact told_write (s := s.roll rnd) hc hi ms _
      rw [if_neg (by decide)]
      have := whoisLoop_told h hc hi hu rnd arg qs (before ++ [q]) (ms ++ whoisOne s c q)
      rw [hbf, hq, Bool.or_false] at this
      rw [← List.append_assoc, ← this]
      exact congrArg (whoisLoop c c arg qs (before.any isMask)) e
    | true =>
      rw [if_neg (by simp [hi]), if_pos rfl]
      have hbf' : (before ++ [q]).any isMask = true := by rw [hbf, hq, Bool.or_true]
      cases hg : before.any isMask with
      | true =>
        rw [if_pos rfl, if_pos rfl]
        have := whoisLoop_told h hc hi hu rnd arg qs (before ++ [q]) (ms ++ [noSuchNick c q])
        rw [hbf'] at this
        rw [← List.append_assoc, ← this]
        exact congrArg (whoisLoop c c arg qs true) (told_write (s := s.roll rnd) hc hi ms _)
      | false =>
        rw [if_neg (by decide), if_neg (by decide)]
        have hw := wild_told (s := s.roll rnd) hb hc hi hu q s.clients 0 ms (by decide)
        have hne : s.clients ≠ [] := List.ne_nil_of_mem h.reachable.base.this_mem.1
        have := whoisLoop_told h hc hi hu rnd arg qs (before ++ [q]) (ms ++ whoisMask s c arg q)
        rw [hbf'] at this
        rw [← List.append_assoc, ← this]
        refine congrArg (whoisLoop c c arg qs true) ?_
        rw [show (told (s.roll rnd) i c ms).clients = s.clients from rfl, hw]
        simp only [Nat.sub_zero, Nat.zero_add, whoisMask]
        have e1 : (10 ≤ (matching s.clients.dropLast q).length ∧ s.clients ≠ []) ↔ 10 ≤ (matching s.clients.dropLast q).length := and_iff_left hne
        simp only [e1]
        by_cases h0 : matching s.clients q = []
        · rw [h0, if_pos (by simp), if_pos rfl]
          refine (told_write (s := s.roll rnd) hc hi _ _).trans ?_
          simp only [List.append_assoc]
          rfl
        · rw [if_neg h0, if_neg (by
            intro h1
            rw [List.length_take] at h1
            have : 0 < (matching s.clients q).length := List.length_pos_iff.2 h0
            omega), List.append_nil, List.append_assoc]
          rfl

/-- **C74** WHOIS: for each of (at most three) names or masks, what the client may know about these users, and nothing else happens. -/
theorem C74_whois (h : PoliteRun s) (hr : Received s i l cl req) (his : Is req "WHOIS") (hu : (s.cl cl).type = .user) {a : Str} (hargs : req.argv = [a]) (rnd : Int) :
    Answers s i (step s (.line i rnd l))
      (whoisAnswer s (s.cl cl) a [] ((items (lowerStr (a.take 512))).take 3) ++ [⟨"RPL_ENDOFWHOIS_MSG", [(s.cl cl).ID, a]⟩]) := by
  have hb := h.reachable.base
  obtain ⟨g1, g2, g3, g4⟩ := hr.owner hb
  have hc : (s.cl cl).introducer = (s.cl cl).ref ∨ (s.cl cl).introducer = s.this := hb.cl.loc _ g1 (by rw [g3]; rfl)
  refine answers_of hb hr hu rnd ?_
  rw [step_do hr rnd his rfl (by rw [hu]; rfl) (by simp only [Command.argcOk, Request.argc, hargs]; rfl)]
  show (ircWHOIS (s.roll rnd) cl req).1 = _
  simp only [ircWHOIS, Request.argc, hargs, List.length_cons, List.length_nil]
  rw [if_neg (by decide), if_neg (by decide), getSender_user (by exact hu)]
  simp only
  rw [if_neg (by decide)]
  simp only [ne_eq, not_true_eq_false, if_false, Request.arg, hargs]
  have e1 : [a].getD (0 + 1 - 1) [] = a := rfl
  rw [e1, strtok_items, roll_cl]
  have e2 := whoisLoop_told h hc g3 hu rnd a ((items (lowerStr (a.take 512))).take 3) [] []
  have e3 : whoisLoop (s.cl cl) (s.cl cl) a ((items (lowerStr (strlcpy COMMAND_LEN a))).take 3) false (s.roll rnd) =
      told (s.roll rnd) i (s.cl cl) (whoisAnswer s (s.cl cl) a [] ((items (lowerStr (a.take 512))).take 3)) := e2
  rw [e3]
  exact told_write (s := s.roll rnd) hc g3 _ _

/-- **C74** WHOIS does not show a secret channel to somebody who is not on it. -/
theorem C74_secret {u : Client} {m : Cl2Chan} (hm : m ∈ seenChannels s c u) (hs : 's' ∈ (s.chan m.chan).modes) : OnChannel s m.chan c.ref := by
  obtain ⟨-, h⟩ := List.mem_filter.1 hm
  simp only [Bool.and_eq_true, Bool.or_eq_true, decide_eq_true_eq] at h
  exact h.2.resolve_left (fun h => h hs)

/-- **C74** The real host name is shown to the user itself and to IRC operators only. -/
theorem C74_host {u : Client} {ms : List Str} (hm : (⟨"RPL_WHOISHOST_MSG", ms⟩ : Msg) ∈ whoisAbout s c u) : c.ref = u.ref ∨ 'o' ∈ c.modes := by
  have hl : ∀ {b : Bool} {m : Msg}, m.cmd ≠ "RPL_WHOISHOST_MSG" → (⟨"RPL_WHOISHOST_MSG", ms⟩ : Msg) ∉ lineIf b m := by
    intro b m hne hmem
    unfold lineIf at hmem
    split at hmem
    · exact hne (List.mem_singleton.1 hmem ▸ rfl)
    · cases hmem
  simp only [whoisAbout, List.mem_append] at hm
  rcases hm with (((((((((hm | hm) | hm) | hm) | hm) | hm) | hm) | hm) | hm) | hm) | hm
  · rcases List.mem_cons.1 hm with h | h
    · exact absurd (congrArg Msg.cmd h) (show ¬ "RPL_WHOISHOST_MSG" = "RPL_WHOISUSER_MSG" from by decide)
    · exact absurd (congrArg Msg.cmd (List.mem_singleton.1 h)) (show ¬ "RPL_WHOISHOST_MSG" = "RPL_WHOISSERVER_MSG" from by decide)
  all_goals try exact absurd hm (hl (show ¬ ("RPL_WHOISCHANNELS_MSG" : String) = "RPL_WHOISHOST_MSG" from by decide))
  all_goals try exact absurd hm (hl (show ¬ ("RPL_WHOISSERVICE_MSG" : String) = "RPL_WHOISHOST_MSG" from by decide))
  all_goals try exact absurd hm (hl (show ¬ ("RPL_WHOISOPERATOR_MSG" : String) = "RPL_WHOISHOST_MSG" from by decide))
  all_goals try exact absurd hm (hl (show ¬ ("RPL_WHOISBOT_MSG" : String) = "RPL_WHOISHOST_MSG" from by decide))
  all_goals try exact absurd hm (hl (show ¬ ("RPL_WHOISSSL_MSG" : String) = "RPL_WHOISHOST_MSG" from by decide))
  all_goals try exact absurd hm (hl (show ¬ ("RPL_WHOISREGNICK_MSG" : String) = "RPL_WHOISHOST_MSG" from by decide))
  all_goals try exact absurd hm (hl (show ¬ ("RPL_WHOISIDLE_MSG" : String) = "RPL_WHOISHOST_MSG" from by decide))
  all_goals try exact absurd hm (hl (show ¬ ("RPL_AWAY_MSG" : String) = "RPL_WHOISHOST_MSG" from by decide))
  · obtain ⟨a, -, h⟩ := List.mem_map.1 hm
    exact absurd (congrArg Msg.cmd h) (show ¬ "RPL_WHOISLOGGEDIN_MSG" = "RPL_WHOISHOST_MSG" from by decide)
  · split at hm
    · rename_i hk
      exact hk.2
    · cases hm

theorem Sample.whois_facts :
    recv Sample.s5 5 "WHOIS bob,Zed,nobody".toList = some (3, ⟨none, "WHOIS".toList, ["bob,Zed,nobody".toList]⟩) ∧
    (Sample.s5.cl 3).type = .user ∧
    (whoisAnswer Sample.s5 (Sample.s5.cl 3) "bob,Zed,nobody".toList [] ((items (lowerStr ("bob,Zed,nobody".toList.take 512))).take 3)).map Msg.cmd =
      ["RPL_WHOISUSER_MSG", "RPL_WHOISSERVER_MSG", "RPL_WHOISCHANNELS_MSG", "RPL_WHOISIDLE_MSG",
       "RPL_WHOISUSER_MSG", "RPL_WHOISSERVER_MSG", "RPL_WHOISCHANNELS_MSG", "ERR_NOSUCHNICK_MSG"] ∧
    ((whoisAbout Sample.s5 (Sample.s5.cl 3) (Sample.s5.cl 3)).filter (fun m => decide (m.cmd = "RPL_WHOISHOST_MSG"))).length = 1 := by decide +kernel

example : ∃ req, PoliteRun Sample.s5 ∧ Received Sample.s5 5 "WHOIS bob,Zed,nobody".toList 3 req ∧ Is req "WHOIS" ∧ (Sample.s5.cl 3).type = .user ∧
    req.argv = ["bob,Zed,nobody".toList] := by
  obtain ⟨f1, f2, f3, f4⟩ := Sample.whois_facts
  exact ⟨_, polite_s5, recv_sound f1, by simp only [Is]; decide, f2, rfl⟩

example : (∃ m ∈ seenChannels Sample.s5s (Sample.s5s.cl 3) (Sample.s5s.cl 7), 's' ∈ (Sample.s5s.chan m.chan).modes) := by decide +kernel

example : ∃ ms, (⟨"RPL_WHOISHOST_MSG", ms⟩ : Msg) ∈ whoisAbout Sample.s5 (Sample.s5.cl 3) (Sample.s5.cl 3) :=
  ⟨["alice".toList, "alice".toList, "1.2.3.4".toList], by decide +kernel⟩

end Ngircd
