import Verif.Props.Chaninfo

/-!
# C79: NJOIN
-/

set_option linter.unusedSimpArgs false

namespace Ngircd
open Spec

variable {s v u t : Srv} {i j : Nat} {l : Str} {cl : Nat} {req : Request} {d f p x : Client} {c : Chan}

theorem njoinModes_eq (w : Str) : njoinModes w = signRanks w ∧ (signRanks w).foldl (fun M m => (modeAdd M m).1) [] = signRanks w ∧ strlcpy 8 (signRanks w) = signRanks w := by
  have h : ∀ b : Char, hasChar w b = decide (b ∈ w) := fun b => by simp [hasChar]
  simp only [njoinModes, signRanks, h, List.filter_cons, List.filter_nil]
  cases decide ('~' ∈ w) <;> cases decide ('&' ∈ w) <;> cases decide ('@' ∈ w) <;> cases decide ('%' ∈ w) <;> cases decide ('+' ∈ w) <;> exact ⟨rfl, by decide, by decide⟩

theorem fold_rank {ch r : Nat} {L : List Cl2Chan} (hL : ∀ m ∈ L, m.chan = ch → m.client ≠ r) : ∀ (ms M : Str) (u : Srv),
    ms.foldl (fun s m => (userModeAdd s ch r m).1) { u with cl2 := ⟨r, ch, M⟩ :: L } = { u with cl2 := ⟨r, ch, ms.foldl (fun M m => (modeAdd M m).1) M⟩ :: L } := by
  intro ms
  induction ms with
  | nil => intro M u; rfl
  | cons m ms ih =>
    intro M u
    rw [List.foldl_cons, List.foldl_cons, ← ih (modeAdd M m).1 u]
    congr 1
    simp only [userModeAdd, List.map_cons]
    rw [if_pos (by simp)]
    congr 2
    conv => rhs; rw [← List.map_id L]
    refine List.map_congr_left (fun k hk => ?_)
    rw [if_neg (fun h => hL k hk h.1 h.2)]
    rfl

/-- The state with one more member. -/
def plusMember (u : Srv) (r ch : Nat) (M : Str) : Srv := { u with cl2 := ⟨r, ch, M⟩ :: u.cl2 }

theorem plus_base (hb : Base u) (hc : c ∈ u.chans) (hx : x ∈ u.clients) (hno : ¬ OnChannel u c.ref x.ref) (M : Str) : Base (plusMember u x.ref c.ref M) := by
  have hi := hb.ch.join c.ref x.ref ⟨c, hc, rfl⟩ (isMemberOf_false.2 (fun m hm h1 h2 => hno ⟨m, hm, h1, h2⟩)) (hb.cl.lt x hx)
  refine ⟨hb.cl.of_eq rfl rfl rfl (Nat.le_refl _) rfl, hi.ord, hi.lt, hi.pairs, ?_, ?_⟩
  · intro m hm
    rcases List.mem_cons.1 hm with rfl | hm
    · exact ⟨c, hc, rfl⟩
    · exact hb.ch.chan m hm
  · intro m hm
    rcases List.mem_cons.1 hm with rfl | hm
    · exact hb.cl.lt x hx
    · exact hb.ch.clt m hm

theorem plus_listens (hb : Base u) (hx : x ∈ u.clients) (hxc : x.conn = none) (ch : Nat) (M : Str) (j : Nat) : Listens (plusMember u x.ref ch M) ch j ↔ Listens u ch j := by
  constructor
  · rintro ⟨d, hd, h1, h2, ⟨m, hm, h3, h4⟩⟩
    rcases List.mem_cons.1 hm with rfl | hm
    · have : d = x := hb.cl.ord.eq_of_ref hd hx h4.symm
      rw [this, hxc] at h1
      cases h1
    · exact ⟨d, hd, h1, h2, m, hm, h3, h4⟩
  · rintro ⟨d, hd, h1, h2, ⟨m, hm, h3, h4⟩⟩
    exact ⟨d, hd, h1, h2, m, List.mem_cons_of_mem _ hm, h3, h4⟩

theorem local_listens (hb : Base v) (hcl : v.cl cl ∈ v.clients) (hcr : (v.cl cl).ref = cl) (hs : (v.cl cl).type = .server) (ch j : Nat) :
    LocalMember v cl ch j ↔ Listens v ch j := by
  constructor
  · rintro ⟨d, hd, -, h1, h2, h3⟩; exact ⟨d, hd, h1, h2, h3⟩
  · rintro ⟨d, hd, h1, h2, h3⟩
    refine ⟨d, hd, ?_, h1, h2, h3⟩
    intro e
    have : d = v.cl cl := hb.cl.ord.eq_of_ref hd hcl (e.trans hcr.symm)
    rw [this] at h2
    exact h2 hs

/-- One client of the list. -/
theorem njoin_one (hb : Base u) (hcl : u.cl cl ∈ u.clients) (hcr : (u.cl cl).ref = cl) (hs : (u.cl cl).type = .server) {name tok out : Str}
    (hv : isValidChanName name = true) (hcs : channelSearch u name = some c) (hxs : clientSearch u (tok.dropWhile rankSign) = some x) (hxc : x.conn = none)
    (hno : ¬ OnChannel u c.ref x.ref) :
    ∃ o, njoinOne u cl name tok out = ({ plusMember u x.ref c.ref (signRanks (tok.takeWhile rankSign)) with out := o ++ u.out },
        njoinEntry out (tok.takeWhile rankSign) (tok.dropWhile rankSign)) ∧
      (∀ j, Listens u c.ref j → (onConn o j).reverse = njoinTells u (u.cl cl) name j (x, signRanks (tok.takeWhile rankSign), signText (tok.takeWhile rankSign) ++ tok.dropWhile rankSign)) ∧
      (∀ y ∈ o, Listens u c.ref y.conn) := by
  have hcm := channelSearch_mem hcs
  have hxm := clientSearch_mem hxs
  obtain ⟨R, hR⟩ : ∃ R, R = signRanks (tok.takeWhile rankSign) := ⟨_, rfl⟩
  obtain ⟨m1, m2, m3⟩ := njoinModes_eq (tok.takeWhile rankSign)
  rw [← hR] at m1 m2 m3
  obtain ⟨W, hW⟩ : ∃ W, W = plusMember u x.ref c.ref R := ⟨_, rfl⟩
  have hbW : Base W := by rw [hW]; exact plus_base hb hcm hxm hno R
  have hWl : ∀ j, Listens W c.ref j ↔ Listens u c.ref j := by rw [hW]; exact plus_listens hb hxm hxc _ _
  have hWc : ∀ r, W.cl r = u.cl r := by rw [hW]; exact fun _ => rfl
  have hlm : ∀ j, LocalMember W cl c.ref j ↔ Listens u c.ref j := fun j =>
    (local_listens hbW (by rw [hWc, hW]; exact hcl) (by rw [hWc]; exact hcr) (by rw [hWc]; exact hs) c.ref j).trans (hWl j)
  obtain ⟨o1, p1, p2, p3⟩ := channel_spec hbW cl c.ref x ⟨"JOIN", [name]⟩
  obtain ⟨o2, q1, q2, q3⟩ := channel_spec hbW cl c.ref (u.cl cl) ⟨"MODE", [name, '+' :: R, x.ID]⟩
  have hmask : ∀ d, maskCloaked W d = maskCloaked u d := by rw [hW]; exact fun _ => rfl
  have hmem : isMemberOf u c.ref x.ref = false := isMemberOf_false.2 (fun m hm h1 h2 => hno ⟨m, hm, h1, h2⟩)
  have hj : channelJoin u x name = (addClient u c.ref x.ref, true) := by
    unfold channelJoin
    rw [if_neg (by rw [hv]; decide), hcs]
    simp only
    rw [hmem]
    rfl
  have hfold : (njoinModes (tok.takeWhile rankSign)).foldl (fun s m => (userModeAdd s c.ref x.ref m).1) (addClient u c.ref x.ref) = W := by
    rw [m1]
    have := fold_rank (ch := c.ref) (r := x.ref) (L := u.cl2) (fun m hm h1 h2 => hno ⟨m, hm, h1, h2⟩) R [] u
    rw [m2] at this
    rw [hW]
    exact this
  have hum : ∀ T : Srv, T.cl2 = W.cl2 → strlcpy 8 (userModes T c.ref x.ref) = R := by
    intro T hT
    have : userModes T c.ref x.ref = R := by
      simp only [userModes, getCl2Chan, hT, hW, plusMember, List.find?_cons]
      simp
    rw [this, m3]
  have key : njoinOne u cl name tok out =
      ((if R.isEmpty then writeChannelPrefix W cl c.ref x false ⟨"JOIN", [name]⟩ else
        writeChannelPrefix (writeChannelPrefix W cl c.ref x false ⟨"JOIN", [name]⟩) cl c.ref (u.cl cl) false ⟨"MODE", [name, '+' :: R, x.ID]⟩),
        njoinEntry out (tok.takeWhile rankSign) (tok.dropWhile rankSign)) := by
    unfold njoinOne
    have e1 : clientSearch u (tok.dropWhile isNjoinPrefix) = some x := hxs
    simp only
    rw [e1]
    simp only
    rw [hj]
    simp only
    have e2 : channelSearch (addClient u c.ref x.ref) name = some c := hcs
    rw [e2]
    simp only
    rw [hxc]
    have e3 : (njoinModes (tok.takeWhile isNjoinPrefix)).foldl (fun s m => (userModeAdd s c.ref x.ref m).1) (addClient u c.ref x.ref) = W := hfold
    rw [e3]
    have e4 : (if (none : Option Nat).isSome = true then sendChannelInfo (writeChannelPrefix W cl c.ref x false ⟨"JOIN", [name]⟩) x
        ((writeChannelPrefix W cl c.ref x false ⟨"JOIN", [name]⟩).chan c.ref) else writeChannelPrefix W cl c.ref x false ⟨"JOIN", [name]⟩) =
        writeChannelPrefix W cl c.ref x false ⟨"JOIN", [name]⟩ := if_neg (by decide)
    rw [e4, hum _ (by rw [p1 W ⟨rfl, rfl, rfl, rfl, rfl⟩])]
    have e5 : (writeChannelPrefix W cl c.ref x false ⟨"JOIN", [name]⟩).cl cl = u.cl cl := by
      rw [p1 W ⟨rfl, rfl, rfl, rfl, rfl⟩]
      exact hWc cl
    rw [e5]
    rfl
  have e1 := p1 W ⟨rfl, rfl, rfl, rfl, rfl⟩
  by_cases hRe : R = []
  · refine ⟨o1, ?_, fun j hj => ?_, fun y hy => (hlm _).1 (p3 y hy)⟩
    · rw [key, hRe, if_pos (show ([] : Str).isEmpty = true from rfl), e1, hW, hRe, ← hR, hRe]
      rfl
    · rw [p2 j ((hlm j).2 hj), njoinTells, hmask, ← hR, if_pos hRe]
      rfl
  · refine ⟨o2 ++ o1, ?_, fun j hj => ?_, fun y hy => (hlm _).1 ((List.mem_append.1 hy).elim (q3 y) (p3 y))⟩
    · have e2 := q1 { W with out := o1 ++ W.out } ⟨rfl, rfl, rfl, rfl, rfl⟩
      rw [key, if_neg (by simpa using hRe), e1, e2, hW, ← hR]
      simp only [List.append_assoc]
      rfl
    · rw [onConn_append, List.reverse_append, p2 j ((hlm j).2 hj), q2 j ((hlm j).2 hj), njoinTells, hmask, hmask, ← hR, if_neg hRe]
      rfl
/-- The clients found for a list of words. -/
def njoinFound (u : Srv) (toks : List Str) : List (Client × Str × Str) :=
  toks.filterMap (fun w => (clientSearch u (w.dropWhile rankSign)).map (fun c =>
    (c, signRanks (w.takeWhile rankSign), signText (w.takeWhile rankSign) ++ w.dropWhile rankSign)))

/-- The text of the forwarded list. -/
def entryText (out : Str) (e : Str) : Str := if out = [] then e else out ++ ',' :: e

theorem signText_len (w : Str) : (signText w).length ≤ w.length := by
  have h : ((signText w).map Char.toNat).length ≤ (w.map Char.toNat).length := by
    refine mem_len_le ?_ ?_
    · rw [List.Nodup, List.pairwise_map]
      refine List.Pairwise.filter _ ?_
      decide
    · intro a ha
      obtain ⟨b, hb, rfl⟩ := List.mem_map.1 ha
      exact List.mem_map.2 ⟨b, of_decide_eq_true (List.mem_filter.1 hb).2, rfl⟩
  simpa using h

theorem njoinEntry_eq {out w n : Str} (h : (if out = [] then 0 else out.length + 1) + w.length + n.length < COMMAND_LEN) :
    njoinEntry out w n = entryText out (signText w ++ n) := by
  have hst := signText_len w
  have hadd : ∀ (cs o : Str), o.length + (cs.filter (fun x => decide (x ∈ w))).length < COMMAND_LEN →
      cs.foldl (fun o c => if hasChar w c then strlcat COMMAND_LEN o [c] else o) o = o ++ cs.filter (fun x => decide (x ∈ w)) := by
    intro cs
    induction cs with
    | nil => intro o _; simp
    | cons c cs ih =>
      intro o ho
      rw [List.foldl_cons]
      by_cases hc : c ∈ w
      · rw [List.filter_cons_of_pos (by simpa using hc)] at ho ⊢
        rw [if_pos (by simpa [hasChar] using hc), strlcat_fits (by simp at ho ⊢; omega), ih _ (by simp at ho ⊢; omega)]
        simp
      · rw [List.filter_cons_of_neg (by simpa using hc)] at ho ⊢
        rw [if_neg (by simpa [hasChar] using hc)]
        exact ih _ ho
  obtain ⟨o1, ho1⟩ : ∃ o1 : Str, o1 = if out = [] then [] else out ++ [','] := ⟨_, rfl⟩
  have hl1 : o1.length = if out = [] then 0 else out.length + 1 := by
    rw [ho1]
    split <;> simp
  have e1 : (if out.isEmpty then out else strlcat COMMAND_LEN out [',']) = o1 := by
    rw [ho1]
    by_cases he : out = []
    · rw [if_pos he, he]; rfl
    · rw [if_neg he, if_neg (by simpa using he)]
      rw [if_neg he] at h
      exact strlcat_fits (by simp; omega)
  rw [← hl1] at h
  unfold njoinEntry
  simp only
  rw [e1, hadd "~&@%+".toList o1 (by show o1.length + (signText w).length < _; omega)]
  rw [strlcat_fits (by rw [List.length_append]; show o1.length + (signText w).length + n.length < _; omega), ho1, entryText]
  split
  · rfl
  · simp [signText]

theorem njoin_loop (name : Str) (hv : isValidChanName name = true) : ∀ (toks : List Str) (u : Srv) (out : Str), Base u → u.cl cl ∈ u.clients → (u.cl cl).ref = cl → (u.cl cl).type = .server →
    channelSearch u name = some c → (∀ e ∈ njoinFound u toks, e.1.conn = none ∧ ¬ OnChannel u c.ref e.1.ref) → ((njoinFound u toks).map (fun e => e.1.ref)).Nodup →
    (if out = [] then 0 else out.length + 1) + (toks.map (fun t => t.length + 1)).sum ≤ COMMAND_LEN → (∀ t ∈ toks, t ≠ []) →
    ∃ o, njoinLoop cl name toks u out = ({ withMembers u c.ref (njoinFound u toks) with out := o ++ u.out }, ((njoinFound u toks).map (·.2.2)).foldl entryText out) ∧
      (∀ j, Listens u c.ref j → (onConn o j).reverse = (njoinFound u toks).flatMap (njoinTells u (u.cl cl) name j)) ∧
      (∀ y ∈ o, njoinFound u toks ≠ [] ∧ Listens u c.ref y.conn) := by
  intro toks
  induction toks with
  | nil =>
    intro u out _ _ _ _ _ _ _ _ _
    exact ⟨[], rfl, fun _ _ => rfl, fun _ h => (by cases h)⟩
  | cons w toks ih =>
    intro u out hb hcl hcr hs hcs hok hnd hlen hne
    have hlen' : (if out = [] then 0 else out.length + 1) + (w.length + 1 + (toks.map (fun t => t.length + 1)).sum) ≤ COMMAND_LEN := by
      simpa using hlen
    have hw : w.length = (w.takeWhile rankSign).length + (w.dropWhile rankSign).length := by
      conv => lhs; rw [← List.takeWhile_append_dropWhile (p := rankSign) (l := w)]
      rw [List.length_append]
    cases hx : clientSearch u (w.dropWhile rankSign) with
    | none =>
      have e : njoinFound u (w :: toks) = njoinFound u toks := by
        simp only [njoinFound]
        rw [List.filterMap_cons_none (by rw [hx]; rfl)]
      rw [e] at hok hnd ⊢
      obtain ⟨o, h1, h2, h3⟩ := ih u out hb hcl hcr hs hcs hok hnd (by omega) (fun t ht => hne t (List.mem_cons_of_mem _ ht))
      refine ⟨o, ?_, h2, h3⟩
      rw [njoinLoop]
      have : njoinOne u cl name w out = (u, out) := by
        unfold njoinOne
        have e1 : clientSearch u (w.dropWhile isNjoinPrefix) = none := hx
        simp only
        rw [e1]
      simp only
      rw [this]
      exact h1
    | some x =>
      obtain ⟨R, hR⟩ : ∃ R, R = signRanks (w.takeWhile rankSign) := ⟨_, rfl⟩
      obtain ⟨E, hE⟩ : ∃ E, E = (x, R, signText (w.takeWhile rankSign) ++ w.dropWhile rankSign) := ⟨_, rfl⟩
      have e : njoinFound u (w :: toks) = E :: njoinFound u toks := by
        simp only [njoinFound]
        rw [List.filterMap_cons_some (by rw [hx]; rfl), hE, hR]
      rw [e] at hok hnd ⊢
      have hxm := clientSearch_mem hx
      obtain ⟨x1, x2⟩ := hok E (List.mem_cons_self ..)
      have hEx : E.1 = x := by rw [hE]
      rw [hEx] at x1 x2
      rw [List.map_cons, List.nodup_cons, hEx] at hnd
      obtain ⟨o1, h1, h2, h3⟩ := njoin_one (tok := w) (out := out) hb hcl hcr hs hv hcs hx x1 x2
      have hcm := channelSearch_mem hcs
      obtain ⟨W, hW⟩ : ∃ W, W = { plusMember u x.ref c.ref R with out := o1 ++ u.out } := ⟨_, rfl⟩
      rw [← hR, ← hW] at h1
      have hbW : Base W := by
        rw [hW]
        exact Base.of_core (s := plusMember u x.ref c.ref R) rfl (plus_base hb hcm hxm x2 R)
      have hWf : njoinFound W toks = njoinFound u toks := by rw [hW]; rfl
      have hlis : ∀ j, Listens W c.ref j ↔ Listens u c.ref j := by
        intro j
        rw [← plus_listens hb hxm x1 c.ref R j, hW]
        exact Iff.rfl
      have htx : njoinEntry out (w.takeWhile rankSign) (w.dropWhile rankSign) = entryText out E.2.2 := by
        rw [njoinEntry_eq (by omega), hE]
      have hst := signText_len (w.takeWhile rankSign)
      have hwne := hne w (List.mem_cons_self ..)
      obtain ⟨o, k1, k2, k3⟩ := ih W (entryText out E.2.2) hbW (by rw [hW]; exact hcl) (by rw [hW]; exact hcr) (by rw [hW]; exact hs) (by rw [hW]; exact hcs)
        (by
          rw [hWf]
          intro e he
          refine ⟨(hok e (List.mem_cons_of_mem _ he)).1, ?_⟩
          rintro ⟨m, hm, m1, m2⟩
          rw [hW] at hm
          rcases List.mem_cons.1 hm with rfl | hm
          · exact hnd.1 (List.mem_map.2 ⟨e, he, m2.symm⟩)
          · exact (hok e (List.mem_cons_of_mem _ he)).2 ⟨m, hm, m1, m2⟩)
        (by rw [hWf]; exact hnd.2)
        (by
          have : (entryText out E.2.2).length + 1 ≤ (if out = [] then 0 else out.length + 1) + (w.length + 1) := by
            rw [hE, entryText]
            split <;> simp only [List.length_append, List.length_cons] <;> omega
          split <;> omega)
        (fun t ht => hne t (List.mem_cons_of_mem _ ht))
      rw [hWf] at k1 k2 k3
      refine ⟨o ++ o1, ?_, fun j hj => ?_, fun y hy => ⟨List.cons_ne_nil _ _, ?_⟩⟩
      · rw [njoinLoop]
        simp only
        rw [h1, htx]
        simp only
        rw [k1, List.map_cons, List.foldl_cons, hW, hE]
        simp only [withMembers, plusMember, List.append_assoc, List.map_cons, List.reverse_cons, List.singleton_append]
      · rw [onConn_append, List.reverse_append, h2 j hj, k2 j ((hlis j).2 hj), List.flatMap_cons, hE, hR, hW]
        rfl
      · rcases List.mem_append.1 hy with h | h
        · exact (hlis _).1 (k3 y h).2
        · exact h3 y h
theorem pieces_sum (a : Str) : ((pieces a).map (fun t => t.length + 1)).sum = a.length + 1 := by
  induction a with
  | nil => rfl
  | cons c cs ih =>
    rw [pieces]
    split
    · rw [List.map_cons, List.sum_cons, ih, List.length_cons]
      simp only [List.length_nil]
      omega
    · split
      · rename_i h
        rw [h] at ih
        simp at ih
      · rename_i w ws h
        rw [h, List.map_cons, List.sum_cons] at ih
        rw [List.map_cons, List.sum_cons, List.length_cons, List.length_cons]
        omega

theorem items_sum (a : Str) : ((items a).map (fun t => t.length + 1)).sum ≤ a.length + 1 := by
  rw [← pieces_sum a, items]
  generalize pieces a = ps
  induction ps with
  | nil => exact Nat.le_refl _
  | cons p ps ih =>
    rw [List.filter_cons]
    split
    · rw [List.map_cons, List.sum_cons, List.map_cons, List.sum_cons]; omega
    · rw [List.map_cons, List.sum_cons]; omega

theorem items_ne_nil {a t : Str} (h : t ∈ items a) : t ≠ [] := by
  rintro rfl
  exact absurd (List.mem_filter.1 h).2 (by decide)

theorem entry_intercalate : ∀ (l : List Str), (∀ t ∈ l, t ≠ []) → l.foldl entryText [] = [','].intercalate l := by
  have hgo : ∀ (l : List Str) (a : Str), a ≠ [] → l.foldl entryText a = [','].intercalate (a :: l) := by
    intro l
    induction l with
    | nil => intro a _; simp [List.intercalate]
    | cons b l ih =>
      intro a ha
      rw [List.foldl_cons, entryText, if_neg ha, ih _ (by simp)]
      simp [List.intercalate, List.intersperse]
      cases l <;> simp [List.intersperse]
  intro l hl
  cases l with
  | nil => rfl
  | cons a l =>
    rw [List.foldl_cons]
    have : entryText [] a = a := if_pos rfl
    rw [this]
    exact hgo l a (hl a (List.mem_cons_self ..))

theorem members_line (u : Srv) {t : Srv} (h1 : t.clients = u.clients) (h2 : t.conf = u.conf) (h3 : t.this = u.this) {p : Client} {m : Msg} (d : Client) :
    lineTo t d p m = lineTo u d p m := by
  have hcl : ∀ r, t.cl r = u.cl r := fun r => cl_congr h1 r
  have hhop : ∀ k x, nextHopF k t x = nextHopF k u x := by
    intro k
    induction k with
    | zero => intro x; rfl
    | succ k ih => intro x; simp only [nextHopF, h3, hcl, ih]
  have hmask : maskCloaked t p = maskCloaked u p := by simp only [maskCloaked, displayedHost, genCloak, h2, hcl]
  simp only [lineTo, nextHop, h1, hhop, getPrefix, hmask]
  rfl

theorem found_named (h : PoliteRun s) {u : Srv} (hu : u.clients = s.clients) (list : Str) : njoinFound u (items list) = njoinNamed s list ∧ ∀ e ∈ njoinNamed s list, e.2.2 ≠ [] := by
  have e : ∀ n, clientSearch u n = clientNamed s n := by
    intro n
    rw [← clientNamed_eq h, clientSearch, clientSearch, hu]
  refine ⟨?_, ?_⟩
  · simp only [njoinFound, njoinNamed, e]
  · intro x hx
    obtain ⟨w, hw, he⟩ := List.mem_filterMap.1 hx
    obtain ⟨d, hd, rfl⟩ := Option.map_eq_some_iff.1 he
    intro hnil
    have hn : w.dropWhile rankSign = [] := (List.append_eq_nil_iff.1 hnil).2
    rw [hn] at hd
    have h2 := List.find?_some hd
    simp only [Bool.and_eq_true, decide_eq_true_eq] at h2
    exact h2.1 (by
      have := h2.2
      rw [sameCase_iff] at this
      have e2 : lowerStr (nickPart []) = [] := rfl
      rw [e2] at this
      exact List.map_eq_nil_iff.1 this)
/-- NJOIN for a channel of `u`. -/
theorem njoin_run (h : PoliteRun s) {u : Srv} (hu : u.clients = s.clients) (hb : Base u) (hcl : u.cl cl ∈ u.clients) (hcr : (u.cl cl).ref = cl) (hci : (u.cl cl).conn = some i)
    (hs : (u.cl cl).type = .server) {n list : Str} (hv : isValidChanName n = true) (hcs : channelSearch u n = some c) (hlen : list.length < COMMAND_LEN)
    (hok : ∀ e ∈ njoinNamed s list, e.1.conn = none ∧ ¬ OnChannel u c.ref e.1.ref) (hnd : ((njoinNamed s list).map (fun e => e.1.ref)).Nodup) (hargs : req.argv = [n, list]) :
    ∃ o, (ircNJOIN u cl req).1 = { withMembers u c.ref (njoinNamed s list) with out := o ++ u.out } ∧ NjoinTold u i (u.cl cl) n c.ref (njoinNamed s list) o := by
  have ha0 : req.arg 0 = n := by rw [Request.arg, hargs]; rfl
  have ha1 : req.arg 1 = list := by rw [Request.arg, hargs]; rfl
  obtain ⟨f1, f2⟩ := found_named h hu list
  have hst : strtok (strlcpy COMMAND_LEN list) [','] = items list := by
    rw [strtok_items, strlcpy, List.take_of_length_le (by omega)]
  have hsum := items_sum list
  obtain ⟨o, k1, k2, k3⟩ := njoin_loop (cl := cl) (c := c) n hv (items list) u [] hb hcl hcr hs hcs (by rw [f1]; exact hok) (by rw [f1]; exact hnd)
    (by rw [if_pos rfl]; omega) (fun t ht => items_ne_nil ht)
  rw [f1] at k1 k2 k3
  rw [entry_intercalate _ (fun t ht => by obtain ⟨e, he, rfl⟩ := List.mem_map.1 ht; exact f2 e he)] at k1
  have hdis : ∀ j, Listens u c.ref j → ¬ isLink u j = true := by
    rintro j ⟨d, hd, h1, h2, -⟩ hj
    rw [isLink_iff hb hd h1, decide_eq_true_eq] at hj
    exact h2 hj
  have hnil : ∀ {o : List Sent} {j : Nat}, (∀ y ∈ o, y.conn ≠ j) → onConn o j = [] := by
    intro o j h
    rw [onConn, List.filter_eq_nil_iff]
    intro y hy he
    exact h y hy (by simpa using he)
  have hrun : (ircNJOIN u cl req).1 = if ([','].intercalate ((njoinNamed s list).map (·.2.2))).isEmpty then { withMembers u c.ref (njoinNamed s list) with out := o ++ u.out }
      else writeServers { withMembers u c.ref (njoinNamed s list) with out := o ++ u.out } (some cl) (u.cl u.this)
        ⟨"NJOIN", [n, [','].intercalate ((njoinNamed s list).map (·.2.2))]⟩ := by
    unfold ircNJOIN
    rw [ha0, ha1, hst, k1]
    rfl
  cases hnew : njoinNamed s list with
  | nil =>
    rw [hnew] at hrun k3
    have ho : o = [] := by
      cases o with
      | nil => rfl
      | cons y o => exact absurd rfl (k3 y (List.mem_cons_self ..)).1
    subst ho
    refine ⟨[], hrun.trans (if_pos rfl), ⟨fun j _ => rfl, fun j _ _ => ?_, fun y hy => (by cases hy)⟩⟩
    rw [if_pos rfl]
    rfl
  | cons E rest =>
    rw [hnew] at hrun k2 k3
    obtain ⟨T, hT⟩ : ∃ T, T = [','].intercalate ((E :: rest).map (·.2.2)) := ⟨_, rfl⟩
    have hTne : T ≠ [] := by
      have hE := f2 E (by rw [hnew]; exact List.mem_cons_self ..)
      intro h0
      rw [hT, List.map_cons] at h0
      have : E.2.2 <+: [','].intercalate (E.2.2 :: rest.map (·.2.2)) := by
        cases rest with
        | nil => simp [List.intercalate]
        | cons b l => exact ⟨[','] ++ [','].intercalate (b.2.2 :: l.map (·.2.2)), by simp [List.intercalate, List.intersperse]⟩
      rw [h0] at this
      exact hE (List.prefix_nil.1 this)
    rw [← hT, if_neg (by simpa using hTne)] at hrun
    obtain ⟨of, q1, q2, q3⟩ := servers_spec (v := u) hb (some cl) (u.cl u.this) ⟨"NJOIN", [n, T]⟩
    have hws : writeServers { withMembers u c.ref (E :: rest) with out := o ++ u.out } (some cl) (u.cl u.this) ⟨"NJOIN", [n, T]⟩ =
        { withMembers u c.ref (E :: rest) with out := of ++ (o ++ u.out) } := by
      have e1 : ((peerServers u (some cl) none).filterMap (fun c => lineTo u c (u.cl u.this) ⟨"NJOIN", [n, T]⟩)).reverse ++ u.out = of ++ u.out :=
        congrArg Srv.out (q1 u ⟨rfl, rfl, rfl, rfl, rfl⟩)
      have e2 := List.append_cancel_right e1
      have e3 : ∀ d, lineTo { withMembers u c.ref (E :: rest) with out := o ++ u.out } d (u.cl u.this) ⟨"NJOIN", [n, T]⟩ =
          lineTo u d (u.cl u.this) ⟨"NJOIN", [n, T]⟩ := members_line u (t := { withMembers u c.ref (E :: rest) with out := o ++ u.out }) rfl rfl rfl
      have e4 : peerServers { withMembers u c.ref (E :: rest) with out := o ++ u.out } (some cl) none = peerServers u (some cl) none := rfl
      simp only [writeServers, writeServersFlag, Srv.emits, e3, e4, e2]
    have hof : ∀ y ∈ of, y.conn ≠ i ∧ isLink u y.conn = true := by
      intro y hy
      obtain ⟨d, hd, h1, h2, h4⟩ := q3 y hy
      refine ⟨?_, isLink_mem.2 ⟨d, hd, h1, h2⟩⟩
      intro e
      rw [e] at h2
      have := conn_owner hb hd hcl h2 hci
      rw [this, hcr] at h4
      exact h4 rfl
    refine ⟨of ++ o, ?_, ⟨fun j hj => ?_, fun j hj hl => ?_, fun y hy => ⟨List.cons_ne_nil _ _, ?_⟩⟩⟩
    · rw [hrun, hws, List.append_assoc]
    · rw [onConn_append, hnil (o := of) (fun y hy e => hdis j hj (by rw [← e]; exact (hof y hy).2))]
      exact k2 j hj
    · rw [if_neg (List.cons_ne_nil _ _), onConn_append, hnil (o := o) (fun y hy e => hdis j (by rw [← e]; exact (k3 y hy).2) hl), List.append_nil, ← hT]
      obtain ⟨d, hd, h1, h2⟩ := isLink_mem.1 hl
      refine q2 j d hd h1 h2 ?_
      intro e
      injection e with e
      have : d = u.cl cl := hb.cl.ord.eq_of_ref hd hcl (e.trans hcr.symm)
      rw [this, hci] at h2
      injection h2 with h2
      exact hj h2.symm
    · rcases List.mem_append.1 hy with g | g
      · exact .inr (hof y g)
      · exact .inl (k3 y g).2

/-- **C79** A linked server tells with NJOIN who is on a channel known here: the named clients, users of other servers that are not on it yet, are on the channel now with exactly
the ranks told; nothing else has changed. The local members have been told, all other linked servers have got the list with the same clients and ranks, and nobody else has got a line. -/
theorem C79_njoin (h : PoliteRun s) (hr : Received s i l cl req) (hs : (s.cl cl).type = .server) (his : Is req "NJOIN") {n list : Str}
    (hargs : req.argv = [n, list]) (hlen : list.length < COMMAND_LEN) (hc : channelNamed s n = some c)
    (hok : ∀ e ∈ njoinNamed s list, e.1.conn = none ∧ ¬ OnChannel s c.ref e.1.ref) (hnd : ((njoinNamed s list).map (fun e => e.1.ref)).Nodup) (rnd : Int) :
    ∃ o, Emitted (withMembers s c.ref (njoinNamed s list)) (step s (.line i rnd l)) o ∧ NjoinTold s i (s.cl cl) n c.ref (njoinNamed s list) o := by
  have hb := h.reachable.base
  rw [← channelNamed_eq h] at hc
  have ha := hr.asker hb rnd
  have hcm := channelSearch_mem hc
  have hv : isValidChanName n = true := by
    have h1 := ((polite_chan h).good c hcm).1
    have h2 := ((C13_channel_lookup h n c).1 hc).2
    rw [← isValidChanName_lower, ← (sameCase_iff _ _).1 h2, isValidChanName_lower]
    exact h1
  rw [step_do hr rnd his rfl (by rw [hs]; rfl) (by simp only [Command.argcOk, Request.argc, hargs]; rfl)]
  obtain ⟨o, k1, k2⟩ := njoin_run h (u := s.roll rnd) rfl ha.base ha.mem ha.ref ha.conn hs hv hc hlen hok hnd hargs
  refine ⟨o, ⟨rnd, ?_⟩, ⟨k2.members, k2.links, k2.others⟩⟩
  show (ircNJOIN (s.roll rnd) cl req).1 = _
  rw [k1]
  rfl
/-- NJOIN for a channel that does not exist makes it, if somebody is found. -/
theorem njoin_create (hb : Base u) {n : Str} (hv : isValidChanName n = true) (hn : channelSearch u n = none) (hn' : channelSearch (channelCreate u n) n = some (newChan u n)) :
    ∀ (toks : List Str) (out : Str), njoinLoop cl n toks u out = if njoinFound u toks = [] then (u, out) else njoinLoop cl n toks (channelCreate u n) out := by
  intro toks
  induction toks with
  | nil => intro out; rfl
  | cons w toks ih =>
    intro out
    cases hx : clientSearch u (w.dropWhile rankSign) with
    | none =>
      have e : njoinFound u (w :: toks) = njoinFound u toks := by
        simp only [njoinFound]
        rw [List.filterMap_cons]
        simp only [hx, Option.map_none]
      have e1 : ∀ t : Srv, clientSearch t (w.dropWhile isNjoinPrefix) = none → njoinOne t cl n w out = (t, out) := by
        intro t ht
        unfold njoinOne
        simp only
        rw [ht]
      rw [e, njoinLoop, njoinLoop, e1 u hx, e1 (channelCreate u n) hx]
      exact ih out
    | some x =>
      have e : njoinFound u (w :: toks) ≠ [] := by
        simp only [njoinFound]
        rw [List.filterMap_cons]
        simp only [hx, Option.map_some]
        exact List.cons_ne_nil _ _
      rw [if_neg e, njoinLoop, njoinLoop]
      have hj : channelJoin u x n = channelJoin (channelCreate u n) x n := by
        unfold channelJoin
        rw [if_neg (by rw [hv]; decide), if_neg (by rw [hv]; decide), hn, hn']
        simp only
        rw [if_neg]
        · rfl
        · rw [show isMemberOf (channelCreate u n) (newChan u n).ref x.ref = false from isMemberOf_false.2 (fun m hm h1 h2 => by
            obtain ⟨d, hd, e⟩ := hb.ch.chan m hm
            have := hb.ch.lt d hd
            have e2 : (newChan u n).ref = u.nextRef := rfl
            omega)]
          decide
      have : njoinOne u cl n w out = njoinOne (channelCreate u n) cl n w out := by
        unfold njoinOne
        simp only
        rw [show clientSearch u (w.dropWhile isNjoinPrefix) = some x from hx, show clientSearch (channelCreate u n) (w.dropWhile isNjoinPrefix) = some x from hx]
        simp only
        rw [hj]
      rw [this]

theorem create_search {n : Str} (hl : n.length ≤ 50) : channelSearch (channelCreate u n) n = some (newChan u n) := by
  have e : strlcpy CHANNEL_NAME_LEN n = n := by rw [strlcpy, List.take_of_length_le (by simp only [CHANNEL_NAME_LEN]; omega)]
  have e1 : (newChan u n).name = n := e
  have e2 : (newChan u n).hash = Hash n := congrArg Hash e
  unfold channelSearch channelCreate
  rw [List.find?_cons_of_pos]
  rw [e1, e2, Bool.and_eq_true]
  exact ⟨by simp, (caseEq_same _ _).2 (SameCase.refl _)⟩

/-- **C79** NJOIN for a channel nobody here knows: the channel is made, and the named clients are on it with exactly the ranks told. All other linked servers have got the list, nobody else a line. -/
theorem C79_new_channel (h : PoliteRun s) (hr : Received s i l cl req) (hs : (s.cl cl).type = .server) (his : Is req "NJOIN") {n list : Str}
    (hargs : req.argv = [n, list]) (hlen : list.length < COMMAND_LEN) (hv : isValidChanName n = true) (hc : channelNamed s n = none)
    (hok : ∀ e ∈ njoinNamed s list, e.1.conn = none) (hne : njoinNamed s list ≠ []) (hnd : ((njoinNamed s list).map (fun e => e.1.ref)).Nodup) (rnd : Int) :
    ∃ o, Emitted (withMembers (withNewChannel s (emptyChannel s n)) s.nextRef (njoinNamed s list)) (step s (.line i rnd l)) o ∧
      (∀ j, j ≠ i → isLink s j = true → onConn o j = [⟨j, some (s.cl s.this).ID, ⟨"NJOIN", [n, [','].intercalate ((njoinNamed s list).map (·.2.2))]⟩⟩]) ∧
      ∀ y ∈ o, y.conn ≠ i ∧ isLink s y.conn = true := by
  have hb := h.reachable.base
  rw [← channelNamed_eq h] at hc
  have ha := hr.asker hb rnd
  have hnl : ∀ r, ¬ OnChannel s s.nextRef r := by
    rintro r ⟨m, hm, h1, h2⟩
    obtain ⟨d, hd, e⟩ := hb.ch.chan m hm
    have := hb.ch.lt d hd
    omega
  have hl : n.length ≤ 50 := by
    unfold isValidChanName at hv
    simp only [Bool.and_eq_true, decide_eq_true_eq] at hv
    exact Nat.le_of_lt_succ hv.1.2
  have hs' := create_search (u := s.roll rnd) hl
  have hbr : Base (channelCreate (s.roll rnd) n) := ⟨ha.base.cl.of_eq rfl rfl rfl (Nat.le_succ _) rfl, ha.base.ch.create n⟩
  rw [step_do hr rnd his rfl (by rw [hs]; rfl) (by simp only [Command.argcOk, Request.argc, hargs]; rfl)]
  obtain ⟨o, k1, k2⟩ := njoin_run h (u := channelCreate (s.roll rnd) n) (c := newChan (s.roll rnd) n) rfl hbr ha.mem ha.ref ha.conn hs hv hs' hlen
    (fun e he => ⟨hok e he, hnl _⟩) hnd hargs
  have hrun : ircNJOIN (s.roll rnd) cl req = ircNJOIN (channelCreate (s.roll rnd) n) cl req := by
    have ha0 : req.arg 0 = n := by rw [Request.arg, hargs]; rfl
    have ha1 : req.arg 1 = list := by rw [Request.arg, hargs]; rfl
    have hst : strtok (strlcpy COMMAND_LEN list) [','] = items list := by
      rw [strtok_items, strlcpy, List.take_of_length_le (by omega)]
    unfold ircNJOIN
    rw [ha0, ha1, hst, njoin_create ha.base hv hc hs', if_neg]
    rw [(found_named h (u := s.roll rnd) rfl list).1]
    exact hne
  refine ⟨o, ⟨rnd, ?_⟩, fun j hj hl => ?_, fun y hy => ?_⟩
  · show (ircNJOIN (s.roll rnd) cl req).1 = _
    rw [hrun, k1]
    rfl
  · have := k2.links j hj hl
    rw [if_neg hne] at this
    exact this
  · rcases (k2.others y hy).2 with ⟨d, hd, -, -, g⟩ | g
    · exact absurd g (hnl _)
    · exact g

/-- **C79** An NJOIN that names nobody known here changes nothing, and nobody gets a line. -/
theorem C79_nobody (h : PoliteRun s) (hr : Received s i l cl req) (hs : (s.cl cl).type = .server) (his : Is req "NJOIN") {n list : Str}
    (hargs : req.argv = [n, list]) (hlen : list.length < COMMAND_LEN) (hno : njoinNamed s list = []) (rnd : Int) : Emitted s (step s (.line i rnd l)) [] := by
  rw [step_do hr rnd his rfl (by rw [hs]; rfl) (by simp only [Command.argcOk, Request.argc, hargs]; rfl)]
  have ha0 : req.arg 0 = n := by rw [Request.arg, hargs]; rfl
  have ha1 : req.arg 1 = list := by rw [Request.arg, hargs]; rfl
  have hst : strtok (strlcpy COMMAND_LEN list) [','] = items list := by
    rw [strtok_items, strlcpy, List.take_of_length_le (by omega)]
  have key : ∀ toks : List Str, njoinFound (s.roll rnd) toks = [] → njoinLoop cl n toks (s.roll rnd) [] = (s.roll rnd, []) := by
    intro toks
    induction toks with
    | nil => intro _; rfl
    | cons w toks ih =>
      intro hf
      cases hx : clientSearch (s.roll rnd) (w.dropWhile rankSign) with
      | none =>
        have e : njoinFound (s.roll rnd) (w :: toks) = njoinFound (s.roll rnd) toks := by
          simp only [njoinFound]
          rw [List.filterMap_cons]
          simp only [hx, Option.map_none]
        have e1 : njoinOne (s.roll rnd) cl n w [] = (s.roll rnd, []) := by
          unfold njoinOne
          simp only
          rw [show clientSearch (s.roll rnd) (w.dropWhile isNjoinPrefix) = none from hx]
        rw [njoinLoop, e1]
        exact ih (by rw [← e]; exact hf)
      | some x =>
        simp only [njoinFound] at hf
        rw [List.filterMap_cons] at hf
        simp only [hx, Option.map_some] at hf
        cases hf
  have k := key (items list) (by rw [(found_named h (u := s.roll rnd) rfl list).1]; exact hno)
  refine ⟨rnd, ?_⟩
  show (ircNJOIN (s.roll rnd) cl req).1 = _
  unfold ircNJOIN
  rw [ha0, ha1, hst, k]
  rfl
set_option synthInstance.maxSize 1000 in
set_option synthInstance.maxHeartbeats 400000 in
theorem Sample.njoin_facts :
    recv Sample.net 7 ":peer.example.net NJOIN #c :@yan,nobody".toList = some (6, ⟨some "peer.example.net".toList, "NJOIN".toList, ["#c".toList, "@yan,nobody".toList]⟩) ∧
    recv Sample.net 7 ":peer.example.net NJOIN #new :@+zed,yan".toList = some (6, ⟨some "peer.example.net".toList, "NJOIN".toList, ["#new".toList, "@+zed,yan".toList]⟩) ∧
    recv Sample.net 7 ":peer.example.net NJOIN #c :@nobody".toList = some (6, ⟨some "peer.example.net".toList, "NJOIN".toList, ["#c".toList, "@nobody".toList]⟩) ∧
    (Sample.net.cl 6).type = .server ∧ (channelNamed Sample.net "#c".toList).isSome = true ∧ (channelNamed Sample.net "#new".toList).isNone = true ∧
    (njoinNamed Sample.net "@yan,nobody".toList).map (fun e => (e.1.ref, e.1.conn, e.2.1, e.2.2)) = [(9, none, "o".toList, "@yan".toList)] ∧
    (njoinNamed Sample.net "@+zed,yan".toList).map (fun e => (e.1.ref, e.1.conn, e.2.1, e.2.2)) = [(7, none, "ov".toList, "@+zed".toList), (9, none, "".toList, "yan".toList)] ∧
    (njoinNamed Sample.net "@nobody".toList).isEmpty = true ∧
    (channelNamed Sample.net "#c".toList).any (fun c => !isMemberOf Sample.net c.ref 9) = true := by
  decide +kernel

theorem named_conn {e : Client × Str × Str} {new : List (Client × Str × Str)} {X : List (Nat × Option Nat × Str × Str)}
    (h : new.map (fun e => (e.1.ref, e.1.conn, e.2.1, e.2.2)) = X) (he : e ∈ new) : ∃ x ∈ X, e.1.ref = x.1 ∧ e.1.conn = x.2.1 := by
  have : (e.1.ref, e.1.conn, e.2.1, e.2.2) ∈ X := by rw [← h]; exact List.mem_map.2 ⟨e, he, rfl⟩
  exact ⟨_, this, rfl, rfl⟩

theorem named_refs {new : List (Client × Str × Str)} {X : List (Nat × Option Nat × Str × Str)}
    (h : new.map (fun e => (e.1.ref, e.1.conn, e.2.1, e.2.2)) = X) : new.map (fun e => e.1.ref) = X.map (·.1) := by
  rw [← h, List.map_map]
  rfl

/-- The peer tells that its user yan is on #c, as an operator: yan is somewhere behind the peer and not on #c. -/
example : ∃ (req : Request) (c : Chan), PoliteRun Sample.net ∧ Received Sample.net 7 ":peer.example.net NJOIN #c :@yan,nobody".toList 6 req ∧ (Sample.net.cl 6).type = .server ∧ Is req "NJOIN" ∧
    req.argv = ["#c".toList, "@yan,nobody".toList] ∧ ("@yan,nobody".toList).length < COMMAND_LEN ∧ channelNamed Sample.net "#c".toList = some c ∧
    (∀ e ∈ njoinNamed Sample.net "@yan,nobody".toList, e.1.conn = none ∧ ¬ OnChannel Sample.net c.ref e.1.ref) ∧ ((njoinNamed Sample.net "@yan,nobody".toList).map (fun e => e.1.ref)).Nodup ∧
    (njoinNamed Sample.net "@yan,nobody".toList).map (fun e => e.2) = [("o".toList, "@yan".toList)] := by
  obtain ⟨f1, -, -, f4, f5, -, f7, -, -, f10⟩ := Sample.njoin_facts
  cases hc : channelNamed Sample.net "#c".toList with
  | none => rw [hc] at f5; cases f5
  | some c =>
    rw [hc, Option.any_some] at f10
    refine ⟨_, c, Sample.polite_net, recv_sound f1, f4, by simp only [Is]; decide, rfl, by decide, rfl, fun e he => ?_, ?_, ?_⟩
    · obtain ⟨x, hx, e1, e2⟩ := named_conn f7 he
      rw [List.mem_singleton] at hx
      subst hx
      refine ⟨e2, ?_⟩
      rw [e1]
      rintro ⟨m, hm, h1, h2⟩
      have : isMemberOf Sample.net c.ref 9 = false := by simpa using f10
      exact isMemberOf_false.1 this m hm h1 h2
    · rw [named_refs f7]; decide
    · have := congrArg (List.map (fun x : Nat × Option Nat × Str × Str => x.2.2)) f7
      rw [List.map_map] at this
      exact this

/-- The peer tells who is on #new, a channel unknown here. -/
example : ∃ req : Request, PoliteRun Sample.net ∧ Received Sample.net 7 ":peer.example.net NJOIN #new :@+zed,yan".toList 6 req ∧ (Sample.net.cl 6).type = .server ∧ Is req "NJOIN" ∧
    req.argv = ["#new".toList, "@+zed,yan".toList] ∧ ("@+zed,yan".toList).length < COMMAND_LEN ∧ isValidChanName "#new".toList = true ∧ channelNamed Sample.net "#new".toList = none ∧
    (∀ e ∈ njoinNamed Sample.net "@+zed,yan".toList, e.1.conn = none) ∧ njoinNamed Sample.net "@+zed,yan".toList ≠ [] ∧ ((njoinNamed Sample.net "@+zed,yan".toList).map (fun e => e.1.ref)).Nodup := by
  obtain ⟨-, f2, -, f4, -, f6, -, f8, -, -⟩ := Sample.njoin_facts
  refine ⟨_, Sample.polite_net, recv_sound f2, f4, by simp only [Is]; decide, rfl, by decide, by decide, Option.isNone_iff_eq_none.1 f6, fun e he => ?_, ?_, ?_⟩
  · obtain ⟨x, hx, -, e2⟩ := named_conn f8 he
    simp only [List.mem_cons, List.not_mem_nil, or_false] at hx
    rcases hx with rfl | rfl <;> exact e2
  · intro h
    rw [h] at f8
    cases f8
  · rw [named_refs f8]; decide

/-- An NJOIN for nobody known. -/
example : ∃ req : Request, PoliteRun Sample.net ∧ Received Sample.net 7 ":peer.example.net NJOIN #c :@nobody".toList 6 req ∧ (Sample.net.cl 6).type = .server ∧ Is req "NJOIN" ∧
    req.argv = ["#c".toList, "@nobody".toList] ∧ ("@nobody".toList).length < COMMAND_LEN ∧ njoinNamed Sample.net "@nobody".toList = [] := by
  obtain ⟨-, -, f3, f4, -, -, -, -, f9, -⟩ := Sample.njoin_facts
  exact ⟨_, Sample.polite_net, recv_sound f3, f4, by simp only [Is]; decide, rfl, by decide, List.isEmpty_iff.1 f9⟩

end Ngircd
