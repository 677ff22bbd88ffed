import Verif.Spec.LineBan
import Verif.Props.Kill
import Verif.Props.ModeTold
import Verif.Props.NetInfo

/-!
# C81: G-lines and K-lines
-/

set_option linter.unusedSimpArgs false

namespace Ngircd
open Spec

variable {s t u v w : Srv} {i j cl : Nat} {l : Str} {req : Request} {c : Client} {k : LineClass} {L : MaskList} {reason : Str}

theorem child_lines {x : Ctx} {r : Nat} (h : Steps (ChildStep x r) s t) :
    t.glines = s.glines ∧ t.klines = s.klines ∧ t.this = s.this := by
  induction h with
  | refl h => exact ⟨core_glines h, core_klines h, core_this h⟩
  | @tail u _ a h hp hr ih =>
    obtain ⟨-, d, rfl, -⟩ := hp
    have h1 := run_lines u (a := .destroy d) (by simp)
    exact ⟨(core_glines hr).trans (h1.1.trans ih.1), (core_klines hr).trans (h1.2.trans ih.2.1),
      (core_this hr).trans ((destroySelf_fields _ d none false).2.2.2.2.1.trans ih.2.2)⟩

/-- What removing a client leaves alone. -/
structure Rest (s t : Srv) : Prop where
  conf : t.conf = s.conf
  gl : t.glines = s.glines
  kl : t.klines = s.klines
  this : t.this = s.this

theorem Rest.trans (h : Rest s t) (h' : Rest t u) : Rest s u :=
  ⟨h'.conf.trans h.conf, h'.gl.trans h.gl, h'.kl.trans h.kl, h'.this.trans h.this⟩

theorem rest_step {x : Ctx} {r : Nat} {d : Client} (h1 : Steps (ChildStep x r) s u) (h4 : t.core = ((Act.destroy d).run u).core) : Rest s t := by
  have h2 := child_lines h1
  have h3 := run_lines u (a := .destroy d) (by simp)
  exact ⟨(core_conf h4).trans ((run_conf _ (by simp)).trans (child_fixed h1).1), (core_glines h4).trans (h3.1.trans h2.1),
    (core_klines h4).trans (h3.2.trans h2.2.1), (core_this h4).trans ((destroySelf_fields _ d none false).2.2.2.2.1.trans h2.2.2)⟩

theorem rest_core (h : t.core = s.core) : Rest s t := ⟨core_conf h, core_glines h, core_klines h, core_this h⟩

/-- Killing a user keeps the invariants and the rest of the state. -/
theorem kill_rest (hb : Base s) (hm : c ∈ s.clients) (hne : c.ref ≠ s.this) (ex : Option Nat) (f : Client) (m : Msg) (reason : Str) :
    Base (match c.conn with
      | some i => connClose (writeServers s ex f m) i (some reason) true
      | none => clientDestroy (writeServers s ex f m) c.ref (some reason) false) ∧
    Rest s (match c.conn with
      | some i => connClose (writeServers s ex f m) i (some reason) true
      | none => clientDestroy (writeServers s ex f m) c.ref (some reason) false) := by
  obtain ⟨o1, ho1, -, -⟩ := servers_spec hb ex f m
  rw [ho1 s ⟨rfl, rfl, rfl, rfl, rfl⟩]
  generalize hS : ({ s with out := o1 ++ s.out } : Srv) = S
  have hSc : S.core = s.core := by rw [← hS]; rfl
  have hbS : Base S := Base.of_core (s := s) hSc hb
  have hmS : c ∈ S.clients := by rw [core_clients hSc]; exact hm
  cases hco : c.conn with
  | some i =>
    simp only
    obtain ⟨k, hk, hkc⟩ := conn?_of_mem hbS.cl hmS hco
    obtain ⟨u, h1, h2, h3, h4⟩ := connClose_steps (x := { peer := True }) hbS hk (.inl trivial) (some reason) true
    exact ⟨(Steps.connClose (x := { peer := True }) hbS (fun _ _ => .inl trivial) _ _).base hbS, (rest_core hSc).trans (rest_step h1 h4)⟩
  | none =>
    simp only
    obtain ⟨u, h1, h2, h3, h4⟩ := clientDestroy_steps (x := { peer := True }) hbS hmS (by rw [core_this hSc]; exact hne) hco (.inl trivial) (some reason) false
    exact ⟨(Steps.tail _ (h1.mono (fun _ _ h => h.1)) h3 h4).base hbS, (rest_core hSc).trans (rest_step h1 h4)⟩

/-! ## The sweep -/

/-- What is known of the state in which the sweep begins. -/
structure Field (v : Srv) (cl : Nat) (k : LineClass) (L : MaskList) : Prop where
  base : Base v
  kind : KindInv v
  name : NameInv v
  line : v.line k = L
  lasting : Lasting L
  star : ∀ d ∈ v.clients, ¬ SameCase d.id "*".toList
  safe : ¬ Hit v k L (v.cl cl)
  mem : v.cl cl ∈ v.clients
  ref : (v.cl cl).ref = cl
  ne : cl ≠ v.this

/-- The sweep after the clients in `done`. -/
structure Sweeping (v u : Srv) (k : LineClass) (L : MaskList) (reason : Str) (done : List Client) (o : List Sent) : Prop where
  base : Base u
  rest : Rest v u
  clients : ∀ d, d ∈ u.clients ↔ d ∈ v.clients ∧ ¬ (d ∈ done ∧ Hit v k L d)
  members : ∀ ch r, OnChannel u ch r ↔ OnChannel v ch r ∧ ¬ ∃ d ∈ done, d.ref = r ∧ Hit v k L d
  out : u.out = o ++ v.out
  links : ∀ d ∈ v.clients, d.type = .server → ∀ j, d.conn = some j →
    (onConn o j).filter (fun y => y.msg.cmd == "KILL") =
      ((done.filter (fun c => decide (Hit v k L c))).map
        (fun c => (⟨j, some (v.cl v.this).ID, ⟨"KILL", [c.id, reason]⟩⟩ : Sent))).reverse
  others : ∀ y ∈ o, y.msg.cmd = "KILL" → isLink v y.conn = true
  noline : ∀ y ∈ o, y.msg.cmd ≠ "GLINE"
  quits : ∀ c ∈ done, Hit v k L c → c.type = .user → c.introducer ≠ c.ref →
    ∀ d ∈ v.clients, ¬ Hit v k L d → ∀ j, d.conn = some j → Related v c.ref j →
      (⟨j, some (maskCloaked v c), ⟨"QUIT", [if v.conf.morePrivacy then [] else reason]⟩⟩ : Sent) ∈ o

theorem hit_server (h : c.type = .server) : ¬ Hit v k L c := by
  rintro ⟨h1, -⟩; rw [h] at h1; rcases h1 with h | h | h <;> cases h

section
variable {done : List Client} {o : List Sent}

/-- A client that is not removed. -/
theorem Sweeping.keep (h : Sweeping v u k L reason done o) (hd : c ∈ v.clients) (hn : ¬ Hit v k L c) : c ∈ u.clients :=
  (h.clients c).2 ⟨hd, fun hh => hn hh.2⟩

theorem Sweeping.cl_eq (h : Sweeping v u k L reason done o) (hf : Field v cl k L) (hd : c ∈ v.clients) (hn : ¬ Hit v k L c) :
    u.cl c.ref = v.cl c.ref := by
  rw [cl_of_mem h.base.cl.ord (h.keep hd hn), cl_of_mem hf.base.cl.ord hd]

theorem Sweeping.mask (h : Sweeping v u k L reason done o) (hf : Field v cl k L) (hd : c ∈ u.clients) : maskCloaked u c = maskCloaked v c := by
  have hdv := ((h.clients c).1 hd).1
  have e : u.cl c.introducer = v.cl c.introducer := by
    cases hco : c.conn with
    | none =>
      obtain ⟨p, hp, e1, e2⟩ := hf.kind.intro c hdv hco
      rw [← e1]
      exact h.cl_eq hf hp (hit_server e2)
    | some j =>
      rcases hf.base.cl.loc c hdv (by rw [hco]; rfl) with e | e
      · rw [e, cl_of_mem h.base.cl.ord hd, cl_of_mem hf.base.cl.ord hdv]
      · obtain ⟨th, hth, e1, e2, -⟩ := hf.base.cl.self
        rw [e, ← e1]
        exact h.cl_eq hf hth (hit_server e2)
  simp only [maskCloaked, displayedHost, genCloak, h.rest.conf, e]

theorem Sweeping.this_eq (h : Sweeping v u k L reason done o) (hf : Field v cl k L) : u.cl u.this = v.cl v.this := by
  obtain ⟨th, hth, e1, e2, -⟩ := hf.base.cl.self
  rw [h.rest.this, ← e1]
  exact h.cl_eq hf hth (hit_server e2)

theorem nickPart_good {n : Str} (h : GoodName n) : nickPart n = n := by
  have : strlcpy CLIENT_ID_LEN n = n := List.take_of_length_le (Nat.le_of_lt_succ h.2.2)
  rw [← nickPart_eq, this]; exact cutAt_of_not_mem h.2.1

theorem Sweeping.search (h : Sweeping v u k L reason done o) (hf : Field v cl k L) (hd : c ∈ u.clients) (hne : c.id ≠ []) :
    clientSearch u c.ID = some c := by
  have hdv := ((h.clients c).1 hd).1
  have hg : GoodName c.id := (hf.name.good c hdv).resolve_left hne
  have hID : c.ID = c.id := by rw [Client.ID, if_neg (by simpa using hne)]
  rw [hID]
  simp only [clientSearch, nickPart_eq, nickPart_good hg]
  have hh : c.hash = Hash c.id := (hf.base.cl.hash c hdv).resolve_right (fun h => hne h.1)
  cases hs : u.clients.find? (fun d => d.hash == Hash c.id && caseEq d.id c.id) with
  | none =>
    have := List.find?_eq_none.1 hs c hd
    rw [hh, caseEq_refl'] at this
    simp at this
  | some d =>
    have h1 := List.find?_some hs
    have h2 := List.mem_of_find?_eq_some hs
    simp only [Bool.and_eq_true] at h1
    have h3 := ((h.clients d).1 h2).1
    congr 1
    refine Classical.byContradiction (fun hx => ?_)
    have hp := hf.name.uniq
    have key : ∀ {l : List Client}, l.Pairwise (fun a b => a.id ≠ [] → caseEq a.id b.id = false) → ∀ a ∈ l, ∀ b ∈ l, a ≠ b → a.id ≠ [] → b.id ≠ [] →
        caseEq a.id b.id = false := by
      intro l hl
      induction hl with
      | nil => intro a ha; cases ha
      | cons hx _ ih =>
        intro a ha b hb hab h1 h2
        rcases List.mem_cons.1 ha with rfl | ha <;> rcases List.mem_cons.1 hb with rfl | hb
        · exact absurd rfl hab
        · exact hx b hb h1
        · exact caseEq_symm_false (hx a (by assumption) h2)
        · exact ih a ha b hb hab h1 h2
    have hdne : d.id ≠ [] := by
      intro he
      rw [he, caseEq_nil_left hne] at h1
      exact absurd h1.2 (by simp)
    have := key hp d h3 c hdv hx hdne hne
    rw [h1.2] at this
    cases this

theorem Sweeping.search_star (h : Sweeping v u k L reason done o) (hf : Field v cl k L) : clientSearch u "*".toList = none := by
  cases hs : clientSearch u "*".toList with
  | none => rfl
  | some d =>
    simp only [clientSearch, nickPart_eq] at hs
    have h1 := List.find?_some hs
    have h2 := List.mem_of_find?_eq_some hs
    simp only [Bool.and_eq_true] at h1
    exact absurd ((caseEq_same _ _).1 h1.2) (hf.star d ((h.clients d).1 h2).1)

/-- A client that is not removed, whatever has been sent. -/
theorem Sweeping.skip (h : Sweeping v u k L reason done o) (hn : ¬ Hit v k L c) {o' : List Sent} (hcore : t.core = u.core)
    (hout : t.out = o' ++ u.out) (ho : ∀ y ∈ o', y.msg.cmd ≠ "KILL" ∧ y.msg.cmd ≠ "GLINE") :
    Sweeping v t k L reason (done ++ [c]) (o' ++ o) where
  base := Base.of_core (s := u) hcore h.base
  rest := h.rest.trans (rest_core hcore)
  clients d := by
    rw [core_clients hcore, h.clients d]
    have : (d ∈ done ++ [c] ∧ Hit v k L d) ↔ (d ∈ done ∧ Hit v k L d) := by
      constructor
      · rintro ⟨h1, h2⟩
        rcases List.mem_append.1 h1 with h1 | h1
        · exact ⟨h1, h2⟩
        · rw [List.mem_singleton.1 h1] at h2; exact absurd h2 hn
      · rintro ⟨h1, h2⟩
        exact ⟨List.mem_append_left _ h1, h2⟩
    rw [this]
  members ch r := by
    have e : OnChannel t ch r ↔ OnChannel u ch r := by simp only [OnChannel, core_cl2 hcore]
    rw [e, h.members ch r]
    have : (∃ d ∈ done ++ [c], d.ref = r ∧ Hit v k L d) ↔ (∃ d ∈ done, d.ref = r ∧ Hit v k L d) := by
      constructor
      · rintro ⟨d, h1, h2, h3⟩
        rcases List.mem_append.1 h1 with h1 | h1
        · exact ⟨d, h1, h2, h3⟩
        · rw [List.mem_singleton.1 h1] at h3; exact absurd h3 hn
      · rintro ⟨d, h1, h2⟩
        exact ⟨d, List.mem_append_left _ h1, h2⟩
    rw [this]
  out := by rw [hout, h.out, List.append_assoc]
  links d hd hds j hj := by
    rw [onConn_append, List.filter_append, h.links d hd hds j hj, List.filter_append,
      List.filter_cons_of_neg (by simpa using hn), List.filter_nil, List.append_nil]
    have : (onConn o' j).filter (fun y => y.msg.cmd == "KILL") = [] := by
      rw [List.filter_eq_nil_iff]
      intro y hy
      simpa using (ho y (List.mem_filter.1 hy).1).1
    rw [this, List.nil_append]
  others y hy hk := by
    rcases List.mem_append.1 hy with hy | hy
    · exact absurd hk (ho y hy).1
    · exact h.others y hy hk
  noline y hy := by
    rcases List.mem_append.1 hy with hy | hy
    · exact (ho y hy).2
    · exact h.noline y hy
  quits c' hc' hh := by
    rcases List.mem_append.1 hc' with hc' | hc'
    · intro h1 h2 d hd hdn j hj hre
      exact List.mem_append_right _ (h.quits c' hc' hh h1 h2 d hd hdn j hj hre)
    · rw [List.mem_singleton.1 hc'] at hh; exact absurd hh hn

/-- A client that is removed. -/
theorem Sweeping.kill (h : Sweeping v u k L reason done o) (hf : Field v cl k L) (hc : c ∈ v.clients) (hcd : c ∉ done)
    (hdone : ∀ d ∈ done, d ∈ v.clients) (hn : Hit v k L c) :
    ∃ o', Sweeping v (killClient u (some cl) none c.ID reason).1 k L reason (done ++ [c]) o' := by
  have hcu : c ∈ u.clients := (h.clients c).2 ⟨hc, fun hh => hcd hh.1⟩
  have hID : c.ID = c.id := by rw [Client.ID, if_neg (by simpa using hn.2.1)]
  have hne : c.ref ≠ u.this := by
    intro he
    obtain ⟨th, hth, e1, e2, -⟩ := h.base.cl.self
    exact hit_server e2 (h.base.cl.ord.eq_of_ref hcu hth (he.trans e1.symm) ▸ hn)
  have hmm : ∀ m ∈ u.cl2, ∃ d ∈ u.clients, d.ref = m.client ∧ (d.type = .user ∨ d.type = .service) := by
    intro m hm
    obtain ⟨m', hm', -, em⟩ := ((h.members m.chan m.client).1 ⟨m, hm, rfl, rfl⟩).1
    obtain ⟨d, hd, e1, e2⟩ := hf.kind.members m' hm'
    rw [em] at e1
    refine ⟨d, (h.clients d).2 ⟨hd, fun hh => ?_⟩, e1, e2⟩
    have := ((h.members m.chan m.client).1 ⟨m, hm, rfl, rfl⟩).2
    exact this ⟨d, hh.1, e1, hh.2⟩
  have hT : (killClient u (some cl) none c.ID reason).1 = (match c.conn with
      | some i => connClose (writeServers u none (u.cl u.this) ⟨"KILL", [c.ID, reason]⟩) i (some reason) true
      | none => clientDestroy (writeServers u none (u.cl u.this) ⟨"KILL", [c.ID, reason]⟩) c.ref (some reason) false) := by
    rw [killClient_run (h.search hf hcu hn.2.1) hn.1]
    rfl
  have hK : Killed u (killClient u (some cl) none c.ID reason).1 c none (u.cl u.this) c.ID reason := by
    rw [hT]; exact kill_base h.base hmm hcu hn.1 u.rnd none (u.cl u.this) c.ID reason
  have hR : Base (killClient u (some cl) none c.ID reason).1 ∧ Rest u (killClient u (some cl) none c.ID reason).1 := by
    rw [hT]; exact kill_rest h.base hcu hne none (u.cl u.this) ⟨"KILL", [c.ID, reason]⟩ reason
  have hA : Adds (fun y => y.msg.cmd = "KILL" ∨ Farewell y) u (killClient u (some cl) none c.ID reason).1 := by
    rw [hT]
    have a1 : Adds (fun y => y.msg.cmd = "KILL" ∨ Farewell y) u (writeServers u none (u.cl u.this) ⟨"KILL", [c.ID, reason]⟩) :=
      (writeServers_adds _ _ _).mono (fun y hy => .inl (by rw [hy]))
    refine a1.trans ?_
    cases c.conn with
    | some i => exact (connClose_adds i _ _).mono (fun _ => .inr)
    | none => exact (destroyF_adds _ _ _ _ _).mono (fun _ => .inr)
  generalize (killClient u (some cl) none c.ID reason).1 = t at *
  obtain ⟨o1, q1, q2, q3, q4⟩ := hK.told
  have hlink : ∀ y : Nat, isLink u y = true → isLink v y = true := by
    intro y hy
    simp only [isLink, List.any_eq_true] at hy ⊢
    obtain ⟨d, hd, e⟩ := hy
    exact ⟨d, ((h.clients d).1 hd).1, e⟩
  have hadds : ∀ y ∈ o1, y.msg.cmd = "KILL" ∨ Farewell y := by
    rcases hA with ⟨o2, e2, h2⟩
    have : o1 = o2 := List.append_cancel_right (q1.symm.trans e2)
    rw [this]; exact h2
  have hout : ∀ d ∈ v.clients, ¬ Hit v k L d → d ∈ u.clients := fun d hd hd' => h.keep hd hd'
  refine ⟨o1 ++ o, hR.1, h.rest.trans hR.2, fun d => ?_, fun ch r => ?_, by rw [q1, h.out, List.append_assoc], ?_, ?_, ?_, ?_⟩
  · rw [hK.clients d, h.clients d]
    constructor
    · rintro ⟨⟨h1, h2⟩, h3⟩
      refine ⟨h1, fun hh => ?_⟩
      rcases List.mem_append.1 hh.1 with h4 | h4
      · exact h2 ⟨h4, hh.2⟩
      · exact h3 (by rw [List.mem_singleton.1 h4])
    · rintro ⟨h1, h2⟩
      refine ⟨⟨h1, fun hh => h2 ⟨List.mem_append_left _ hh.1, hh.2⟩⟩, fun he => h2 ⟨?_, ?_⟩⟩
      · rw [hf.base.cl.ord.eq_of_ref h1 hc he]; exact List.mem_append_right _ (List.mem_singleton.2 rfl)
      · rw [hf.base.cl.ord.eq_of_ref h1 hc he]; exact hn
  · rw [hK.members ch r, h.members ch r]
    constructor
    · rintro ⟨⟨h1, h2⟩, h3⟩
      refine ⟨h1, fun ⟨d, hd, e, hh⟩ => ?_⟩
      rcases List.mem_append.1 hd with h4 | h4
      · exact h2 ⟨d, h4, e, hh⟩
      · exact h3 (by rw [← e, List.mem_singleton.1 h4])
    · rintro ⟨h1, h2⟩
      refine ⟨⟨h1, fun ⟨d, hd, e, hh⟩ => h2 ⟨d, List.mem_append_left _ hd, e, hh⟩⟩, fun he => h2 ⟨c, ?_, he.symm, hn⟩⟩
      exact List.mem_append_right _ (List.mem_singleton.2 rfl)
  · intro d hd hds j hj
    rw [onConn_append, List.filter_append, h.links d hd hds j hj, q2 d (hout d hd (hit_server hds)) hds j hj, if_neg (by simp),
      List.filter_append, List.filter_cons_of_pos (by simpa using hn), List.filter_nil, List.map_append, List.reverse_append,
      h.this_eq hf, hID]
    rfl
  · intro y hy hky
    rcases List.mem_append.1 hy with hy | hy
    · exact hlink _ (q3 y hy hky)
    · exact h.others y hy hky
  · intro y hy
    rcases List.mem_append.1 hy with hy | hy
    · rcases hadds y hy with h1 | h1 | h1 | h1 | h1 <;> rw [h1] <;> decide
    · exact h.noline y hy
  · intro c' hc' hh h1 h2 d hd hdn j hj hre
    rcases List.mem_append.1 hc' with hc' | hc'
    · exact List.mem_append_right _ (h.quits c' hc' hh h1 h2 d hd hdn j hj hre)
    · rw [List.mem_singleton.1 hc'] at h1 h2 hre ⊢
      have hne' : ∀ d' ∈ done, d'.ref = c.ref → ¬ Hit v k L d' := fun d' hd' e => by
        rw [hf.base.cl.ord.eq_of_ref (hdone d' hd') hc e] at hd'; exact absurd hd' hcd
      have hrel : Related u c.ref j := by
        obtain ⟨x, hx, x1, x2, x3, ch, x4, x5⟩ := hre
        have hxd : x = d := conn_owner hf.base hx hd x2 hj
        subst hxd
        refine ⟨x, hout x hx hdn, x1, x2, x3, ch, (h.members _ _).2 ⟨x4, fun ⟨d', hd', e, hh'⟩ => hne' d' hd' e hh'⟩,
          (h.members _ _).2 ⟨x5, fun ⟨d', hd', e, hh'⟩ => ?_⟩⟩
        rw [hf.base.cl.ord.eq_of_ref (hdone d' hd') hx e] at hh'
        exact hdn hh'
      have hj' : c.conn ≠ some j := fun he => by
        rw [conn_owner hf.base hd hc hj he] at hdn; exact hdn hn
      have := q4 h1 h2 j hj' hrel
      refine List.mem_append_left _ ?_
      have hmem : (⟨j, some (maskCloaked u c), ⟨"QUIT", [if u.conf.morePrivacy then [] else reason]⟩⟩ : Sent) ∈ onConn o1 j := by
        rw [this]; exact List.mem_singleton.2 rfl
      rw [h.mask hf hcu, h.rest.conf] at hmem
      exact (List.mem_filter.1 hmem).1

theorem Sweeping.all (hf : Field v cl k L) : ∀ (rs : List Client) (done : List Client) (o : List Sent) (u : Srv), v.clients = done ++ rs →
    Sweeping v u k L reason done o → ∃ o', Sweeping v (xlineKills cl k reason (rs.map (fun c => c.ref)) u) k L reason v.clients o' := by
  intro rs
  induction rs with
  | nil =>
    intro done o u hv h
    rw [List.append_nil] at hv
    exact ⟨o, by rw [hv] at *; exact h⟩
  | cons c rs ih =>
    intro done o u hv h
    have hcv : c ∈ v.clients := by rw [hv]; simp
    have hcd : c ∉ done := by
      intro hd
      have := hf.base.cl.ord
      rw [hv] at this
      have := (List.pairwise_append.1 this).2.2 c hd c (by simp)
      exact Nat.lt_irrefl _ this
    have hdone : ∀ d ∈ done, d ∈ v.clients := fun d hd => by rw [hv]; exact List.mem_append_left _ hd
    have hv' : v.clients = (done ++ [c]) ++ rs := by rw [hv, List.append_assoc]; rfl
    have hcu : c ∈ u.clients := (h.clients c).2 ⟨hcv, fun hh => hcd hh.1⟩
    have hline : u.line k = L := by
      rw [← hf.line]; cases k
      · exact h.rest.gl
      · exact h.rest.kl
    have hclu : u.cl cl = v.cl cl := by have := h.cl_eq hf hf.mem hf.safe; rwa [hf.ref] at this
    have hself : (u.cl? cl).isNone = false := by
      have := cl?_of_mem h.base.cl.ord (h.keep hf.mem hf.safe)
      rw [hf.ref] at this
      rw [this]; rfl
    have hmask : masksOf u c = masksOf v c := by simp only [masksOf, h.mask hf hcu]
    simp only [List.map_cons, xlineKills, cl?_of_mem h.base.cl.ord hcu]
    by_cases hcl : (k = .gline || c.conn.isSome) = true
    · rw [if_pos hcl]
      have hl1 : (listsCheck (u.line k) (masksOf u c)).1 = L := by
        rw [hline]
        rcases C30_check_effect L (masksOf u c) with e | ⟨a, e, b, e1, -, e2, -⟩
        · exact e
        · have := hf.lasting e (by rw [e1]; simp)
          rw [e2] at this; cases this
      have hset : u.setLine k (listsCheck (u.line k) (masksOf u c)).1 = u := by
        rw [hl1, ← hline]; cases k <;> rfl
      simp only [hset]
      have hcov : (listsCheck (u.line k) (masksOf u c)).2 = true ↔ Covers v L c := by rw [hline, hmask]; exact covers_iff
      by_cases hco : Covers v L c
      · rw [if_pos (hcov.2 hco), hself, if_neg (by simp)]
        by_cases hid : c.id = []
        · have hID : c.ID = "*".toList := by rw [Client.ID, if_pos (by simp [hid])]
          have : (killClient u (some cl) none c.ID reason).1 = u := by
            simp only [hID, killClient, h.search_star hf]
          rw [this]
          exact ih _ _ u hv' (h.skip (o' := []) (fun hh => hh.2.1 hid) rfl rfl (by simp))
        · by_cases hty : CanBeKilled c
          · have hn : Hit v k L c := ⟨hty, hid, by simpa using hcl, hco⟩
            obtain ⟨o', h'⟩ := h.kill hf hcv hcd hdone hn
            exact ih _ _ _ hv' h'
          · rw [killClient_bad (h.search hf hcu hid) hty (by rw [h.rest.this]; exact hf.ne)]
            refine ih _ _ _ hv' (h.skip (o' := (lineTo u (u.cl cl) (u.cl u.this) ⟨if c.type = .server then "ERR_CANTKILLSERVER_MSG"
              else "ERR_NOPRIVILEGES_MSG", [(u.cl cl).ID]⟩).toList) (fun hh => hty hh.1) rfl rfl ?_)
            intro y hy
            have := lineTo_msg (Option.mem_toList.1 hy)
            rw [this]
            constructor <;> (simp only; split <;> simp)
      · rw [if_neg (fun hh => hco (hcov.1 hh))]
        exact ih _ _ u hv' (h.skip (o' := []) (fun hh => hco hh.2.2.2) rfl rfl (by simp))
    · rw [if_neg hcl]
      exact ih _ _ u hv' (h.skip (o' := []) (fun hh => hcl (by simpa using hh.2.2.1)) rfl rfl (by simp))
end
/-! ## C81 -/

/-- The request may change the lines: it comes from an IRC operator connected here, or over a server link from
a server or an IRC operator, if the configuration allows remote operators. -/
def Spec.MayLine (s : Srv) (cl : Nat) (f : Client) : Prop :=
  ((s.cl cl).type = .user ∧ 'o' ∈ (s.cl cl).modes) ∨
  ((s.cl cl).type = .server ∧ s.conf.allowRemoteOper = true ∧ (f.type = .server ∨ 'o' ∈ f.modes))

/-- The request is the command for this kind of line. -/
def Spec.LineCommand (req : Request) : LineClass → Prop
  | .gline => Is req "GLINE"
  | .kline => Is req "KLINE"

theorem opCheck_may (h : PoliteRun s) (hr : Received s i l cl req) {f : Client} (hf : Originator s cl req f) (hmay : MayLine s cl f) (rnd : Int) :
    (if !(s.roll rnd).conf.allowRemoteOper && ((s.roll rnd).cl cl).type = .server then none else opCheck (s.roll rnd) cl req) = some f ∧
    ((s.cl cl).type = .user ∨ (s.cl cl).type = .server) := by
  have hb := h.reachable.base
  obtain ⟨g1, g2, g3, g4⟩ := hr.owner hb
  rw [roll_cl, roll_conf]
  rcases hmay with ⟨hu, ho⟩ | ⟨hu, ha, ho⟩
  · refine ⟨?_, .inl hu⟩
    rw [if_neg (by simp [hu]), opCheck_op (s := s.roll rnd) (i := i) (by rw [roll_cl, hu]; decide) ho g3, roll_cl]
    rcases hf.2 with ⟨h1, -⟩ | ⟨-, h1⟩
    · exact absurd (hu.symm.trans h1) (by decide)
    · rw [← h1, cl_of_mem hb.cl.ord hf.1]
  · refine ⟨?_, .inr hu⟩
    rw [if_neg (by simp [ha])]
    have e0 : msgFrom s cl req = some f.ref := (msgFrom_originator h hr hf).1
    have hfin : (if f.type = .server then some f else if !f.hasMode 'o' then none else some f) = some f := by
      by_cases hs : f.type = .server
      · simp [hs]
      · simp [hs, hasMode_iff.2 (ho.resolve_left hs)]
    cases hp : req.prefix? with
    | none =>
      have hfe : s.cl cl = f := by
        rcases hf.2 with ⟨-, p, hp', -⟩ | ⟨-, h2⟩
        · rw [hp] at hp'; cases hp'
        · rw [← h2, cl_of_mem hb.cl.ord hf.1]
      unfold opCheck
      rw [roll_cl, hfe] 
      rw [hfe] at hu
      simp [hp, hu]
    | some p =>
      have hse : clientSearch s p = some f := by
        simp only [msgFrom, hp] at e0
        rw [if_pos hu] at e0
        cases hse : clientSearch s p with
        | none => rw [hse] at e0; cases e0
        | some d =>
          rw [hse] at e0
          injection e0 with e0
          rw [hb.cl.ord.eq_of_ref ((C13_lookup h p d).1 hse).1 hf.1 e0]
      unfold opCheck
      simp only [roll_cl, roll_conf, hp, roll_search, hse, hu, ha, if_true]
      simpa using hfin

theorem step_XLINE (h : PoliteRun s) (hr : Received s i l cl req) (hk : LineCommand req k) {f : Client} (hf : Originator s cl req f)
    (hmay : MayLine s cl f) (ha : req.argv.length = 1 ∨ req.argv.length = 3) (rnd : Int) :
    step s (.line i rnd l) = xlineDo (s.roll rnd) cl f k req := by
  obtain ⟨e, hty⟩ := opCheck_may h hr hf hmay rnd
  have hst : step s (.line i rnd l) = (ircXLINE k (s.roll rnd) cl req).1 := by
    cases k
    · exact step_do hr rnd hk rfl (by rcases hty with e | e <;> rw [e] <;> rfl) (by rw [Command.argcOk, Bool.and_eq_true]; exact ⟨decide_eq_true (Nat.zero_le _), rfl⟩)
    · exact step_do hr rnd hk rfl (by rcases hty with e | e <;> rw [e] <;> rfl) (by rw [Command.argcOk, Bool.and_eq_true]; exact ⟨decide_eq_true (Nat.zero_le _), rfl⟩)
  rw [hst]
  unfold ircXLINE
  rw [if_neg (by simp only [Request.argc]; rcases ha with e | e <;> simp [e])]
  simp only [e]

theorem update_mask {m : Str} {x : Nat} {r : Option Str} {e : ListElem} : e ∈ listsUpdate L m x r → ∃ e' ∈ L, e'.mask = e.mask := by
  induction L with
  | nil => intro h; cases h
  | cons a l ih =>
    intro h
    simp only [listsUpdate] at h
    split at h
    · rcases List.mem_cons.1 h with rfl | h
      · exact ⟨a, List.mem_cons_self, rfl⟩
      · exact ⟨e, List.mem_cons_of_mem _ h, rfl⟩
    · rcases List.mem_cons.1 h with rfl | h
      · exact ⟨e, List.mem_cons_self, rfl⟩
      · obtain ⟨e', h1, h2⟩ := ih h
        exact ⟨e', List.mem_cons_of_mem _ h1, h2⟩

theorem add_mask {m : Str} {x : Nat} {r : Option Str} {e e0 : ListElem} (hm : strlcpy MASK_LEN m = m) (h0 : e0.mask = m)
    (h : e ∈ (listsAdd true L m x r false).1) : ∃ e' ∈ e0 :: L, e'.mask = e.mask := by
  unfold listsAdd at h
  split at h
  · obtain ⟨e', h1, h2⟩ := update_mask h
    exact ⟨e', List.mem_cons_of_mem _ h1, h2⟩
  · rw [if_pos rfl] at h
    rcases List.mem_cons.1 h with rfl | h
    · exact ⟨e0, List.mem_cons_self, by rw [h0]; exact hm.symm⟩
    · exact ⟨e, List.mem_cons_of_mem _ h, rfl⟩

theorem lineReason_eq (k : LineClass) (f : Client) (text : Str) : xlineReason k f text = lineReason k f text := by
  cases k <;> rfl

/-- **C81** Setting a G-line or K-line: the mask is on the list from now on, with the time it expires and its reason,
and no other entry changes; the new G-line is relayed to all other server links; and every user the list covers
is removed, here and (G-lines) everywhere in the network. -/
theorem C81_set (h : PoliteRun s) (hr : Received s i l cl req) (hk : LineCommand req k) {p secs text : Str}
    (ha : req.argv = [p, secs, text]) (hp : p.length < 123) {f : Client} (hf : Originator s cl req f) (hmay : MayLine s cl f)
    (hstar : ∀ d ∈ s.clients, ¬ SameCase d.id "*".toList) (rnd : Int)
    (hsafe : (s.cl cl).type = .server ∨ ¬ Covers s (⟨normalMask p, none, 0, false⟩ :: s.line k) (s.cl cl)) :
    (∀ m, entryOf ((step s (.line i rnd l)).line k) m =
      if SameCase (normalMask p) m then
        some (match entryOf (s.line k) (normalMask p) with
          | some e => { e with validUntil := if 0 < atoi secs then (atoi secs).toNat + s.now else 0, reason := some text }
          | none => ⟨normalMask p, some text, if 0 < atoi secs then (atoi secs).toNat + s.now else 0, false⟩)
      else entryOf (s.line k) m) ∧
    (∀ k', k' ≠ k → (step s (.line i rnd l)).line k' = s.line k') ∧
    ∃ o, (step s (.line i rnd l)).out = o ++ s.out ∧
      Swept s (step s (.line i rnd l)) k ((step s (.line i rnd l)).line k) (lineReason k f text) o ∧
      (∀ d ∈ s.clients, d.type = .server → ∀ j, d.conn = some j → (onConn o j).filter (fun y => y.msg.cmd == "GLINE") =
        if k = .gline ∧ d.ref ≠ cl then [⟨j, some f.ID, ⟨"GLINE", [p, secs, text]⟩⟩] else []) ∧
      (∀ y ∈ o, y.msg.cmd = "GLINE" → isLink s y.conn = true) := by
  have hb := h.reachable.base
  obtain ⟨g1, g2, g3, g4⟩ := hr.owner hb
  rw [step_XLINE h hr hk hf hmay (.inr (by rw [ha]; rfl)) rnd]
  have a0 : req.arg 0 = p := by simp [Request.arg, ha]
  have a1 : req.arg 1 = secs := by simp [Request.arg, ha]
  have a2 : req.arg 2 = text := by simp [Request.arg, ha]
  have hx : xlineDo (s.roll rnd) cl f k req =
      xlineKills cl k (lineReason k f text) (s.clients.map (fun c => c.ref))
        (if k = .gline then writeServers ((s.roll rnd).setLine k (listsAdd true (s.line k) (normalMask p) (if 0 < atoi secs then (atoi secs).toNat + s.now else 0) (some text) false).1)
          (some cl) f ⟨"GLINE", [p, secs, text]⟩
        else (s.roll rnd).setLine k (listsAdd true (s.line k) (normalMask p) (if 0 < atoi secs then (atoi secs).toNat + s.now else 0) (some text) false).1) := by
    unfold xlineDo
    rw [if_neg (by simp [Request.argc, ha])]
    simp only [a0, a1, a2, ha, lineReason_eq, normalMask_eq hp]
    cases k <;> rfl
  rw [hx]
  have hno : ¬ Hit s k (listsAdd true (s.line k) (normalMask p) (if 0 < atoi secs then (atoi secs).toNat + s.now else 0) (some text) false).1 (s.cl cl) := by
    rintro ⟨q1, -, -, e, he, q2⟩
    rcases hsafe with hs | hs
    · rw [hs] at q1; rcases q1 with h | h | h <;> cases h
    · obtain ⟨e', h1, h2⟩ := add_mask (e0 := ⟨normalMask p, none, 0, false⟩) (normalMask_short hp) rfl he
      exact hs ⟨e', h1, by rw [h2]; exact q2⟩
  have hentry := C28_add (s.line k) (normalMask p) (if 0 < atoi secs then (atoi secs).toNat + s.now else 0) (some text) false
    (by have := C29_fits p MASK_LEN (by decide); rw [normalMask_eq hp] at this; exact this)
  generalize hL : (listsAdd true (s.line k) (normalMask p) (if 0 < atoi secs then (atoi secs).toNat + s.now else 0) (some text) false).1 = L at *
  generalize hv : (if k = .gline then writeServers ((s.roll rnd).setLine k L) (some cl) f ⟨"GLINE", [p, secs, text]⟩ else (s.roll rnd).setLine k L) = v at *
  have hlast : Lasting L := by
    have h0 : Lasting (s.line k) := by cases k; exact h.reachable.lasting.1; exact h.reachable.lasting.2
    rw [← hL]; exact h0.add _ _ _ _
  -- the state in which the sweep begins
  have hv1 : ∃ o1, v = { (s.roll rnd).setLine k L with out := o1 ++ s.out } ∧
      (∀ d ∈ s.clients, d.type = .server → ∀ j, d.conn = some j → onConn o1 j =
        if k = .gline ∧ d.ref ≠ cl then [⟨j, some f.ID, ⟨"GLINE", [p, secs, text]⟩⟩] else []) ∧
      (∀ y ∈ o1, y.msg.cmd = "GLINE" ∧ isLink s y.conn = true) := by
    cases k
    · have hb1 : Base ((s.roll rnd).setLine .gline L) := ⟨ClInv.of_eq (s := s) hb.cl rfl rfl rfl (Nat.le_refl _) rfl, ChInv.of_eq (s := s) hb.ch rfl rfl (Nat.le_refl _)⟩
      obtain ⟨o1, e1, e2, e3⟩ := servers_spec hb1 (some cl) f ⟨"GLINE", [p, secs, text]⟩
      rw [if_pos rfl, e1 _ ⟨rfl, rfl, rfl, rfl, rfl⟩] at hv
      obtain ⟨o1', e1', e2'⟩ := writeServers_adds (s := (s.roll rnd).setLine .gline L) (some cl) f ⟨"GLINE", [p, secs, text]⟩
      rw [e1 _ ⟨rfl, rfl, rfl, rfl, rfl⟩] at e1'
      have he : o1 = o1' := List.append_cancel_right e1'
      refine ⟨o1, hv.symm, fun d hd hds j hj => ?_, fun y hy => ⟨by rw [e2' y (he ▸ hy)], ?_⟩⟩
      · by_cases hdc : d.ref = cl
        · rw [if_neg (by simp [hdc])]
          refine onConn_nil (fun y hy hyj => ?_)
          obtain ⟨d', hd', d1, d2, d3⟩ := e3 y hy
          rw [hyj] at d2
          exact d3 (by rw [conn_owner hb hd' hd d2 hj, hdc])
        · rw [if_pos ⟨rfl, hdc⟩]
          exact e2 j d hd hds hj (by simpa using hdc)
      · obtain ⟨d, hd, d1, d2, -⟩ := e3 y hy
        exact isLink_mem.2 ⟨d, hd, d1, d2⟩
    · rw [if_neg (by simp)] at hv
      exact ⟨[], hv.symm, fun _ _ _ _ _ => by simp [onConn], fun y hy => by cases hy⟩
  obtain ⟨o1, hv1, r1, r2⟩ := hv1
  have hvc : v.clients = s.clients := by rw [hv1]; cases k <;> rfl
  have hvn : v.conns = s.conns := by rw [hv1]; cases k <;> rfl
  have hv2 : v.cl2 = s.cl2 := by rw [hv1]; cases k <;> rfl
  have hvf : v.conf = s.conf := by rw [hv1]; cases k <;> rfl
  have hvt : v.this = s.this := by rw [hv1]; cases k <;> rfl
  have hvo : v.out = o1 ++ s.out := by rw [hv1]
  have hvl : v.line k = L := by rw [hv1]; cases k <;> rfl
  have hbv : Base v := by
    rw [hv1]
    cases k <;> exact ⟨ClInv.of_eq (s := s) hb.cl rfl rfl rfl (Nat.le_refl _) rfl, ChInv.of_eq (s := s) hb.ch rfl rfl (Nat.le_refl _)⟩
  have hcl : ∀ r, v.cl r = s.cl r := fun r => cl_congr hvc r
  have hmk : ∀ c, maskCloaked v c = maskCloaked s c := fun c => by simp only [maskCloaked, displayedHost, genCloak, hvf, hcl]
  have hhit : ∀ c, Hit v k L c ↔ Hit s k L c := fun c => by simp only [Hit, Covers, hmk]
  have hrest : ∀ (t : Srv) (d : List Client) (o : List Sent), Sweeping v t k L (lineReason k f text) d o → t.line k = L := by
    intro t d o hs
    rw [← hvl]; cases k
    · exact hs.rest.gl
    · exact hs.rest.kl
  have hname := polite_name h
  have hstart : Sweeping v v k L (lineReason k f text) [] [] :=
    ⟨hbv, ⟨rfl, rfl, rfl, rfl⟩, fun d => by simp, fun ch r => by simp, rfl, fun _ _ _ _ _ => by simp [onConn], fun y hy => (by cases hy),
      fun y hy => (by cases hy), fun c hc => (by cases hc)⟩
  have hfield : Field v cl k L :=
    ⟨hbv, (polite_kind h).of_eq hvc (fun m hm => ⟨m, by rw [hv2] at hm; exact hm, rfl⟩),
      ⟨by rw [hvc]; exact hname.good, by rw [hvc]; exact hname.hash, by rw [hvc]; exact hname.uniq, by rw [hvf]; exact hname.nick⟩,
      hvl, hlast, by rw [hvc]; exact hstar, by rw [hcl, hhit]; exact hno, by rw [hcl, hvc]; exact g1, by rw [hcl]; exact g2, by rw [hvt]; exact g4⟩
  obtain ⟨o, hs⟩ := Sweeping.all hfield s.clients [] [] v (by rw [hvc]; rfl) hstart
  have hline := hrest _ _ _ hs
  generalize xlineKills cl k (lineReason k f text) (s.clients.map (fun c => c.ref)) v = t at *
  rw [hline]
  have hgone : ∀ d, d ∈ t.clients ↔ d ∈ s.clients ∧ ¬ Hit s k L d := fun d => by
    rw [hs.clients d, hvc, hhit]
    constructor
    · rintro ⟨q1, q2⟩; exact ⟨q1, fun hh => q2 ⟨q1, hh⟩⟩
    · rintro ⟨q1, q2⟩; exact ⟨q1, fun hh => q2 hh.2⟩
  refine ⟨fun m => ?_, fun k' hk' => ?_, o ++ o1, ?_, ⟨hgone, fun ch r => ?_, fun d hd hh j hj => ?_, fun d hd hds j hj => ?_, ?_, ?_⟩, ?_, ?_⟩
  · rw [(hentry m).2]
    split
    · cases entryOf (s.line k) (normalMask p) <;> rfl
    · rfl
  · have hv' : v.line k' = s.line k' := by
      rw [hv1]; cases k <;> cases k' <;> first | exact absurd rfl hk' | rfl
    rw [← hv']
    cases k'
    · exact hs.rest.gl
    · exact hs.rest.kl
  · rw [hs.out, hvo, List.append_assoc]
  · have e : OnChannel v ch r ↔ OnChannel s ch r := by simp only [OnChannel, hv2]
    rw [hs.members ch r, e, hvc]
    simp only [hhit]
  · cases hq : t.conn? j with
    | none => rfl
    | some x =>
      obtain ⟨w1, w2, w3, -⟩ := conn?_mem hs.base.cl hq
      obtain ⟨z1, z2⟩ := (hgone _).1 w1
      rw [conn_owner hb z1 hd w3 hj] at z2
      exact absurd hh z2
  · rw [onConn_append, List.filter_append, hs.links d (by rw [hvc]; exact hd) hds j hj]
    have : (onConn o1 j).filter (fun y => y.msg.cmd == "KILL") = [] := by
      rw [List.filter_eq_nil_iff]
      intro y hy
      rw [(r2 y (List.mem_filter.1 hy).1).1]; decide
    rw [this, List.append_nil, hvc, hvt, hcl]
    simp only [hhit]
  · intro y hy hky
    rcases List.mem_append.1 hy with hy | hy
    · have := hs.others y hy hky
      simpa only [isLink, hvc] using this
    · rw [(r2 y hy).1] at hky; exact absurd hky (by decide)
  · intro c hc hh h1 h2 d hd hdn j hj hre
    have := hs.quits c (by rw [hvc]; exact hc) ((hhit c).2 hh) h1 h2 d (by rw [hvc]; exact hd) (fun hx => hdn ((hhit d).1 hx)) j hj
      (by simpa only [Related, OnChannel, hvc, hv2] using hre)
    rw [hmk, hvf] at this
    exact List.mem_append_left _ this
  · intro d hd hds j hj
    rw [onConn_append, List.filter_append, r1 d hd hds j hj]
    have : (onConn o j).filter (fun y => y.msg.cmd == "GLINE") = [] := by
      rw [List.filter_eq_nil_iff]
      intro y hy
      simpa using hs.noline y (List.mem_filter.1 hy).1
    rw [this, List.nil_append]
    split <;> rfl
  · intro y hy hky
    rcases List.mem_append.1 hy with hy | hy
    · exact absurd hky (hs.noline y hy)
    · exact (r2 y hy).2

/-- **C81** Deleting a line: exactly the entries for the mask disappear from the list, nothing else changes, and the
deletion of a G-line is relayed to all other server links. -/
theorem C81_delete (h : PoliteRun s) (hr : Received s i l cl req) (hk : LineCommand req k) {p : Str}
    (ha : req.argv = [p]) (hp : p.length < 123) {f : Client} (hf : Originator s cl req f) (hmay : MayLine s cl f) (rnd : Int) :
    (∀ e, e ∈ (step s (.line i rnd l)).line k ↔ e ∈ s.line k ∧ ¬ SameCase e.mask (normalMask p)) ∧
    ((step s (.line i rnd l)).line k).Sublist (s.line k) ∧
    ∃ o, step s (.line i rnd l) = { s.setLine k ((step s (.line i rnd l)).line k) with out := o ++ s.out, rnd := rnd } ∧
      (∀ d ∈ s.clients, d.type = .server → ∀ j, d.conn = some j → onConn o j =
        if k = .gline ∧ d.ref ≠ cl then [⟨j, some f.ID, ⟨"GLINE", [p]⟩⟩] else []) ∧
      (∀ y ∈ o, isLink s y.conn = true) := by
  have hb := h.reachable.base
  rw [step_XLINE h hr hk hf hmay (.inl (by rw [ha]; rfl)) rnd]
  have a0 : req.arg 0 = p := by simp [Request.arg, ha]
  have hx : xlineDo (s.roll rnd) cl f k req =
      (if k = .gline then writeServers ((s.roll rnd).setLine k (listsDel (s.line k) (normalMask p))) (some cl) f ⟨"GLINE", [p]⟩
        else (s.roll rnd).setLine k (listsDel (s.line k) (normalMask p))) := by
    unfold xlineDo
    rw [if_pos (by simp [Request.argc, ha])]
    simp only [a0, normalMask_eq hp]
    cases k <;> rfl
  rw [hx]
  have hdel := C28_del_exact (s.line k) (normalMask p)
  have hsub := (C28_sublists (s.line k) (normalMask p) 0).1
  generalize listsDel (s.line k) (normalMask p) = L at *
  cases k
  · have hb1 : Base ((s.roll rnd).setLine .gline L) := ⟨ClInv.of_eq (s := s) hb.cl rfl rfl rfl (Nat.le_refl _) rfl, ChInv.of_eq (s := s) hb.ch rfl rfl (Nat.le_refl _)⟩
    obtain ⟨o1, e1, e2, e3⟩ := servers_spec hb1 (some cl) f ⟨"GLINE", [p]⟩
    rw [if_pos rfl, e1 _ ⟨rfl, rfl, rfl, rfl, rfl⟩]
    refine ⟨hdel, hsub, o1, rfl, fun d hd hds j hj => ?_, fun y hy => ?_⟩
    · by_cases hdc : d.ref = cl
      · rw [if_neg (by simp [hdc])]
        refine onConn_nil (fun y hy hyj => ?_)
        obtain ⟨d', hd', d1, d2, d3⟩ := e3 y hy
        rw [hyj] at d2
        exact d3 (by rw [conn_owner hb hd' hd d2 hj, hdc])
      · rw [if_pos ⟨rfl, hdc⟩]
        exact e2 j d hd hds hj (by simpa using hdc)
    · obtain ⟨d, hd, d1, d2, -⟩ := e3 y hy
      exact isLink_mem.2 ⟨d, hd, d1, d2⟩
  · rw [if_neg (by simp)]
    exact ⟨hdel, hsub, [], rfl, fun _ _ _ _ _ => by simp [onConn], fun y hy => by cases hy⟩
/-! ## The hypotheses are met -/

set_option synthInstance.maxSize 1000 in
set_option synthInstance.maxHeartbeats 400000 in
theorem Sample.line_facts :
    Spec.recv Sample.s5op 5 "KLINE *!*@9.9.9.* 60 :bye".toList = some (3, ⟨none, "KLINE".toList, ["*!*@9.9.9.*".toList, "60".toList, "bye".toList]⟩) ∧
    Spec.recv Sample.s5op 5 "GLINE zed 0 :spam".toList = some (3, ⟨none, "GLINE".toList, ["zed".toList, "0".toList, "spam".toList]⟩) ∧
    Spec.recv Sample.s5op 5 "GLINE zed".toList = some (3, ⟨none, "GLINE".toList, ["zed".toList]⟩) ∧
    (Sample.s5op.cl 3).type = .user ∧ 'o' ∈ (Sample.s5op.cl 3).modes ∧ Sample.s5op.cl 3 ∈ Sample.s5op.clients ∧ (Sample.s5op.cl 3).ref = 3 ∧
    (∀ d ∈ Sample.s5op.clients, ¬ caseEq d.id "*".toList = true) ∧
    ¬ Covers Sample.s5op (⟨normalMask "*!*@9.9.9.*".toList, none, 0, false⟩ :: Sample.s5op.line .kline) (Sample.s5op.cl 3) ∧
    ¬ Covers Sample.s5op (⟨normalMask "zed".toList, none, 0, false⟩ :: Sample.s5op.line .gline) (Sample.s5op.cl 3) ∧
    -- bob is covered by the first line, zed by the second
    ((Sample.s5op.clients.filter (fun d => decide (Hit Sample.s5op .kline [⟨normalMask "*!*@9.9.9.*".toList, none, 0, false⟩] d))).map (fun d => d.ref) = [4]) ∧
    ((Sample.s5op.clients.filter (fun d => decide (Hit Sample.s5op .gline [⟨normalMask "zed".toList, none, 0, false⟩] d))).map (fun d => d.ref) = [7]) := by
  decide +kernel

example : PoliteRun Sample.s5op ∧
    (∃ req, Received Sample.s5op 5 "KLINE *!*@9.9.9.* 60 :bye".toList 3 req ∧ LineCommand req .kline ∧
      req.argv = ["*!*@9.9.9.*".toList, "60".toList, "bye".toList] ∧ Originator Sample.s5op 3 req (Sample.s5op.cl 3)) ∧
    (∃ req, Received Sample.s5op 5 "GLINE zed 0 :spam".toList 3 req ∧ LineCommand req .gline ∧
      req.argv = ["zed".toList, "0".toList, "spam".toList] ∧ Originator Sample.s5op 3 req (Sample.s5op.cl 3)) ∧
    (∃ req, Received Sample.s5op 5 "GLINE zed".toList 3 req ∧ LineCommand req .gline ∧
      req.argv = ["zed".toList] ∧ Originator Sample.s5op 3 req (Sample.s5op.cl 3)) ∧
    MayLine Sample.s5op 3 (Sample.s5op.cl 3) ∧ (∀ d ∈ Sample.s5op.clients, ¬ SameCase d.id "*".toList) ∧
    ¬ Covers Sample.s5op (⟨normalMask "*!*@9.9.9.*".toList, none, 0, false⟩ :: Sample.s5op.line .kline) (Sample.s5op.cl 3) ∧
    ¬ Covers Sample.s5op (⟨normalMask "zed".toList, none, 0, false⟩ :: Sample.s5op.line .gline) (Sample.s5op.cl 3) := by
  obtain ⟨f1, f2, f3, f4, f5, f6, f7, f8, f9, f10, -⟩ := Sample.line_facts
  have ho : ∀ req : Request, Originator Sample.s5op 3 req (Sample.s5op.cl 3) :=
    fun req => ⟨f6, .inr ⟨fun h => (by rw [f4] at h; cases h.1), f7⟩⟩
  exact ⟨polite_s5op, ⟨_, Spec.recv_sound f1, by simp only [LineCommand, Is]; decide, rfl, ho _⟩,
    ⟨_, Spec.recv_sound f2, by simp only [LineCommand, Is]; decide, rfl, ho _⟩,
    ⟨_, Spec.recv_sound f3, by simp only [LineCommand, Is]; decide, rfl, ho _⟩,
    .inl ⟨f4, f5⟩, fun d hd h => f8 d hd ((caseEq_same _ _).2 h), f9, f10⟩

end Ngircd
