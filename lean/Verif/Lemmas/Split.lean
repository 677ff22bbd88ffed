import Verif.Props.Messages
import Verif.Lemmas.Notify
import Verif.Lemmas.Under
import Verif.Lemmas.Strict4
import Verif.Spec.Netsplit

/-!
# The output of `Client_Destroy` for a server
-/

set_option linter.unusedSimpArgs false

namespace Ngircd
open Spec

variable {s t u v s0 : Srv} {i j r : Nat} {c d : Client}

/-- The states agree on all that decides where lines go, except for the connections. -/
structure Akin (v t : Srv) : Prop where
  clients : t.clients = v.clients
  cl2 : t.cl2 = v.cl2
  conf : t.conf = v.conf
  this : t.this = v.this

theorem Akin.of_noConn (h : t.noConn = v.noConn) : Akin v t :=
  ⟨(congrArg Srv.clients h :), (congrArg Srv.cl2 h :), (congrArg Srv.conf h :), (congrArg Srv.this h :)⟩

theorem servers_akin (hb : Base v) (ex : Option Nat) (p : Client) (m : Msg) :
    ∃ o, (∀ t, Akin v t → writeServers t ex p m = { t with out := o ++ t.out }) ∧
      (∀ j, ∀ d ∈ v.clients, d.type = .server → d.conn = some j → some d.ref ≠ ex → onConn o j = [⟨j, some p.ID, m⟩]) ∧
      (∀ y ∈ o, ∃ d ∈ v.clients, d.type = .server ∧ d.conn = some y.conn ∧ some d.ref ≠ ex) := by
  obtain ⟨o, h1, h2, h3⟩ := servers_spec hb ex p m
  refine ⟨o, fun t ht => ?_, h2, h3⟩
  have hl : Like v { t with conns := v.conns } := ⟨ht.clients, rfl, ht.cl2, ht.conf, ht.this⟩
  have e := congrArg Srv.out (h1 _ hl)
  have hc : ∀ q, t.cl q = v.cl q := fun q => by simp only [Srv.cl, Srv.cl?, ht.clients]
  have hm : ∀ c, maskCloaked t c = maskCloaked v c := fun c => by
    simp only [maskCloaked, displayedHost, genCloak, ht.conf, hc]
  have hh : ∀ c, nextHop t c = nextHop v c := by
    intro c
    have : ∀ n c, nextHopF n t c = nextHopF n v c := by
      intro n
      induction n with
      | zero => intro c; rfl
      | succ n ih => intro c; simp only [nextHopF, ht.this, hc, ih]
    simp only [nextHop, ht.clients, this]
  have e2 : ∀ c, lineTo t c p m = lineTo { t with conns := v.conns } c p m := by
    intro c; simp only [lineTo, hl.hop, hh, getPrefix, hm, hl.mask]
  simp only [writeServers, writeServersFlag, Srv.emits] at e ⊢
  have e3 := List.append_cancel_right e
  have e4 : peerServers { t with conns := v.conns } ex none = peerServers t ex none := rfl
  rw [e4] at e3
  simp only [e2, e3]

theorem filterMap_sub {l : List Conn} {F : Conn → Option Sent} (hF : ∀ k y, F k = some y → y.conn = k.idx) (P : Nat → Bool) :
    (l.filter (fun k => P k.idx)).filterMap F = (l.filterMap F).filter (fun y => P y.conn) := by
  induction l with
  | nil => rfl
  | cons a l ih =>
    cases hFa : F a with
    | none =>
      rw [List.filterMap_cons_none hFa, ← ih]
      cases hp : P a.idx with
      | true => rw [List.filter_cons_of_pos (by simpa using hp), List.filterMap_cons_none hFa]
      | false => rw [List.filter_cons_of_neg (by simp [hp])]
    | some y =>
      have hy := hF a y hFa
      rw [List.filterMap_cons_some hFa]
      cases hp : P a.idx with
      | true =>
        rw [List.filter_cons_of_pos (by simpa using hp), List.filterMap_cons_some hFa,
          List.filter_cons_of_pos (by rw [hy]; exact hp), ih]
      | false => rw [List.filter_cons_of_neg (by simp [hp]), List.filter_cons_of_neg (by rw [hy, hp]; simp), ih]

theorem related_akin (hb : Base v) (r : Nat) (p : Client) (m : Msg) (P : Nat → Bool) :
    ∃ o, (∀ t, Akin v t → t.conns = v.conns.filter (fun k => P k.idx) →
        writeRelatedPrefix t r p false m = { t with out := o ++ t.out }) ∧
      (∀ j, P j = true → Related v r j → onConn o j = [⟨j, some (maskCloaked v p), m⟩]) ∧
      (∀ y ∈ o, Related v r y.conn) := by
  obtain ⟨o, h1, h2, h3⟩ := related_spec hb r p m
  refine ⟨o.filter (fun y => P y.conn), fun t ht hk => ?_, ?_, fun y hy => h3 y (List.mem_filter.1 hy).1⟩
  · have hl : Like v { t with conns := v.conns } := ⟨ht.clients, rfl, ht.cl2, ht.conf, ht.this⟩
    have e := congrArg Srv.out (h1 _ hl)
    have hl' : ∀ c, nextHop t c = nextHop { t with conns := v.conns } c := by
      intro c
      have : ∀ n c, nextHopF n t c = nextHopF n { t with conns := v.conns } c := by
        intro n
        induction n with
        | zero => intro c; rfl
        | succ n ih =>
          intro c
          simp only [nextHopF, ih]
          rfl
      simp only [nextHop, this]
    have e1 : hopFor t r false = hopFor { t with conns := v.conns } r false := by
      funext a
      simp only [hopFor, hl']
      rfl
    simp only [writeRelatedPrefix, sendMarked, Srv.emits] at e ⊢
    have e3 := List.append_cancel_right e
    refine congrArg (fun x => ({ t with out := x ++ t.out } : Srv)) ?_
    rw [hk, filterMap_sub (P := P), ← List.filter_reverse, e1]
    · exact congrArg (List.filter (fun y : Sent => P y.conn)) e3
    · intro k y hy
      split at hy
      · cases hy
      · injection hy with hy
        rw [← hy]
  · intro j hj hr
    have := h2 j hr
    simp only [onConn] at this ⊢
    rw [List.filter_filter]
    rw [← this]
    refine List.filter_congr (fun y _ => ?_)
    cases hy : (y.conn == j) with
    | false => simp
    | true => rw [show y.conn = j by simpa using hy]; simp [hj]

/-- `v` is what is left of `s0`; all connections other than `i` are still there. -/
structure Shrunk (s0 v : Srv) (i : Nat) : Prop where
  sub : ∀ c ∈ v.clients, c ∈ s0.clients
  loc : ∀ c ∈ s0.clients, ∀ j, c.conn = some j → j ≠ i → c ∈ v.clients
  cl2 : ∀ m ∈ v.cl2, m ∈ s0.cl2
  keep : ∀ m ∈ s0.cl2, ∀ c ∈ v.clients, c.ref = m.client → m ∈ v.cl2
  conf : v.conf = s0.conf
  this : v.this = s0.this

/-- What the disappearance of one client looks like. -/
structure Bye (s0 : Srv) (i : Nat) (d : Client) (txt : Str) (o : List Sent) : Prop where
  links : d.type = .server → ∀ j, j ≠ i → isLink s0 j = true → onConn o j = [⟨j, some d.ID, ⟨"SQUIT", [d.id, txt]⟩⟩]
  users : (d.type = .user ∨ d.type = .service) → ∀ j, j ≠ i → Related s0 d.ref j →
    onConn o j = [⟨j, some (maskCloaked s0 d), ⟨"QUIT", [if s0.conf.morePrivacy then [] else txt]⟩⟩]
  from_ : ∀ y ∈ o, y.conn ≠ i ∧ (d.type = .server ∧ isLink s0 y.conn = true ∨
    (d.type = .user ∨ d.type = .service) ∧ Related s0 d.ref y.conn)

theorem Shrunk.on (hb0 : Base s0) (h : Shrunk s0 v i) (hc : c ∈ v.clients) (ch : Nat) :
    OnChannel v ch c.ref ↔ OnChannel s0 ch c.ref := by
  constructor
  · rintro ⟨m, hm, h1, h2⟩; exact ⟨m, h.cl2 m hm, h1, h2⟩
  · rintro ⟨m, hm, h1, h2⟩; exact ⟨m, h.keep m hm c hc h2.symm, h1, h2⟩

theorem Shrunk.related (hb0 : Base s0) (h : Shrunk s0 v i) (hc : c ∈ v.clients) (hj : j ≠ i) :
    Related v c.ref j ↔ Related s0 c.ref j := by
  constructor
  · rintro ⟨x, hx, x1, x2, x3, ch, x4, x5⟩
    exact ⟨x, h.sub x hx, x1, x2, x3, ch, (h.on hb0 hc ch).1 x4, (h.on hb0 hx ch).1 x5⟩
  · rintro ⟨x, hx, x1, x2, x3, ch, x4, x5⟩
    have hx' := h.loc x hx j x2 hj
    exact ⟨x, hx', x1, x2, x3, ch, (h.on hb0 hc ch).2 x4, (h.on hb0 hx' ch).2 x5⟩

theorem Shrunk.cl (hb0 : Base s0) (hb : Base v) (h : Shrunk s0 v i) (hc : c ∈ v.clients) : v.cl c.ref = s0.cl c.ref := by
  rw [cl_of_mem hb.cl.ord hc, cl_of_mem hb0.cl.ord (h.sub c hc)]

theorem bye_one (hb0 : Base s0) (hb : Base v) (hs : Shrunk s0 v i) (ht : t.noConn = v.noConn) {P : Nat → Bool}
    (hk : t.conns = v.conns.filter (fun k => P k.idx)) (hP : ∀ j, j ≠ i → P j = true) (hsig : t.sigQuit = false)
    (hc : c ∈ v.clients) (hbe : Behind v i c) {k : Client} (hkm : k ∈ v.clients) (hkt : k.type = .server) (hkc : k.conn = some i)
    {fwd : Option Str} {q : Bool} {txt : Str} (hq : q = false ∨ c.type = .server) (htx : c.type = .server → fwd.getD [] = txt)
    (htu : (c.type = .user ∨ c.type = .service) → fwd.getD c.id = txt) :
    ∃ o, (destroySelf t c fwd q).out = o ++ t.out ∧ Bye s0 i c txt o := by
  have hne := hbe.ne_this hb hc
  have ha := Akin.of_noConn ht
  have hbv : Base (dropConn (dropCl v c.ref) c) := ⟨hb.cl.drop c hc hne, ⟨hb.ch.ord, hb.ch.lt, hb.ch.pairs, hb.ch.chan, hb.ch.clt⟩⟩
  have hav : Akin (dropConn (dropCl v c.ref) c) (dropCl t c.ref) := by
    refine ⟨?_, ha.cl2, ha.conf, ha.this⟩
    show t.clients.filter _ = v.clients.filter _
    rw [ha.clients]
  by_cases hsv : c.type = .server
  · -- a server
    have hhop : (nextHop (dropCl t c.ref) c).ref = k.ref := by
      rw [← nextHop_drop hb hkm hkc hc hbe]
      have : ∀ n c', nextHopF n (dropCl t c.ref) c' = nextHopF n (dropCl v c.ref) c' := by
        have hcl : ∀ q, (dropCl t c.ref).cl q = (dropCl v c.ref).cl q := by
          intro q; simp only [Srv.cl, Srv.cl?, dropCl, ha.clients]
        have hth : (dropCl t c.ref).this = (dropCl v c.ref).this := ha.this
        intro n
        induction n with
        | zero => intro c; rfl
        | succ n ih => intro c'; simp only [nextHopF, hcl, hth, ih]
      have hcs : (dropCl t c.ref).clients = (dropCl v c.ref).clients := hav.clients
      simp only [nextHop, hcs, this]
    obtain ⟨o, h1, h2, h3⟩ := servers_akin hbv (some k.ref) c ⟨"SQUIT", [c.id, fwd.getD []]⟩
    refine ⟨o, ?_, ?_, ?_, ?_⟩
    · have : destroySelf t c fwd q = writeServers (dropCl t c.ref) (some (nextHop (dropCl t c.ref) c).ref) c
          ⟨"SQUIT", [c.id, fwd.getD []]⟩ := by
        simp only [destroySelf, hsv]
        exact if_neg (by rw [hsig]; decide)
      rw [this, hhop, h1 _ hav]
      rfl
    · intro _ j hj hl
      simp only [isLink, List.any_eq_true, Bool.and_eq_true, beq_iff_eq] at hl
      obtain ⟨e, he, e1, e2⟩ := hl
      have hev := hs.loc e he j e1 hj
      have hek : e ≠ k := by rintro rfl; rw [hkc] at e1; injection e1 with e1; exact hj e1.symm
      have hec : e ≠ c := by
        rintro rfl
        cases hbe with
        | direct h => rw [h] at e1; injection e1 with e1; exact hj e1.symm
        | via h _ _ _ => rw [h] at e1; cases e1
      rw [← htx hsv]
      refine h2 j e (List.mem_filter.2 ⟨hev, ?_⟩) e2 e1 ?_
      · simp only [bne_iff_ne]
        exact fun h => hec (hb.cl.ord.eq_of_ref hev hc h)
      · intro h; injection h with h
        exact hek (hb.cl.ord.eq_of_ref hev hkm h)
    · intro h; rw [hsv] at h; rcases h with h | h <;> cases h
    · intro y hy
      obtain ⟨e, he, e1, e2, e3⟩ := h3 y hy
      have hev := (List.mem_filter.1 he).1
      refine ⟨?_, .inl ⟨hsv, ?_⟩⟩
      · intro hyi
        rw [hyi] at e2
        exact e3 (congrArg (fun x : Client => some x.ref) (conn_owner hb hev hkm e2 hkc))
      · simp only [isLink, List.any_eq_true, Bool.and_eq_true, beq_iff_eq]
        exact ⟨e, hs.sub e hev, e2, e1⟩
  · have hqf : q = false := hq.resolve_right hsv
    by_cases hty : c.type = .user ∨ c.type = .service
    · have hcn : c.conn = none := by
        cases hbe with
        | via h _ _ _ => exact h
        | direct h => exact absurd (conn_owner hb hc hkm h hkc ▸ hkt) hsv
      obtain ⟨p, hp, hpr⟩ : ∃ p ∈ v.clients, p.ref = c.introducer := by
        cases hbe with
        | via _ h1 h2 _ => exact ⟨_, h1, h2⟩
        | direct h => rw [hcn] at h; cases h
      have hin := (hb.cl.rem c hc hcn hne).1
      have hmask : maskCloaked (dropConn (dropCl v c.ref) c) c = maskCloaked s0 c := by
        have h1 : (dropConn (dropCl v c.ref) c).cl c.introducer = v.cl c.introducer := dropCl_cl v hin
        have h2 : v.cl c.introducer = s0.cl c.introducer := by rw [← hpr]; exact hs.cl hb0 hb hp
        have h3 : (dropConn (dropCl v c.ref) c).conf = s0.conf := hs.conf
        simp only [maskCloaked, displayedHost, genCloak, h1, h2, h3]
      have hconns : (dropCl t c.ref).conns = (dropConn (dropCl v c.ref) c).conns.filter (fun k => P k.idx) := by
        rw [dropConn_none _ _ hcn]; exact hk
      obtain ⟨o, h1, h2, h3⟩ := related_akin hbv c.ref c ⟨"QUIT", [if s0.conf.morePrivacy then [] else txt]⟩ P
      have hrel : ∀ j, Related (dropConn (dropCl v c.ref) c) c.ref j ↔ Related v c.ref j := by
        intro j
        constructor
        · rintro ⟨x, hx, x1, x2, x3, x4⟩
          exact ⟨x, (List.mem_filter.1 hx).1, x1, x2, x3, x4⟩
        · rintro ⟨x, hx, x1, x2, x3, x4⟩
          exact ⟨x, List.mem_filter.2 ⟨hx, by simpa using x1⟩, x1, x2, x3, x4⟩
      refine ⟨o, ?_, ?_, ?_, ?_⟩
      · have e0 : destroySelf t c fwd q = destroyUserOrService (dropCl t c.ref) c fwd q := by
          simp only [destroySelf]
          rcases hty with h | h <;> rw [h] <;> rfl
        have hmp : (dropCl t c.ref).conf.morePrivacy = s0.conf.morePrivacy := by
          show t.conf.morePrivacy = _
          rw [ha.conf, hs.conf]
        rw [e0, hqf]
        simp only [destroyUserOrService, Bool.false_eq_true, if_false, channelQuit, hmp, htu hty]
        rw [registerWhowas_out, removeQuit_fold, h1 _ hav hconns]
        rfl
      · intro h; exact absurd h hsv
      · intro _ j hj hr
        rw [h2 j (hP j hj) ((hrel j).2 ((hs.related hb0 hc hj).2 hr)), hmask]
      · intro y hy
        have hyr := (hrel _).1 (h3 y hy)
        have hyi : y.conn ≠ i := by
          intro he
          obtain ⟨x, hx, x1, x2, x3, x4⟩ := hyr
          rw [he] at x2
          exact x3 (conn_owner hb hx hkm x2 hkc ▸ hkt)
        exact ⟨hyi, .inr ⟨hty, (hs.related hb0 hc hyi).1 hyr⟩⟩
    · refine ⟨[], ?_, fun h => absurd h hsv, fun h => absurd h hty, by simp⟩
      simp only [destroySelf]
      split
      · rename_i h; exact absurd (.inl h) hty
      · rename_i h; exact absurd (.inr h) hty
      · rename_i h; exact absurd h hsv
      · rfl

/-! ## All of them -/

/-- `v'` is `v` without some clients of other servers with references from `r` on. -/
structure Less (v v' : Srv) (r : Nat) : Prop where
  sub : ∀ c ∈ v'.clients, c ∈ v.clients
  loc : ∀ c ∈ v.clients, c.conn.isSome = true ∨ c.ref < r → c ∈ v'.clients
  cl2 : ∀ m ∈ v'.cl2, m ∈ v.cl2
  keep : ∀ m ∈ v.cl2, ∀ c ∈ v'.clients, c.ref = m.client → m ∈ v'.cl2
  conf : v'.conf = v.conf
  this : v'.this = v.this
  base : Base v'

theorem Less.trans {v' w : Srv} {r' : Nat} (h : Less v v' r') (h' : Less v' w r) (hr : r ≤ r') : Less v w r where
  sub c hc := h.sub c (h'.sub c hc)
  loc c hc hh := h'.loc c (h.loc c hc (hh.imp id (fun g => Nat.lt_of_lt_of_le g hr))) hh
  cl2 m hm := h.cl2 m (h'.cl2 m hm)
  keep m hm c hc e := h'.keep m (h.keep m hm c (h'.sub c hc) e) c hc e
  conf := h'.conf.trans h.conf
  this := h'.this.trans h.this
  base := h'.base

theorem destroySelf_less (hb : Base v) (hc : c ∈ v.clients) (hcn : c.conn = none) (hne : c.ref ≠ v.this) (f : Option Str) (q : Bool) :
    Less v (destroySelf v c f q) c.ref := by
  have hcore' : (destroySelf v c f q).core = ((Act.destroy c).run v).core := by
    show _ = (dropConn (destroySelf v c none false) c).core
    rw [dropConn_none _ _ hcn, destroySelf_core, destroySelf_core]
  obtain ⟨h1, h2, h3, h4, h5, h6⟩ := destroySelf_fields v c f q
  have hcl2 := (core_cl2 hcore').trans (destroy_cl2 hb.ch c)
  have hmem : ∀ a, a ∈ (destroySelf v c f q).clients ↔ a ∈ v.clients ∧ a.ref ≠ c.ref := by
    intro a; rw [h1]; simp [dropCl, List.mem_filter]
  refine ⟨fun a ha => ((hmem a).1 ha).1, ?_, ?_, ?_, ?_, h5, ?_, hb.ch.destroySelf c f q⟩
  · intro a ha hh
    refine (hmem a).2 ⟨ha, fun he => ?_⟩
    have := hb.cl.ord.eq_of_ref ha hc he
    subst this
    rcases hh with h | h
    · rw [hcn] at h; cases h
    · omega
  · intro m hm
    rw [hcl2] at hm
    split at hm
    · exact (List.mem_filter.1 hm).1
    · exact hm
  · intro m hm a ha e
    rw [hcl2]
    split
    · refine List.mem_filter.2 ⟨hm, ?_⟩
      simp only [bne_iff_ne, ne_eq]
      exact fun g => ((hmem a).1 ha).2 (e.trans g)
    · exact hm
  · exact (core_conf hcore').trans (run_conf _ (by simp))
  · have := hb.cl.drop c hc hne
    rw [dropConn_none _ _ hcn] at this
    exact this.of_eq h1 h2 h5 (Nat.le_of_eq h6.symm) h4

/-- A client found by the scan of `Client_Destroy` other than the one to be removed. -/
theorem hit_child (hb : Base v) (hne : r ≠ v.this) (hd : d ∈ v.clients) (hh : destroyHit v r d = true) (hdr : d.ref ≠ r) :
    d.introducer = r ∧ (v.cl r).type = .server ∧ r < d.ref ∧ d.conn = none ∧ d.ref ≠ v.this ∧ v.cl r ∈ v.clients ∧ (v.cl r).ref = r := by
  have hint : d.introducer = r ∧ (v.cl r).type = .server := by
    simp only [destroyHit, Bool.or_eq_true, Bool.and_eq_true, beq_iff_eq, bne_iff_ne, ne_eq, decide_eq_true_eq] at hh
    rcases hh with h | h
    · exact ⟨h.1.2, h.1.1⟩
    · exact absurd h hdr
  have hlt : r < d.ref := by have := hb.cl.intro d hd; omega
  have hdthis : d.ref ≠ v.this := by
    intro h
    obtain ⟨e, he, h1, h2, h3, h4⟩ := hb.cl.self
    have : d = e := hb.cl.ord.eq_of_ref hd he (h.trans h1.symm)
    subst this
    omega
  have hr : v.cl r ∈ v.clients ∧ (v.cl r).ref = r := by
    cases hq : v.cl? r with
    | none =>
      have : v.cl r = noClient := by simp [Srv.cl, hq]
      rw [this] at hint
      exact absurd hint.2 (by decide)
    | some p =>
      have hp := cl?_some hq
      have : v.cl r = p := by simp [Srv.cl, hq]
      rw [this]
      exact hp
  refine ⟨hint.1, hint.2, hlt, ?_, hdthis, hr⟩
  cases h : d.conn with
  | none => rfl
  | some i =>
    have h1 := hb.cl.loc d hd (by simp [h])
    rcases h1 with h1 | h1
    · omega
    · exact absurd (hint.1.symm.trans h1) hne

theorem destroyF_less (n : Nat) (hb : Base v) (hr : ∀ c ∈ v.clients, c.ref = r → c.conn = none) (hne : r ≠ v.this)
    (f : Option Str) (q : Bool) : Less v (destroyF n v r f q) r := by
  have hrefl : ∀ {w : Srv} {r : Nat}, Base w → Less w w r := fun hw =>
    ⟨fun _ h => h, fun _ h _ => h, fun _ h => h, fun _ h _ _ _ => h, rfl, rfl, hw⟩
  induction n generalizing v r f q with
  | zero => exact hrefl hb
  | succ n ih =>
    simp only [destroyF]
    cases hf : v.clients.find? (destroyHit v r) with
    | none => exact hrefl hb
    | some c =>
      have hc := List.mem_of_find?_eq_some hf
      have hh := List.find?_some hf
      simp only
      by_cases hcr : c.ref = r
      · rw [if_pos hcr, ← hcr]
        exact destroySelf_less hb hc (hr c hc hcr) (by rw [hcr]; exact hne) f q
      · rw [if_neg hcr]
        obtain ⟨-, -, h3, h4, h5, -⟩ := hit_child hb hne hc hh hcr
        have h1 := ih hb (fun e he hr => by rw [hb.cl.ord.eq_of_ref he hc hr]; exact h4) h5
          (some ((v.cl v.this).id ++ ' ' :: (v.cl r).id)) false
        exact h1.trans (ih h1.base (fun e he => hr e (h1.sub e he)) (by rw [h1.this]; exact hne) f q) (Nat.le_of_lt h3)

theorem removeQuit_sig (s : Srv) (ch : Nat) (c d : Client) (z : Str) (b : Bool) :
    (removeClient s .quit ch c d z b).1.sigQuit = s.sigQuit := by
  simp only [removeClient]
  split
  · rfl
  · have h : ∀ u : Srv, (deleteIfEmpty u ch).sigQuit = u.sigQuit := by
      intro u; simp only [deleteIfEmpty]; split <;> rfl
    exact h _

theorem destroySelf_sig (s : Srv) (c : Client) (f : Option Str) (q : Bool) : (destroySelf s c f q).sigQuit = s.sigQuit := by
  have hfold : ∀ (l : List Chan) (c d : Client) (z : Str) (b : Bool) (s : Srv),
      (l.foldl (fun s ch => (removeClient s .quit ch.ref c d z b).1) s).sigQuit = s.sigQuit := by
    intro l c d z b
    induction l with
    | nil => intro s; rfl
    | cons a l ih => intro s; rw [List.foldl_cons, ih, removeQuit_sig]
  have hu : ∀ u : Srv, (destroyUserOrService u c f q).sigQuit = u.sigQuit := by
    intro u
    simp only [destroyUserOrService]
    obtain ⟨a, b, h⟩ := registerWhowas_eq (channelQuit (if q = true then if c.conn.isSome = true then writeServers u none c ⟨"QUIT", [f.getD []]⟩
      else writeServers u (some (nextHop u c).ref) c ⟨"QUIT", [f.getD []]⟩ else u) c (f.getD c.id)) c
    rw [h]
    show (channelQuit _ _ _).sigQuit = _
    simp only [channelQuit]
    rw [hfold]
    show (if q = true then _ else _ : Srv).sigQuit = _
    split
    · split <;> rfl
    · rfl
  simp only [destroySelf]
  split
  · exact hu _
  · exact hu _
  · split <;> rfl
  · rfl

theorem destroyF_sig (n : Nat) (s : Srv) (r : Nat) (f : Option Str) (q : Bool) : (destroyF n s r f q).sigQuit = s.sigQuit := by
  induction n generalizing s r f q with
  | zero => rfl
  | succ n ih =>
    simp only [destroyF]
    cases s.clients.find? (destroyHit s r) with
    | none => rfl
    | some c =>
      simp only
      split
      · exact destroySelf_sig s c f q
      · rw [ih, ih]

theorem Spec.Behind.less {v v' : Srv} {q : Nat} (hb : Base v) (hl : ∀ c ∈ v.clients, c.ref ≤ q → c ∈ v'.clients) (h : Behind v i c) :
    c ∈ v.clients → c.ref ≤ q → Behind v' i c := by
  induction h with
  | direct h => exact fun _ _ => .direct h
  | @via c p hn hp hpr hbp ih =>
    intro hc hle
    have h1 := hb.cl.intro c hc
    exact .via hn (hl p hp (by omega)) hpr (ih hp (by omega))

theorem destroyF_sub (n : Nat) (s : Srv) (r : Nat) (f : Option Str) (q : Bool) :
    ∀ e ∈ (destroyF n s r f q).clients, e ∈ s.clients := by
  induction n generalizing s r f q with
  | zero => exact fun _ h => h
  | succ n ih =>
    simp only [destroyF]
    cases s.clients.find? (destroyHit s r) with
    | none => exact fun _ h => h
    | some c =>
      simp only
      split
      · intro e he
        rw [(destroySelf_fields s c f q).1] at he
        exact (List.mem_filter.1 he).1
      · exact fun e he => ih _ _ _ _ e (ih _ _ _ _ e he)

theorem destroyF_bye (hb0 : Base s0) {R : Nat} {reason : Option Str} {P : Nat → Bool} (hP : ∀ j, j ≠ i → P j = true)
    {k : Client} (hkt : k.type = .server) (hkc : k.conn = some i) (n : Nat) :
    ∀ {v t : Srv} {r : Nat} {fwd : Option Str} {q : Bool}, Base v → Shrunk s0 v i → t.noConn = v.noConn →
      t.conns = v.conns.filter (fun x => P x.idx) → t.sigQuit = false → k ∈ v.clients → R ≤ r → r ≠ v.this →
      (∀ c ∈ v.clients, c.ref = r → Behind v i c ∧ (q = false ∨ c.type = .server) ∧
        (c.type = .server → fwd.getD [] = splitText s0 R reason c) ∧
        ((c.type = .user ∨ c.type = .service) → fwd.getD c.id = splitText s0 R reason c)) →
      ∃ ds : List (Client × List Sent), (destroyF n t r fwd q).out = ds.flatMap (fun x => x.2) ++ t.out ∧
        (ds.map (fun x => x.1)).Nodup ∧
        (∀ d, d ∈ ds.map (fun x => x.1) ↔ d ∈ t.clients ∧ d ∉ (destroyF n t r fwd q).clients) ∧
        (∀ x ∈ ds, Bye s0 i x.1 (splitText s0 R reason x.1) x.2) := by
  induction n with
  | zero =>
    intro v t r fwd q hb hs ht hconns hsig hk hR hne hc
    exact ⟨[], rfl, by simp, fun d => ⟨by simp, fun h => absurd h.1 h.2⟩, by simp⟩
  | succ n ih =>
    intro v t r fwd q hb hs ht hconns hsig hkm hR hne hcs
    have hcl : t.clients = v.clients := noConn_clients ht
    simp only [destroyF]
    cases hf : t.clients.find? (destroyHit t r) with
    | none => exact ⟨[], rfl, by simp, fun d => ⟨by simp, fun h => absurd h.1 h.2⟩, by simp⟩
    | some c =>
      have hh := List.find?_some hf
      rw [destroyHit_congr hcl] at hh
      have hc : c ∈ v.clients := by rw [← hcl]; exact List.mem_of_find?_eq_some hf
      simp only
      by_cases hcr : c.ref = r
      · rw [if_pos hcr]
        obtain ⟨h1, h2, h3, h4⟩ := hcs c hc hcr
        obtain ⟨o, e, hby⟩ := bye_one hb0 hb hs ht hconns hP hsig hc h1 hkm hkt hkc h2 h3 h4
        refine ⟨[(c, o)], by simpa using e, by simp, fun d => ?_, by simpa using hby⟩
        rw [(destroySelf_fields t c fwd q).1]
        simp only [List.map_cons, List.map_nil, List.mem_singleton, dropCl, List.mem_filter, bne_iff_ne, ne_eq, not_and, Classical.not_not]
        constructor
        · rintro rfl; exact ⟨by rw [hcl]; exact hc, fun _ => rfl⟩
        · rintro ⟨g1, g2⟩; exact hb.cl.ord.eq_of_ref (hcl ▸ g1) hc (g2 g1)
      · rw [if_neg hcr]
        obtain ⟨h1, h2, h3, h4, h5, h6, h7⟩ := hit_child hb hne hc hh hcr
        have hbr := hcs _ h6 h7
        have hbc : Behind v i c := .via h4 h6 (by rw [h7, h1]) hbr.1
        have hthis : t.this = v.this := (Akin.of_noConn ht).this
        have htcl : ∀ a, t.cl a = v.cl a := fun a => by simp only [Srv.cl, Srv.cl?, hcl]
        have hsplit : ∀ d : Client, d.introducer = r → d.ref ≠ R →
            (t.cl t.this).id ++ ' ' :: (t.cl r).id = splitText s0 R reason d := by
          intro d hd hdR
          obtain ⟨th, hth, e1, -⟩ := hb.cl.self
          rw [splitText, if_neg hdR, htcl, htcl, hthis, hd, ← h7, ← e1, hs.cl hb0 hb h6, hs.cl hb0 hb hth, ← hs.this, e1]
        have hcR : c.ref ≠ R := by omega
        generalize hsp : (t.cl t.this).id ++ ' ' :: (t.cl r).id = sp at hsplit
        obtain ⟨ds1, a1, a2, a3, a4⟩ := ih (v := v) (t := t) (r := c.ref) (fwd := some sp) (q := false) hb hs ht hconns hsig hkm
          (by omega) h5 (fun d hd hdr => by
            have := hb.cl.ord.eq_of_ref hd hc hdr
            subst this
            exact ⟨hbc, .inl rfl, fun _ => hsplit d h1 hcR, fun _ => hsplit d h1 hcR⟩)
        have hless := destroyF_less n hb (r := c.ref) (fun e he hr => by rw [hb.cl.ord.eq_of_ref he hc hr]; exact h4) h5 (some sp) false
        have hnc : (destroyF n t c.ref (some sp) false).noConn = (destroyF n v c.ref (some sp) false).noConn := destroyF_noConn n ht _ _ _ _ _
        obtain ⟨ds2, b1, b2, b3, b4⟩ := ih (v := destroyF n v c.ref (some sp) false) (t := destroyF n t c.ref (some sp) false)
          (r := r) (fwd := fwd) (q := q) hless.base
          ⟨fun e he => hs.sub e (hless.sub e he), fun e he j hj hji => hless.loc e (hs.loc e he j hj hji) (.inl (by rw [hj]; rfl)),
            fun m hm => hs.cl2 m (hless.cl2 m hm), fun m hm e he g => hless.keep m (hs.keep m hm e (hless.sub e he) g) e he g,
            hless.conf.trans hs.conf, hless.this.trans hs.this⟩ hnc
          (by rw [(destroyF_conns n t c.ref (some sp) false).1, (destroyF_conns n v c.ref (some sp) false).1]; exact hconns)
          (by rw [destroyF_sig]; exact hsig) (hless.loc k hkm (.inl (by rw [hkc]; rfl))) hR (by rw [hless.this]; exact hne)
          (fun e he her => by
            have hev := hless.sub e he
            obtain ⟨g1, g2⟩ := hcs e hev her
            exact ⟨g1.less hb (fun x hx hle => hless.loc x hx (.inr (by omega))) hev (Nat.le_refl _), g2⟩)
        have hsub : ∀ e ∈ (destroyF n t c.ref (some sp) false).clients, e ∈ t.clients := by
          intro e he
          rw [noConn_clients hnc] at he
          rw [hcl]; exact hless.sub e he
        have hsub2 : ∀ e ∈ (destroyF n (destroyF n t c.ref (some sp) false) r fwd q).clients,
            e ∈ (destroyF n t c.ref (some sp) false).clients := destroyF_sub n _ _ _ _
        refine ⟨ds2 ++ ds1, ?_, ?_, fun d => ?_, ?_⟩
        · rw [b1, a1, List.flatMap_append, List.append_assoc]
        · rw [List.map_append]
          refine List.nodup_append.2 ⟨b2, a2, ?_⟩
          rintro x hx y hy rfl
          exact ((a3 x).1 hy).2 ((b3 x).1 hx).1
        · rw [List.map_append, List.mem_append, b3, a3]
          constructor
          · rintro (⟨g1, g2⟩ | ⟨g1, g2⟩)
            · exact ⟨hsub d g1, g2⟩
            · exact ⟨g1, fun h => g2 (hsub2 d h)⟩
          · rintro ⟨g1, g2⟩
            by_cases hm : d ∈ (destroyF n t c.ref (some sp) false).clients
            · exact .inl ⟨hm, g2⟩
            · exact .inr ⟨g1, hm⟩
        · intro x hx
          rcases List.mem_append.1 hx with hx | hx
          · exact b4 x hx
          · exact a4 x hx

/-! ## The lines per connection -/

theorem flatMap_chosen {l : List (Client × List Sent)} {p : Client × List Sent → Bool} {g : Client → Sent}
    (h1 : ∀ x ∈ l, p x = true → onConn x.2 j = [g x.1]) (h2 : ∀ x ∈ l, p x = false → onConn x.2 j = []) :
    onConn (l.flatMap (fun x => x.2)) j = ((l.filter p).map (fun x => x.1)).map g := by
  induction l with
  | nil => rfl
  | cons a l ih =>
    rw [List.flatMap_cons, onConn_append, ih (fun x hx => h1 x (.tail _ hx)) (fun x hx => h2 x (.tail _ hx))]
    cases hp : p a with
    | true => rw [h1 a (.head _) hp, List.filter_cons_of_pos hp]; rfl
    | false => rw [h2 a (.head _) hp, List.filter_cons_of_neg (by simp [hp])]; rfl

theorem split_told (hb0 : Base s0) {R : Nat} {reason : Option Str} {ds : List (Client × List Sent)}
    (hl : isLink s0 i = true) (hn : (ds.map (fun x => x.1)).Nodup) (hd : ∀ d, d ∈ ds.map (fun x => x.1) ↔ Under s0 R d)
    (hby : ∀ x ∈ ds, Bye s0 i x.1 (splitText s0 R reason x.1) x.2) :
    SplitTold s0 i R reason (ds.flatMap (fun x => x.2)) := by
  classical
  have hrel : ∀ r j, Related s0 r j → isLink s0 j = false := by
    rintro r j ⟨x, hx, -, h1, h2, -⟩
    rw [isLink_iff hb0 hx h1]
    exact decide_eq_false h2
  have hnd : ∀ p : Client × List Sent → Bool, ((ds.filter p).map (fun x => x.1)).Nodup := fun p =>
    List.Sublist.nodup (List.Sublist.map _ List.filter_sublist) hn
  refine ⟨fun j hj hlj => ?_, fun j hlj => ?_, ?_⟩
  · refine ⟨(ds.filter (fun x => decide (x.1.type = .server))).map (fun x => x.1), hnd _, fun d => ?_, ?_⟩
    · rw [← hd]
      simp only [List.mem_map, List.mem_filter, decide_eq_true_eq]
      constructor
      · rintro ⟨x, ⟨hx, h1⟩, rfl⟩; exact ⟨⟨x, hx, rfl⟩, h1⟩
      · rintro ⟨⟨x, hx, rfl⟩, h1⟩; exact ⟨x, ⟨hx, h1⟩, rfl⟩
    · refine flatMap_chosen (fun x hx hp => ?_) (fun x hx hp => ?_)
      · exact (hby x hx).links (by simpa using hp) j hj hlj
      · refine onConn_nil (fun y hy he => ?_)
        rcases ((hby x hx).from_ y hy).2 with h | h
        · exact (by simpa using hp : ¬ x.1.type = .server) h.1
        · have := hrel _ _ h.2; rw [he, hlj] at this; cases this
  · have hji : j ≠ i := by rintro rfl; rw [hl] at hlj; cases hlj
    refine ⟨(ds.filter (fun x => decide ((x.1.type = .user ∨ x.1.type = .service) ∧ Related s0 x.1.ref j))).map (fun x => x.1),
      hnd _, fun d => ?_, ?_⟩
    · rw [← hd]
      simp only [List.mem_map, List.mem_filter, decide_eq_true_eq]
      constructor
      · rintro ⟨x, ⟨hx, h1⟩, rfl⟩; exact ⟨⟨x, hx, rfl⟩, h1⟩
      · rintro ⟨⟨x, hx, rfl⟩, h1⟩; exact ⟨x, ⟨hx, h1⟩, rfl⟩
    · refine flatMap_chosen (g := fun d => ⟨j, some (maskCloaked s0 d), ⟨"QUIT", [if s0.conf.morePrivacy then [] else splitText s0 R reason d]⟩⟩)
        (fun x hx hp => ?_) (fun x hx hp => ?_)
      · have hp := of_decide_eq_true hp
        exact (hby x hx).users hp.1 j hji hp.2
      · have hp := of_decide_eq_false hp
        refine onConn_nil (fun y hy he => ?_)
        rcases ((hby x hx).from_ y hy).2 with h | h
        · rw [he, hlj] at h; cases h.2
        · rw [he] at h; exact hp h
  · refine onConn_nil (fun y hy => ?_)
    obtain ⟨x, hx, hxy⟩ := List.mem_flatMap.1 hy
    exact ((hby x hx).from_ y hxy).1

/-- A server of the network disappears. -/
theorem destroy_server_out (hb : Base s) {P : Nat → Bool} (hP : ∀ j, j ≠ i → P j = true) (ht : t.noConn = s.noConn)
    (hconns : t.conns = s.conns.filter (fun x => P x.idx)) (hsig : t.sigQuit = false) {k : Client} (hkm : k ∈ s.clients)
    (hkt : k.type = .server) (hkc : k.conn = some i) (hc : c ∈ s.clients) (hct : c.type = .server) (hbe : Behind s i c)
    (fwd : Option Str) (q : Bool) (hgone : ∀ d, d ∈ (clientDestroy t c.ref fwd q).clients ↔ d ∈ s.clients ∧ ¬ Under s c.ref d) :
    ∃ o, (clientDestroy t c.ref fwd q).out = o ++ t.out ∧ SplitTold s i c.ref fwd o := by
  have hcl : t.clients = s.clients := noConn_clients ht
  obtain ⟨ds, h1, h2, h3, h4⟩ := destroyF_bye hb (R := c.ref) (reason := fwd) hP hkt hkc (t.clients.length + 1) (v := s) (t := t) (r := c.ref)
    (fwd := fwd) (q := q) hb ⟨fun _ h => h, fun _ h _ _ _ => h, fun _ h => h, fun _ h _ _ _ => h, rfl, rfl⟩ ht hconns hsig hkm
    (Nat.le_refl _) (hbe.ne_this hb hc) (fun d hd hr => by
      have := hb.cl.ord.eq_of_ref hd hc hr
      subst this
      refine ⟨hbe, .inr hct, fun _ => by rw [splitText, if_pos rfl], fun h => ?_⟩
      rw [hct] at h; rcases h with h | h <;> cases h)
  refine ⟨ds.flatMap (fun x : Client × List Sent => x.2), h1, split_told hb ?_ h2 (fun d => ?_) h4⟩
  · rw [isLink_iff hb hkm hkc, hkt]; rfl
  · rw [h3]
    show d ∈ t.clients ∧ d ∉ (clientDestroy t c.ref fwd q).clients ↔ _
    rw [hgone, hcl]
    constructor
    · rintro ⟨g1, g2⟩; exact Classical.byContradiction (fun h => g2 ⟨g1, h⟩)
    · intro h; exact ⟨h.mem, fun g => g.2 h⟩

/-- A link is lost. -/
theorem close_server_out (hb : Base s) (hsig : s.sigQuit = false) (hc : c ∈ s.clients) (hct : c.type = .server)
    (hcc : c.conn = some i) (fwd : Option Str) (inform : Bool) :
    ∃ o, (connClose s i fwd inform).out = o ++ (if inform then
        [⟨i, none, ⟨"ERROR", [c.ID, c.User, c.host, fwd.getD "\"\"".toList]⟩⟩] else []) ++ s.out ∧ SplitTold s i c.ref fwd o := by
  obtain ⟨k, hk, hkr⟩ := conn?_of_mem hb.cl hc hcc
  have hgone := connClose_gone hb hk fwd inform
  have hcl : s.cl k.client = c := by rw [hkr]; exact cl_of_mem hb.cl.ord hc
  rw [hkr] at hgone
  revert hgone
  simp only [connClose, hk, hcl]
  generalize hs1 : (if inform = true then closeMsgs s i c fwd else s) = s1
  have hs1' : s1 = { s with out := (if inform then
        [⟨i, none, ⟨"ERROR", [c.ID, c.User, c.host, fwd.getD "\"\"".toList]⟩⟩] else []) ++ s.out } := by
    rw [← hs1]
    cases inform with
    | false => rfl
    | true =>
      simp only [if_true, closeMsgs, hct]
      rfl
  intro hgone
  obtain ⟨o, h1, h2⟩ := destroy_server_out (t := { s1 with conns := s1.conns.filter (fun x => x.idx != i) }) (c := c) hb
    (P := fun x => x != i) (fun j hj => by simpa using hj) (by rw [hs1']; rfl) (by rw [hs1']) (by rw [hs1']; exact hsig) hc hct hcc hc hct (.direct hcc)
    fwd true (by rw [← hkr]; exact hkr ▸ hgone.clients)
  refine ⟨o, ?_, h2⟩
  rw [hkr]
  show (clientDestroy _ _ _ _).out = _
  rw [h1]
  show o ++ s1.out = _
  rw [hs1', List.append_assoc]

end Ngircd
