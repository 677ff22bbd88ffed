import Verif.Spec.Burst
import Verif.Props.Relay
import Verif.Props.ServerLink

/-!
# C70: linking joins the two halves of the network
-/

set_option linter.unusedSimpArgs false

namespace Ngircd
open Spec

variable {s v t : Srv} {i j : Nat} {l : Str} {cl : Nat} {req : Request} {c d p : Client}

theorem lineTo_link (hb : Base t) (hd : d ∈ t.clients) (hty : d.type = .server) (hj : d.conn = some j) (c : Client) (m : Msg) :
    lineTo t d c m = some (peerLine j c m) := by
  simp only [lineTo, hb.nextHop_conn hd (by rw [hj]; rfl), hj, Option.map_some, peerLine, getPrefix, hty, if_true]

theorem rankSigns_eq (x : Bool) (ms : Str) : njoinPrefix x ms = rankSigns x ms := by
  have e : ∀ c, hasChar ms c = decide (c ∈ ms) := fun c => by simp [hasChar]
  simp only [njoinPrefix, rankSigns, e]
  cases x <;>
  by_cases hq : 'q' ∈ ms <;> by_cases ha : 'a' ∈ ms <;> by_cases ho : 'o' ∈ ms <;> by_cases hh : 'h' ∈ ms <;> by_cases hv : 'v' ∈ ms <;>
    simp only [hq, ha, ho, hh, hv, decide_true, decide_false, List.filter_cons, List.filter_nil, Bool.true_and, Bool.false_and, Bool.and_true, Bool.and_false, if_true, if_false,
      Bool.false_eq_true, Bool.or_true, Bool.true_or, Bool.false_or, List.map_cons, List.map_nil] <;> rfl

theorem infoLines_eq (hb : Base t) (hp : p ∈ t.clients) (hty : p.type = .server) (hi : p.conn = some i) (ch : Chan) :
    sendCHANINFO t p ch = infoLines t i ch := by
  have ek : ch.hasMode 'k' = decide ('k' ∈ ch.modes) := by simp [Chan.hasMode, hasChar]
  have el : ch.hasMode 'l' = decide ('l' ∈ ch.modes) := by simp [Chan.hasMode, hasChar]
  simp only [sendCHANINFO, infoLines, lineTo_link hb hp hty hi, ek, el, Option.toList_some]
  by_cases h0 : ch.modes = [] ∧ ch.topic = []
  · rw [if_pos h0, if_pos (by simp [h0.1, h0.2])]
  · rw [if_neg h0, if_neg (by simpa [List.isEmpty_iff] using h0)]
    by_cases hk : 'k' ∈ ch.modes <;> by_cases hl : 'l' ∈ ch.modes <;> cases ht : ch.topic <;> cases hy : ch.key <;> simp [hk, hl, ht, hy]

theorem toList_flat {α : Type} (l : List α) (f : α → Sent) : l.flatMap (fun x => [f x]) = l.map f := by
  induction l with
  | nil => rfl
  | cons a l ih => rw [List.flatMap_cons, ih]; rfl

theorem memberLines_eq (hb : Base t) (hp : p ∈ t.clients) (hty : p.type = .server) (hi : p.conn = some i) (ch : Chan) :
    announceChannel t p i ch = memberLines t i p ch := by
  have e1 : t.cl2.filter (fun m => m.chan == ch.ref) = channelMembers t ch := by
    unfold channelMembers
    refine List.filter_congr (fun m _ => ?_)
    rw [Bool.eq_iff_iff]; simp
  have e2 : p.hasFlag 'X' = decide ('X' ∈ p.flags) := by simp [Client.hasFlag, hasChar]
  simp only [announceChannel, memberLines, e1, rfc_oldStyle hb, lineTo_link hb hp hty hi, toList_flat, Option.toList_some, rankSigns_eq, e2, List.isEmpty_iff]
  rfl

theorem listLines_eq (hb : Base t) (hp : p ∈ t.clients) (hty : p.type = .server) (hi : p.conn = some i) :
    synchronizeLists t p = listLines t i := by
  simp only [synchronizeLists, sendList, lineTo_link hb hp hty hi, listLines, maskLines, Option.toList_some, toList_flat, Chan.list, CList.letter]
  congr 1
  refine List.map_congr_left (fun e _ => ?_)
  congr 4
  by_cases h : (e.validUntil : Int) > t.now
  · rw [if_pos h, if_pos (by omega)]
  · rw [if_neg h, if_neg (by omega)]

theorem networkLines_eq (hb : Base t) (hp : p ∈ t.clients) (hty : p.type = .server) (hi : p.conn = some i) :
    burstRest t p i = networkLines t i p := by
  have e1 : p.hasFlag 'C' = decide ('C' ∈ p.flags) := by simp [Client.hasFlag, hasChar]
  have e2 : p.hasFlag 'L' = decide ('L' ∈ p.flags) := by simp [Client.hasFlag, hasChar]
  have e3 : ∀ c : Chan, (!c.isLocal) = decide (c.name.head? ≠ some '&') := by
    intro c
    rw [Bool.eq_iff_iff]
    simp [Chan.isLocal]
  simp only [burstRest, networkLines, announceMsgs_eq hb hp hty hi, lineTo_link hb hp hty hi, infoLines_eq hb hp hty hi, memberLines_eq hb hp hty hi,
    listLines_eq hb hp hty hi, e1, e2, e3, decide_eq_true_eq, Option.toList_some]


theorem foldl_max (l : List Client) : ∀ m : Nat, m ≤ l.foldl (fun m c => max m c.hops.toNat) m ∧ ∀ c ∈ l, c.hops.toNat ≤ l.foldl (fun m c => max m c.hops.toNat) m := by
  induction l with
  | nil => exact fun m => ⟨Nat.le_refl _, fun c hc => by cases hc⟩
  | cons a l ih =>
    intro m
    have := ih (max m a.hops.toNat)
    rw [List.foldl_cons]
    refine ⟨by omega, fun c hc => ?_⟩
    rcases List.mem_cons.1 hc with rfl | hc
    · have := this.1
      omega
    · exact this.2 c hc

theorem mem_burst (t : Srv) (r : Nat) (d : Client) (hpos : ∀ d ∈ t.clients, d.type = .server → d.ref ≠ r → d.ref ≠ t.this → 0 ≤ d.hops) :
    d ∈ burstServers t r ↔ d ∈ t.clients ∧ d.type = .server ∧ d.ref ≠ r ∧ d.ref ≠ t.this := by
  simp only [burstServers, List.mem_flatMap, List.mem_range, List.mem_filter, Bool.and_eq_true, decide_eq_true_eq, beq_iff_eq, bne_iff_ne, ne_eq]
  constructor
  · rintro ⟨k, -, h1, ⟨⟨h2, -⟩, h3⟩, h4⟩
    exact ⟨h1, h2, h3, h4⟩
  · rintro ⟨h1, h2, h3, h4⟩
    have h5 := hpos d h1 h2 h3 h4
    have := (foldl_max t.clients 0).2 d h1
    refine ⟨d.hops.toNat, ?_, h1, ⟨⟨h2, by omega⟩, h3⟩, h4⟩
    simp only [maxHops]; omega

theorem burst_sorted (t : Srv) (r : Nat) : (burstServers t r).Pairwise (fun a b => a.hops ≤ b.hops) := by
  simp only [burstServers, List.pairwise_flatMap]
  refine ⟨fun k _ => ?_, ?_⟩
  · refine List.Pairwise.imp_of_mem (R := fun _ _ => True) ?_ (List.pairwise_of_forall (fun _ _ => trivial))
    intro a b ha hb _
    simp only [List.mem_filter, Bool.and_eq_true, decide_eq_true_eq, beq_iff_eq] at ha hb
    rw [ha.2.1.1.2, hb.2.1.1.2]; exact Int.le_refl _
  · refine List.Pairwise.imp (R := (· < ·)) ?_ List.pairwise_lt_range
    intro a b hab x hx y hy
    simp only [List.mem_filter, Bool.and_eq_true, decide_eq_true_eq, beq_iff_eq] at hx hy
    rw [hx.2.1.1.2, hy.2.1.1.2]; omega

theorem burst_nodup (hb : Base t) (r : Nat) : (burstServers t r).Nodup := by
  simp only [List.Nodup, burstServers, List.pairwise_flatMap]
  refine ⟨fun k _ => ?_, ?_⟩
  · refine List.Pairwise.filter _ ?_
    exact hb.cl.ord.imp (fun h e => by rw [e] at h; exact Nat.lt_irrefl _ h)
  · refine List.Pairwise.imp (R := (· < ·)) ?_ List.pairwise_lt_range
    intro a b hab x hx y hy he
    subst he
    simp only [List.mem_filter, Bool.and_eq_true, decide_eq_true_eq, beq_iff_eq] at hx hy
    have := hx.2.1.1.2.symm.trans hy.2.1.1.2
    omega

/-- Each server but the new one has somebody who stands for it. -/
def Spec.Sponsored (t : Srv) (p : Client) : Prop :=
  ∀ d ∈ t.clients, d.type = .server → d.ref ≠ p.ref → d.ref ≠ t.this → d.hops = 1 ∨ ∃ f ∈ t.clients, d.topserver = some f.ref

theorem announce_some (hb : Base t) (hp : p ∈ t.clients) (hty : p.type = .server) (hi : p.conn = some i)
    (hsp : Sponsored t p) (hd : d ∈ t.clients) (hdt : d.type = .server) (h1 : d.ref ≠ p.ref) (h2 : d.ref ≠ t.this) :
    announceServer t p d = some ((match d.conn with | some j => [peerLine j (t.cl t.this) (serverLine p)] | none => []) ++ [peerLine i (sponsor t d) (serverLine d)]) := by
  have ha : (if d.conn.isSome then (lineTo t d (t.cl t.this) ⟨"SERVER", [p.ID, intStr (p.hops + 1), intStr p.mytoken, p.info]⟩).toList else []) =
      (match d.conn with | some j => [peerLine j (t.cl t.this) (serverLine p)] | none => []) := by
    cases hj : d.conn with
    | none => rfl
    | some j => simp only [Option.isSome_some, if_true, lineTo_link hb hd hdt hj]; rfl
  simp only [announceServer, ha, lineTo_link hb hp hty hi]
  by_cases hh : d.hops = 1
  · simp only [sponsor, if_pos hh, Option.map_some]
    rfl
  · rcases hsp d hd hdt h1 h2 with h | ⟨f, hf, hft⟩
    · exact absurd h hh
    · simp only [sponsor, if_neg hh, hft, Option.bind_some, cl?_of_mem hb.cl.ord hf, Option.map_some, cl_of_mem hb.cl.ord hf]
      rfl

theorem network_conn : ∀ y ∈ networkLines t i p, y.conn = i := by
  intro y hy
  simp only [networkLines, List.mem_append, List.mem_flatMap, List.mem_singleton] at hy
  rcases hy with ((⟨u, -, hy⟩ | ⟨c, -, hy⟩) | hy) | rfl
  · exact introLines_conn y hy
  · rcases hy with hy | hy
    · split at hy
      · unfold infoLines at hy
        split at hy
        · cases hy
        · split at hy <;> (rw [List.mem_singleton.1 hy]; rfl)
      · cases hy
    · unfold memberLines at hy
      split at hy
      · obtain ⟨m, -, hy⟩ := List.mem_flatMap.1 hy
        rcases List.mem_cons.1 hy with rfl | hy
        · rfl
        · obtain ⟨x, -, rfl⟩ := List.mem_map.1 hy
          rfl
      · split at hy
        · cases hy
        · rw [List.mem_singleton.1 hy]; rfl
  · split at hy
    · simp only [listLines, maskLines, List.mem_append, List.mem_flatMap, List.mem_map] at hy
      rcases hy with ⟨e, -, rfl⟩ | ⟨c, -, (⟨e, -, rfl⟩ | ⟨e, -, rfl⟩) | ⟨e, -, rfl⟩⟩ <;> rfl
    · cases hy
  · rfl

/-- The burst. -/
theorem burst_told {T : Srv} (hT : T = clientSetType v cl .server) (hb : Base T) (hp : T.cl cl ∈ T.clients) (hpr : (T.cl cl).ref = cl) (hty : (T.cl cl).type = .server)
    (hi : (T.cl cl).conn = some i) (hpos : ∀ d ∈ T.clients, d.type = .server → d.ref ≠ cl → d.ref ≠ T.this → 0 ≤ d.hops)
    (hsp : Sponsored T (T.cl cl)) (hne : cl ≠ T.this) (hthis : (T.cl T.this).conn = none) :
    ∃ o, numENDOFMOTD v cl = ({ T with out := o ++ T.out }, true) ∧ BurstTold T i (T.cl cl) [] o := by
  have hmem := fun d => mem_burst T cl d hpos
  have hann : ∀ d ∈ burstServers T cl, announceServer T (T.cl cl) d =
      some ((match d.conn with | some j => [peerLine j (T.cl T.this) (serverLine (T.cl cl))] | none => []) ++ [peerLine i (sponsor T d) (serverLine d)]) := by
    intro d hd
    obtain ⟨h1, h2, h3, h4⟩ := (hmem d).1 hd
    exact announce_some hb hp hty hi hsp h1 h2 (by rw [hpr]; exact h3) h4
  have hall : ((burstServers T cl).map (announceServer T (T.cl cl))).all (fun a => a.isSome) = true := by
    rw [List.all_eq_true]
    intro a ha
    obtain ⟨d, hd, rfl⟩ := List.mem_map.1 ha
    rw [hann d hd]; rfl
  obtain ⟨g, hg⟩ : ∃ g : Client → List Sent, g = fun d => (match d.conn with | some j => [peerLine j (T.cl T.this) (serverLine (T.cl cl))] | none => []) ++
    [peerLine i (sponsor T d) (serverLine d)] := ⟨_, rfl⟩
  have hfm : ((burstServers T cl).map (announceServer T (T.cl cl))).flatMap (fun a => a.getD []) = (burstServers T cl).flatMap g := by
    rw [List.flatMap_map]
    have : ∀ bs : List Client, (∀ d ∈ bs, announceServer T (T.cl cl) d = some (g d)) →
        bs.flatMap (fun a => (announceServer T (T.cl cl) a).getD []) = bs.flatMap g := by
      intro bs
      induction bs with
      | nil => intro _; rfl
      | cons b bs ih =>
        intro h
        rw [List.flatMap_cons, List.flatMap_cons, ih (fun d hd => h d (List.mem_cons_of_mem _ hd)), h b (List.mem_cons_self ..)]
        rfl
    exact this _ (fun d hd => by rw [hann d hd, hg])
  have hrest : burstRest T (T.cl cl) i = networkLines T i (T.cl cl) := networkLines_eq hb hp hty hi
  have hrun : numENDOFMOTD v cl = ({ T with out := ((networkLines T i (T.cl cl)).reverse ++ ((burstServers T cl).flatMap g).reverse) ++ T.out }, true) := by
    simp only [numENDOFMOTD, ← hT]
    rw [hall]
    simp only [if_true, hi, Option.getD_some]
    rw [hfm, List.append_assoc]
    have e2 : burstRest (T.emits ((burstServers T cl).flatMap g)) (T.cl cl) i = networkLines T i (T.cl cl) :=
      networkLines_eq (t := T.emits ((burstServers T cl).flatMap g)) (Base.of_core (s := T) rfl hb) hp hty hi
    rw [e2]
    rfl
  have hg2 : ∀ d ∈ burstServers T cl, ∀ k, d.conn = some k → k ≠ i := by
    intro d hd k hk he
    obtain ⟨h1, _, h3, _⟩ := (hmem d).1 hd
    exact h3 (by rw [conn_owner hb h1 hp (hk.trans (congrArg some he)) hi, hpr])
  have hflat : ∀ (k : Nat) (bs : List Client), (bs.flatMap g).filter (fun x => x.conn == k) = bs.flatMap (fun d => (g d).filter (fun x => x.conn == k)) := by
    intro k bs
    induction bs with
    | nil => rfl
    | cons b bs ih => rw [List.flatMap_cons, List.filter_append, ih, List.flatMap_cons]
  refine ⟨_, hrun, ⟨burstServers T cl, burst_nodup hb cl, fun d => ?_, burst_sorted T cl, ?_⟩, ?_, ?_⟩
  · rw [hmem d, hpr]
  · rw [onConn_append, List.reverse_append, onConn, onConn, List.filter_reverse, List.filter_reverse, List.reverse_reverse, List.reverse_reverse, hflat,
      List.filter_eq_self.2 (fun y hy => by rw [network_conn y hy]; exact beq_self_eq_true i)]
    congr 1
    rw [List.nil_append]
    have : ∀ bs : List Client, (∀ d ∈ bs, ∀ k, d.conn = some k → k ≠ i) →
        bs.flatMap (fun d => (g d).filter (fun x => x.conn == i)) = bs.map (fun d => peerLine i (sponsor T d) (serverLine d)) := by
      intro bs
      induction bs with
      | nil => intro _; rfl
      | cons b bs ih =>
        intro h
        rw [List.flatMap_cons, ih (fun d hd => h d (List.mem_cons_of_mem _ hd)), List.map_cons]
        have : (g b).filter (fun x => x.conn == i) = [peerLine i (sponsor T b) (serverLine b)] := by
          rw [hg]
          have hbb := h b (List.mem_cons_self ..)
          cases hc : b.conn with
          | none => simp [hc, peerLine]
          | some k => simp [hc, peerLine, hbb k hc]
        rw [this]; rfl
    exact this _ hg2
  · intro j d hd hdt hj hji
    have hdb : d ∈ burstServers T cl := (hmem d).2 ⟨hd, hdt, fun e => hji (by
      have := hb.cl.ord.eq_of_ref hd hp (e.trans hpr.symm)
      rw [this, hi] at hj; exact (Option.some.inj hj).symm), fun e => by
      have := cl_of_mem hb.cl.ord hd
      rw [e] at this
      rw [this, hj] at hthis; cases hthis⟩
    rw [onConn_append, onConn_nil (fun y hy => by rw [network_conn y (List.mem_reverse.1 hy)]; exact fun e => hji e.symm), List.nil_append, onConn, List.filter_reverse, hflat]
    have hz : ∀ b, (g b).filter (fun x => x.conn == j) = (if b.conn = some j then [peerLine j (T.cl T.this) (serverLine (T.cl cl))] else []) := by
      intro b
      rw [hg]
      have hij : ¬ i = j := fun e => hji e.symm
      cases hc : b.conn with
      | none => simp [hc, peerLine, hij]
      | some k => by_cases hk : k = j <;> simp [hc, peerLine, hij, hk]
    simp only [hz]
    have : ∀ bs : List Client, bs.Nodup → d ∈ bs → (∀ b ∈ bs, b.conn = some j → b = d) →
        bs.flatMap (fun b => if b.conn = some j then [peerLine j (T.cl T.this) (serverLine (T.cl cl))] else []) = [peerLine j (T.cl T.this) (serverLine (T.cl cl))] := by
      intro bs
      induction bs with
      | nil => intro _ h; cases h
      | cons b bs ih =>
        intro hn hm hu
        have hn' := List.nodup_cons.1 hn
        rw [List.flatMap_cons]
        by_cases hbd : b = d
        · subst hbd
          rw [if_pos hj, List.flatMap_eq_nil_iff.2, List.append_nil]
          intro x hx
          exact if_neg (fun e => hn'.1 (by have := hu x (List.mem_cons_of_mem _ hx) e; rwa [this] at hx))
        · rw [if_neg (fun e => hbd (hu b (List.mem_cons_self ..) e)), List.nil_append]
          exact ih hn'.2 (by rcases List.mem_cons.1 hm with h | h; exact absurd h.symm hbd; exact h) (fun x hx => hu x (List.mem_cons_of_mem _ hx))
    rw [this _ (burst_nodup hb cl) hdb (fun b hbm e => conn_owner hb ((hmem b).1 hbm).1 hd e hj)]
    rfl
  · intro y hy
    have hlink : isLink T i = true := isLink_mem.2 ⟨_, hp, hty, hi⟩
    rcases List.mem_append.1 hy with hy | hy
    · rw [network_conn y (List.mem_reverse.1 hy)]; exact hlink
    · obtain ⟨d, hd, hyd⟩ := List.mem_flatMap.1 (List.mem_reverse.1 hy)
      obtain ⟨h1, h2, _, _⟩ := (hmem d).1 hd
      rw [hg] at hyd
      cases hc : d.conn with
      | none =>
        simp only [hc, List.nil_append, List.mem_singleton] at hyd
        rw [hyd]; exact hlink
      | some k =>
        simp only [hc, List.cons_append, List.nil_append, List.mem_cons, List.not_mem_nil, or_false] at hyd
        rcases hyd with rfl | rfl
        · exact isLink_mem.2 ⟨_, h1, h2, hc⟩
        · exact hlink

/-! ### The end of the message of the day -/

theorem setType_plain (v : Srv) {ty : CType} (hty : ty ≠ .user) (h : (v.cl? cl).isSome = true) :
    clientSetType v cl ty = v.updCl cl (fun c => if ty = .server then { c with type := ty, mytoken := genMyToken v } else { c with type := ty }) := by
  simp only [clientSetType]
  generalize hf : (fun c : Client => if ty = .server then { c with type := ty, mytoken := genMyToken v } else { c with type := ty }) = f
  have hr : ∀ c, (f c).ref = c.ref := fun c => by rw [← hf]; simp only; split <;> rfl
  have ht : ∀ c, (f c).type = ty := fun c => by rw [← hf]; simp only; split <;> rfl
  rw [cl_upd_self f hr h]
  simp only [adjustCounters]
  rw [if_pos (by rw [ht]; exact hty)]

theorem Spec.BurstTold.hello {hi : List Sent} {o : List Sent} (hp : p ∈ t.clients) (hty : p.type = .server) (hc : p.conn = some i) (hh : ∀ y ∈ hi, y.conn = i)
    (h : BurstTold t i p [] o) : BurstTold t i p hi (o ++ hi.reverse) := by
  refine ⟨?_, fun j d hd hdt hj hji => ?_, fun y hy => ?_⟩
  · obtain ⟨sv, h1, h2, h3, h4⟩ := h.peer
    refine ⟨sv, h1, h2, h3, ?_⟩
    rw [onConn_append, List.reverse_append, h4, onConn, List.filter_reverse, List.reverse_reverse, List.filter_eq_self.2 (fun y hy => by rw [hh y hy]; exact beq_self_eq_true i)]
    rw [List.nil_append, List.append_assoc]
  · rw [onConn_append, h.links j d hd hdt hj hji, onConn_nil (o := hi.reverse) (fun y hy => by rw [hh y (List.mem_reverse.1 hy)]; exact fun e => hji e.symm)]
    rfl
  · rcases List.mem_append.1 hy with hy | hy
    · exact h.others y hy
    · rw [hh y (List.mem_reverse.1 hy)]
      exact isLink_mem.2 ⟨_, hp, hty, hc⟩

/-- **C70** The server this one has opened a connection to says that its message of the day is over: it is linked now, with a token no other
server has, it gets the whole network, every other link learns of it, and nothing else happens. -/
theorem C70_numeric (h : PoliteRun s) (hr : Received s i l cl req) (ht : (s.cl cl).type = .unknownServer) (hcmd : req.command = "376".toList)
    {a : Str} (hto : req.argv.head? = some a) (hth : a = ['*'] ∨ ((s.cl s.this).id ≠ [] ∧ SameCase (s.cl s.this).id (nickPart a)))
    (hpos : ∀ d ∈ s.clients, d.type = .server → d.ref ≠ s.this → 0 ≤ d.hops) (hsp : Sponsored s (s.cl cl)) (rnd : Int) :
    ∃ tok o, (∀ d ∈ s.clients, d.mytoken ≠ tok) ∧
      Emitted (withClient s cl (fun c => { c with type := .server, mytoken := tok })) (step s (.line i rnd l)) o ∧
      BurstTold (withClient s cl (fun c => { c with type := .server, mytoken := tok })) i { s.cl cl with type := .server, mytoken := tok } [] o := by
  have hb := h.reachable.base
  obtain ⟨g1, g2, g3, g4⟩ := hr.owner hb
  have hst : step s (.line i rnd l) = (numENDOFMOTD (s.roll rnd) cl).1 := by
    rw [step_line hr rnd]
    simp only [handleRequest]
    rw [roll_cl, ht, hcmd, if_pos (by decide)]
    cases hq : req.argv with
    | nil => rw [hq] at hto; cases hto
    | cons a' as =>
      rw [hq] at hto
      have ha : a' = a := Option.some.inj hto
      subst ha
      have htgt : numericTarget (s.roll rnd) req = some (s.cl s.this) := by
        simp only [numericTarget, Request.argc, Request.arg, hq, List.length_cons, List.getD_cons_zero]
        rw [if_pos (by omega)]
        by_cases hs : a' = ['*']
        · rw [if_neg (by rw [hs]; decide)]; rfl
        · rw [if_pos (show a' ≠ "*".toList from hs), roll_search]
          rcases hth with h' | h'
          · exact absurd h' hs
          · exact (C13_lookup h a' _).2 ⟨hb.this_mem.1, h'⟩
      simp only [handleNumeric, htgt]
      rw [if_pos (show (s.cl s.this).ref = (s.roll rnd).this from hb.this_mem.2.1), hcmd, if_neg (by decide), if_neg (by decide), if_pos (by decide)]
  obtain ⟨T, hT⟩ : ∃ T, T = clientSetType (s.roll rnd) cl .server := ⟨_, rfl⟩
  have hbT : Base T := by
    refine Base.of_core (s := step s (.line i rnd l)) ?_ ((step_steps_any hb _).base hb)
    rw [hst, numENDOFMOTD_core, hT]
  have hsome : ((s.roll rnd).cl? cl).isSome = true := cl?_isSome_of_conn (by rw [roll_cl, g3]; rfl)
  have hTe : T = (withClient s cl (fun c => { c with type := .server, mytoken := genMyToken (s.roll rnd) })).roll rnd := by
    rw [hT, setType_plain _ (by decide) hsome]
    rfl
  have hcl : T.cl cl = { s.cl cl with type := .server, mytoken := genMyToken (s.roll rnd) } := by
    rw [hTe, roll_cl]
    exact cl_upd_self (s := s) (fun c => { c with type := .server, mytoken := genMyToken (s.roll rnd) }) (fun _ => rfl) hsome
  have hm : T.cl cl ∈ T.clients := (mem_of_conn (r := cl) (by rw [hcl]; show (s.cl cl).conn.isSome = true; rw [g3]; rfl)).1
  have hth : T.this = s.this := by rw [hTe]; rfl
  have hold : ∀ d ∈ T.clients, d.ref ≠ cl → d ∈ s.clients := by
    intro d hd hne
    rw [hTe] at hd
    obtain ⟨c, hc, rfl⟩ := List.mem_map.1 hd
    by_cases hcc : c.ref = cl
    · rw [if_pos hcc] at hne; exact absurd hcc hne
    · rw [if_neg hcc]; exact hc
  have hkeep : ∀ f ∈ s.clients, ∃ f' ∈ T.clients, f'.ref = f.ref := by
    intro f hf
    refine ⟨_, by rw [hTe]; exact List.mem_map_of_mem hf, ?_⟩
    split <;> rfl
  obtain ⟨o, h1, h2⟩ := burst_told hT hbT hm (by rw [hcl]; exact g2) (by rw [hcl]) (by rw [hcl]; exact g3)
    (fun d hd hdt hne hdn => hpos d (hold d hd hne) hdt (by rw [hth] at hdn; exact hdn))
    (fun d hd hdt hne hdn => by
      have hne' : d.ref ≠ cl := by rw [hcl] at hne; intro e; exact hne (e.trans g2.symm)
      rcases hsp d (hold d hd hne') hdt (by rw [g2]; exact hne') (by rw [hth] at hdn; exact hdn) with h | ⟨f, hf, hft⟩
      · exact .inl h
      · obtain ⟨f', hf', hr'⟩ := hkeep f hf
        exact .inr ⟨f', hf', by rw [hft, hr']⟩)
    (by rw [hth]; exact g4) hbT.this_mem.2.2.2.1
  rw [hcl, hTe] at h2
  refine ⟨genMyToken (s.roll rnd), o, genMyToken_free (s.roll rnd), ⟨rnd, ?_⟩, ⟨h2.peer, h2.links, h2.others⟩⟩
  rw [hst, h1, hTe]
  rfl

/-! ### SERVER -/

/-- A connection that has become the link to server `name`. -/
def Spec.linked (conf : Conf) (name info : Str) (tok : Int) (c : Client) : Client :=
  { c with id := name, hash := Hash name, user := if conf.cloakUserToNick then name.take 19 else c.user,
           info := if conf.cloakUserToNick then name else info.take 127, hops := 1, introducer := c.ref, token := 1, type := .server, mytoken := tok }

/-- The server after connection `i` of client `r` has become the link for the configured server number `slot`; `old` tells whether the peer
uses the old protocol. -/
def Spec.withLink (s : Srv) (i r slot : Nat) (old : Bool) (g : Client → Client) : Srv :=
  { withClient s r g with
    srvConn := if s.srvConn.lookup slot = some i then s.srvConn else (slot, i) :: s.srvConn
    conns := if old then s.conns.map (fun k => if k.idx = i then { k with rfc1459 := true } else k) else s.conns }

theorem updCl_updCl (s : Srv) (r : Nat) (f g : Client → Client) (hf : ∀ c, (f c).ref = c.ref) :
    (s.updCl r f).updCl r g = s.updCl r (fun c => g (f c)) := by
  simp only [Srv.updCl, List.map_map]
  congr 1
  refine List.map_congr_left (fun c _ => ?_)
  simp only [Function.comp]
  by_cases h : c.ref = r
  · rw [if_pos h, if_pos (by rw [hf]; exact h), if_pos h]
  · rw [if_neg h, if_neg h, if_neg h]

theorem serverLink_ok (hb : Base s) (hco : (s.cl cl).conn = some i) (ho : Owner s i cl) (ha : req.argc = 2 ∨ req.argc = 3)
    (hl : (req.arg 0).length ≤ 64) (hm : MayLink s i (req.arg 0)) :
    ∃ slot cs, s.conf.servers[slot]? = some cs ∧ SameCase cs.name (req.arg 0) ∧
      serverLink s cl i req = serverAccept { s with srvConn := if s.srvConn.lookup slot = some i then s.srvConn else (slot, i) :: s.srvConn } cl i cs req := by
  obtain ⟨k, hk, hkc⟩ := ho.conn hb
  have hpw : passwordOf s (s.cl cl) = k.pwd := by
    simp only [passwordOf, hco, Option.bind_some, hk]
  have hone : ∀ k' ∈ s.conns, k'.idx = i → k' = k := by
    intro k' h1 h2
    have := conn_at hb h1
    rw [h2, hk] at this
    injection this with this; exact this.symm
  obtain ⟨⟨slot, cs, h1, h2, h3, ⟨k', hk', e1, e2⟩, h5⟩, h6⟩ := hm
  refine ⟨slot, cs, h1, h2, ?_⟩
  simp only [serverLink]
  rw [if_neg (by rcases ha with h | h <;> rw [h] <;> decide)]
  cases hf : confFindServer s (req.arg 0) with
  | none => exact absurd h2 (findServer_none hf slot cs h1)
  | some slot' =>
    obtain ⟨cs', f1, f2, f3, f4⟩ := findServer_some hf
    have : slot = slot' := by
      rcases Nat.lt_trichotomy slot slot' with h | h | h
      · exact absurd h2 (f4 _ _ h h1)
      · exact h
      · exact absurd f3 (h3 _ _ h f1)
    subst this
    have : cs' = cs := by rw [h1] at f1; exact (Option.some.inj f1).symm
    subst this
    simp only [f2]
    rw [if_neg (by rw [hpw, ← hone k' hk' e1, e2]; exact fun h => h rfl)]
    have hck : clientCheckID s (s.cl cl) (req.arg 0) = (s, true) := by
      simp only [clientCheckID, hco]
      rw [if_neg (by unfold CLIENT_ID_LEN; omega), if_neg]
      intro hn
      obtain ⟨c, hc, he⟩ := List.any_eq_true.1 hn
      exact h6 c hc ((caseEq_same _ _).1 he)
    simp only [hck, confSetServer]
    rw [lookup_find] at h5 ⊢
    cases hfi : s.srvConn.find? (fun p => p.1 == slot) with
    | none => simp
    | some p =>
      rw [hfi] at h5
      have : p.2 = i := by
        rcases h5 with h5 | h5
        · cases h5
        · simpa using h5
      simp [this]

/-- **C70** A server configured here sends `SERVER` with the right password over a connection it has opened: it is greeted, it is linked now, with a
token no other server has, it gets the whole network, every other link learns of it, and nothing else happens. -/
theorem C70_server (h : Reachable s) (hr : Received s i l cl req) (his : Is req "SERVER")
    (ht : (s.cl cl).type = .gotPass ∨ (s.cl cl).type = .gotPass2813) {name n info : Str} (hargs : req.argv = [name, n, info]) (hlen : name.length ≤ 63)
    (hml : MayLink s i name) (hin : (s.cl cl).token ≠ -2) (hH : 'H' ∉ (s.cl cl).flags)
    (hpos : ∀ d ∈ s.clients, d.type = .server → d.ref ≠ s.this → 0 ≤ d.hops) (hsp : Sponsored s (s.cl cl)) (rnd : Int) :
    ∃ slot cs tok src o, s.conf.servers[slot]? = some cs ∧ SameCase cs.name name ∧ (∀ d ∈ s.clients, d.mytoken ≠ tok) ∧
      Emitted (withLink s i cl slot (decide ((s.cl cl).type = .gotPass)) (linked s.conf name info tok)) (step s (.line i rnd l)) o ∧
      BurstTold (withLink s i cl slot (decide ((s.cl cl).type = .gotPass)) (linked s.conf name info tok)) i (linked s.conf name info tok (s.cl cl))
        [⟨i, some src, ⟨"PASS", [cs.pwdOut, "0210-IRC+".toList]⟩⟩, ⟨i, some src, ⟨"SERVER", [s.conf.serverName, "1".toList, s.conf.serverInfo]⟩⟩] o := by
  have hb := h.base
  obtain ⟨g1, g2, g3, g4⟩ := hr.owner hb
  have hst := step_SERVER hr his hb ht rnd
  have h0 : req.arg 0 = name := by rw [Request.arg, hargs]; rfl
  have hlast : req.argv.getLast?.getD [] = info := by rw [hargs]; rfl
  obtain ⟨slot, cs, e1, e2, e3⟩ := serverLink_ok (s := s.roll rnd) (req := req) (Base.of_core (s := s) rfl hb) (cl := cl) (i := i) g3 (show Owner s i cl from owner_of hr)
    (.inr (by rw [Request.argc, hargs]; rfl)) (by rw [h0]; omega) (by rw [h0]; exact hml)
  rw [e3] at hst
  rw [h0] at e2
  obtain ⟨u, hu⟩ : ∃ u : Srv, u = { s.roll rnd with srvConn := if s.srvConn.lookup slot = some i then s.srvConn else (slot, i) :: s.srvConn } := ⟨_, rfl⟩
  have hst' : step s (.line i rnd l) = (serverAccept u cl i cs req).1 := by rw [hu]; exact hst
  have hucl : ∀ r, u.cl r = s.cl r := fun r => by rw [hu]; rfl
  have hsomeu : (u.cl? cl).isSome = true := cl?_isSome_of_conn (by rw [hucl, g3]; rfl)
  have hloc := hb.cl.loc (s.cl cl) g1 (by rw [g3]; rfl)
  obtain ⟨G, hG⟩ : ∃ G : Client → Client, G = fun c => setInfoC u.conf { setIdC u.conf c name with hops := 1 } info := ⟨_, rfl⟩
  have hGr : ∀ c, (G c).ref = c.ref := fun c => by rw [hG]; simp only; rw [(keeps_setInfoC _ _ _).1]; exact setIdC_ref _ _ _
  have hGk : ∀ c, (G c).conn = c.conn ∧ (G c).introducer = c.introducer ∧ (G c).token = c.token ∧ (G c).type = c.type ∧ (G c).flags = c.flags ∧ (G c).mytoken = c.mytoken := by
    intro c; rw [hG]; simp only [setInfoC, setIdC]; split <;> exact ⟨rfl, rfl, rfl, rfl, rfl, rfl⟩
  have hv1 : clientSetInfo ((clientSetID u cl (req.arg 0)).updCl cl (fun c => { c with hops := 1 })) cl (req.argv.getLast?.getD []) = u.updCl cl G := by
    rw [h0, hlast, clientSetInfo, clientSetID, updCl_updCl _ _ _ _ (fun c => setIdC_ref _ _ _),
      updCl_updCl u cl (fun c => { setIdC u.conf c name with hops := 1 }) _ (fun c => setIdC_ref _ _ _), hG]
    rfl
  have hv1c : (u.updCl cl G).cl cl = G (s.cl cl) := by rw [cl_upd_self G hGr hsomeu, hucl]
  obtain ⟨v1, hv1d⟩ : ∃ v1, v1 = u.updCl cl G := ⟨_, rfl⟩
  rw [← hv1d] at hv1 hv1c
  have hth1 : v1.this = s.this := by rw [hv1d, hu]; rfl
  have hout1 : v1.out = s.out := by rw [hv1d, hu]; rfl
  have hcf1 : v1.conf = s.conf := by rw [hv1d, hu]; rfl
  obtain ⟨P, hP⟩ : ∃ P, P = getPrefix v1 (v1.cl cl) (v1.cl v1.this) := ⟨_, rfl⟩
  have hw1 : ∀ m, write v1 (v1.cl cl) m = { v1 with out := ⟨i, some P, m⟩ :: v1.out } := by
    intro m
    rw [hP]
    exact write_local (by rw [hv1c, (hGk _).2.1, hGr, hth1]; exact hloc) (by rw [hv1c, (hGk _).1]; exact g3) m
  have hw2 : ∀ o m, write { v1 with out := o } (v1.cl cl) m = { v1 with out := ⟨i, some P, m⟩ :: o } := by
    intro o m
    rw [hP]
    exact write_local (u := { v1 with out := o }) (by rw [hv1c, (hGk _).2.1, hGr]; show _ ∨ _ = v1.this; rw [hth1]; exact hloc) (by rw [hv1c, (hGk _).1]; exact g3) m
  obtain ⟨hello, hhe⟩ : ∃ hello : List Sent, hello = [⟨i, some P, ⟨"PASS", [cs.pwdOut, "0210-IRC+".toList]⟩⟩, ⟨i, some P, ⟨"SERVER", [s.conf.serverName, "1".toList, s.conf.serverInfo]⟩⟩] := ⟨_, rfl⟩
  obtain ⟨v2, hv2⟩ : ∃ v2 : Srv, v2 = ({ v1 with out := hello.reverse ++ s.out } : Srv).updCl cl (fun c => { c with introducer := cl, token := 1 }) := ⟨_, rfl⟩
  have hc2 : v2.cl cl = { G (s.cl cl) with introducer := cl, token := 1 } := by
    rw [hv2, cl_upd_self (fun c => { c with introducer := cl, token := 1 }) (fun _ => rfl)]
    · show { v1.cl cl with introducer := cl, token := 1 } = _
      rw [hv1c]
    · show (v1.cl? cl).isSome = true
      exact cl?_isSome_of_conn (by rw [hv1c, (hGk _).1, g3]; rfl)
  obtain ⟨v3, hv3⟩ : ∃ v3 : Srv, v3 = if (s.cl cl).type = .gotPass then v2.updConn i (fun k => { k with rfc1459 := true }) else v2 := ⟨_, rfl⟩
  have hc3 : v3.cl cl = { G (s.cl cl) with introducer := cl, token := 1 } := by
    rw [hv3]; split
    · exact hc2
    · exact hc2
  obtain ⟨v4, hv4⟩ : ∃ v4 : Srv, v4 = v3.updCl cl (fun c => { c with type := .unknownServer }) := ⟨_, rfl⟩
  have hsome3 : (v3.cl? cl).isSome = true := cl?_isSome_of_conn (by rw [hc3]; show (G (s.cl cl)).conn.isSome = true; rw [(hGk _).1, g3]; rfl)
  have hc4 : v4.cl cl = { G (s.cl cl) with introducer := cl, token := 1, type := .unknownServer } := by
    rw [hv4, cl_upd_self (fun c => { c with type := .unknownServer }) (fun _ => rfl) hsome3, hc3]
  have hsome4 : (v4.cl? cl).isSome = true := cl?_isSome_of_conn (by rw [hc4]; show (G (s.cl cl)).conn.isSome = true; rw [(hGk _).1, g3]; rfl)
  have hrun : serverAccept u cl i cs req = numENDOFMOTD v4 cl := by
    simp only [serverAccept]
    rw [hv1]
    rw [if_pos (show (v1.cl cl).token ≠ TOKEN_OUTBOUND from by rw [hv1c, (hGk _).2.2.1]; exact hin)]
    rw [hw1]
    have e : write { v1 with out := ⟨i, some P, ⟨"PASS", [cs.pwdOut, "0210-IRC+".toList]⟩⟩ :: v1.out } (v1.cl cl)
        ⟨"SERVER", [v1.conf.serverName, "1".toList, v1.conf.serverInfo]⟩ = { v1 with out := hello.reverse ++ s.out } := by
      rw [hw2, hhe, hout1, hcf1]; rfl
    have e' : ((write { v1 with out := ⟨i, some P, ⟨"PASS", [cs.pwdOut, "0210-IRC+".toList]⟩⟩ :: v1.out }
        (({ v1 with out := ⟨i, some P, ⟨"PASS", [cs.pwdOut, "0210-IRC+".toList]⟩⟩ :: v1.out } : Srv).cl cl)
        ⟨"SERVER", [({ v1 with out := ⟨i, some P, ⟨"PASS", [cs.pwdOut, "0210-IRC+".toList]⟩⟩ :: v1.out } : Srv).conf.serverName, "1".toList,
          ({ v1 with out := ⟨i, some P, ⟨"PASS", [cs.pwdOut, "0210-IRC+".toList]⟩⟩ :: v1.out } : Srv).conf.serverInfo]⟩).updCl cl (fun c => { c with introducer := cl, token := 1 })) = v2 := by
      rw [hv2, ← e]; rfl
    rw [e']
    have e3 : (if (v2.cl cl).type = .gotPass then v2.updConn i (fun k => { k with rfc1459 := true }) else v2) = v3 := by
      rw [hv3, hc2]
      show (if (G (s.cl cl)).type = .gotPass then _ else _) = _
      rw [(hGk _).2.2.2.1]
    rw [e3, setType_plain v3 (by decide) hsome3]
    simp only [if_neg (show ¬ CType.unknownServer = CType.server from by decide)]
    rw [← hv4, if_neg]
    rw [hc4]
    show ¬ hasChar (G (s.cl cl)).flags 'H' = true
    rw [(hGk _).2.2.2.2.1]
    simpa [hasChar] using hH
  obtain ⟨T, hT⟩ : ∃ T, T = clientSetType v4 cl .server := ⟨_, rfl⟩
  rw [hrun] at hst'
  have hbT : Base T := by
    refine Base.of_core (s := step s (.line i rnd l)) ?_ ((step_steps_any hb _).base hb)
    rw [hst', numENDOFMOTD_core, hT]
  obtain ⟨tok, htok⟩ : ∃ tok, tok = genMyToken v4 := ⟨_, rfl⟩
  have hG5 : ∀ c, c.ref = cl → { ({ ({ G c with introducer := cl, token := 1 } : Client) with type := .unknownServer } : Client) with type := .server, mytoken := tok } = linked s.conf name info tok c := by
    intro c hc
    have hcp : strlcpy CLIENT_ID_LEN name = name := by simp only [strlcpy, CLIENT_ID_LEN]; exact List.take_of_length_le hlen
    have hcp2 : strlcpy CLIENT_INFO_LEN name = name := by simp only [strlcpy, CLIENT_INFO_LEN]; exact List.take_of_length_le (by omega)
    have hcfu : u.conf = s.conf := by rw [hu]; rfl
    rw [hG]
    simp only [setInfoC, setIdC, linked, hcp, hcp2, hcfu]
    have hcp3 : name.take 127 = name := List.take_of_length_le (by omega)
    cases s.conf.cloakUserToNick <;> simp [hc, strlcpy, CLIENT_USER_LEN, CLIENT_INFO_LEN, hcp3]
  have hTe : T = { withLink s i cl slot (decide ((s.cl cl).type = .gotPass)) (linked s.conf name info tok) with out := hello.reverse ++ s.out, rnd := rnd } := by
    rw [hT, setType_plain _ (by decide) hsome4, ← htok]
    simp only [if_true]
    have hcls : ((v4.updCl cl (fun c => { c with type := .server, mytoken := tok })).clients) = s.clients.map (fun d => if d.ref = cl then linked s.conf name info tok d else d) := by
      have h3 : v3.clients = v2.clients := by rw [hv3]; split <;> rfl
      have h2 : v2.clients = s.clients.map (fun d => if d.ref = cl then { G d with introducer := cl, token := 1 } else d) := by
        have : v1.clients = s.clients.map (fun d => if d.ref = cl then G d else d) := by rw [hv1d, hu]; rfl
        rw [hv2]
        simp only [Srv.updCl, this, List.map_map]
        refine List.map_congr_left (fun d _ => ?_)
        simp only [Function.comp]
        by_cases hd : d.ref = cl
        · rw [if_pos hd, if_pos (by rw [hGr]; exact hd), if_pos hd]
        · rw [if_neg hd, if_neg hd, if_neg hd]
      rw [hv4]
      simp only [Srv.updCl, h3, h2, List.map_map]
      refine List.map_congr_left (fun d _ => ?_)
      simp only [Function.comp]
      by_cases hd : d.ref = cl
      · have hx : (G d).ref = cl := by rw [hGr]; exact hd
        simp only [if_pos hd, if_pos hx]
        exact hG5 d hd
      · simp only [if_neg hd]
    have hrest : v4.updCl cl (fun c => { c with type := .server, mytoken := tok }) =
        { withLink s i cl slot (decide ((s.cl cl).type = .gotPass)) (linked s.conf name info tok) with
          out := hello.reverse ++ s.out, rnd := rnd, clients := (v4.updCl cl (fun c => { c with type := .server, mytoken := tok })).clients } := by
      rw [hv4, hv3]
      by_cases hgp : (s.cl cl).type = .gotPass
      · rw [if_pos hgp, hv2, hv1d, hu]
        simp only [withLink, hgp, decide_true, if_true]
        rfl
      · rw [if_neg hgp, hv2, hv1d, hu]
        simp only [withLink, hgp, decide_false, Bool.false_eq_true, if_false]
        rfl
    rw [hrest, hcls]
    rfl
  have hcl : T.cl cl = linked s.conf name info tok (s.cl cl) := by
    rw [hTe]
    exact cl_upd_self (s := s) (linked s.conf name info tok) (fun _ => rfl) (cl?_isSome_of_conn (by rw [g3]; rfl))
  have hm : T.cl cl ∈ T.clients := (mem_of_conn (r := cl) (by rw [hcl]; show (s.cl cl).conn.isSome = true; rw [g3]; rfl)).1
  have hth : T.this = s.this := by rw [hTe]; rfl
  have hTc : T.clients = s.clients.map (fun d => if d.ref = cl then linked s.conf name info tok d else d) := by rw [hTe]; rfl
  have hold : ∀ d ∈ T.clients, d.ref ≠ cl → d ∈ s.clients := by
    intro d hd hne
    rw [hTc] at hd
    obtain ⟨c, hc, rfl⟩ := List.mem_map.1 hd
    by_cases hcc : c.ref = cl
    · rw [if_pos hcc] at hne; exact absurd hcc hne
    · rw [if_neg hcc]; exact hc
  have hkeep : ∀ f ∈ s.clients, ∃ f' ∈ T.clients, f'.ref = f.ref := by
    intro f hf
    refine ⟨_, by rw [hTc]; exact List.mem_map_of_mem hf, ?_⟩
    split <;> rfl
  obtain ⟨o, h1, h2⟩ := burst_told hT hbT hm (by rw [hcl]; exact g2) (by rw [hcl]; rfl) (by rw [hcl]; exact g3)
    (fun d hd hdt hne hdn => hpos d (hold d hd hne) hdt (by rw [hth] at hdn; exact hdn))
    (fun d hd hdt hne hdn => by
      have hne' : d.ref ≠ cl := by rw [hcl] at hne; intro e; exact hne (e.trans g2.symm)
      rcases hsp d (hold d hd hne') hdt (by rw [g2]; exact hne') (by rw [hth] at hdn; exact hdn) with h | ⟨f, hf, hft⟩
      · exact .inl h
      · obtain ⟨f', hf', hr'⟩ := hkeep f hf
        exact .inr ⟨f', hf', by rw [hft, hr']⟩)
    (by rw [hth]; exact g4) hbT.this_mem.2.2.2.1
  have h3 := h2.hello (hi := hello) hm (by rw [hcl]; rfl) (by rw [hcl]; exact g3) (by rw [hhe]; intro y hy; simp only [List.mem_cons, List.not_mem_nil, or_false] at hy; rcases hy with rfl | rfl <;> rfl)
  rw [hcl, hTe, hhe] at h3
  refine ⟨slot, cs, tok, P, o ++ hello.reverse, e1, e2, fun d hd => ?_, ⟨rnd, ?_⟩, by rw [hhe]; exact ⟨h3.peer, h3.links, h3.others⟩⟩
  · have hfree := genMyToken_free v4
    rw [← htok] at hfree
    have hmt : ∃ d' ∈ v4.clients, d'.mytoken = d.mytoken := by
      have h4 : v4.clients = v2.clients.map (fun c => if c.ref = cl then { c with type := .unknownServer } else c) := by
        rw [hv4, hv3]; split <;> rfl
      have h1 : v1.clients = s.clients.map (fun d => if d.ref = cl then G d else d) := by rw [hv1d, hu]; rfl
      have h2 : v2.clients = v1.clients.map (fun c => if c.ref = cl then { c with introducer := cl, token := 1 } else c) := by rw [hv2]; rfl
      rw [h4, h2, h1]
      refine ⟨_, List.mem_map_of_mem (List.mem_map_of_mem (List.mem_map_of_mem hd)), ?_⟩
      by_cases hdc : d.ref = cl
      · have hx : (G d).ref = cl := by rw [hGr]; exact hdc
        simp only [if_pos hdc, if_pos hx]
        exact (hGk d).2.2.2.2.2
      · simp only [if_neg hdc]
    obtain ⟨d', hd', he⟩ := hmt
    rw [← he]; exact hfree d' hd'
  · rw [hst', h1, hTe]
    show _ = _
    rw [List.append_assoc]
    rfl

instance (t : Srv) (p : Client) : Decidable (Sponsored t p) := by unfold Sponsored; infer_instance

theorem Sample.net3_facts :
    recv Sample.net3 8 "SERVER hub.example.net 1 :hub".toList = some (10, ⟨none, "SERVER".toList, ["hub.example.net".toList, "1".toList, "hub".toList]⟩) ∧
    (Sample.net3.cl 10).type = .gotPass2813 ∧ MayLink Sample.net3 8 "hub.example.net".toList ∧ (Sample.net3.cl 10).token ≠ -2 ∧
    'H' ∉ (Sample.net3.cl 10).flags ∧ (∀ d ∈ Sample.net3.clients, d.type = .server → d.ref ≠ Sample.net3.this → 0 ≤ d.hops) ∧
    Sponsored Sample.net3 (Sample.net3.cl 10) ∧ (Sample.net3.clients.filter (fun d => d.type = .server)).length = 3 := by decide +kernel

/-- The hub is linked to a network with two other servers. -/
example : ∃ req : Request, Reachable Sample.net3 ∧ Received Sample.net3 8 "SERVER hub.example.net 1 :hub".toList 10 req ∧ Is req "SERVER" ∧
    ((Sample.net3.cl 10).type = .gotPass ∨ (Sample.net3.cl 10).type = .gotPass2813) ∧ req.argv = ["hub.example.net".toList, "1".toList, "hub".toList] ∧
    "hub.example.net".toList.length ≤ 63 ∧ MayLink Sample.net3 8 "hub.example.net".toList ∧ (Sample.net3.cl 10).token ≠ -2 ∧
    'H' ∉ (Sample.net3.cl 10).flags ∧ (∀ d ∈ Sample.net3.clients, d.type = .server → d.ref ≠ Sample.net3.this → 0 ≤ d.hops) ∧
    Sponsored Sample.net3 (Sample.net3.cl 10) := by
  obtain ⟨h1, h2, h3, h4, h5, h6, h7, h8⟩ := Sample.net3_facts
  exact ⟨_, Sample.polite_net3.reachable, recv_sound h1, by simp only [Is]; decide, .inr h2, rfl, by decide, h3, h4, h5, h6, h7⟩

/-- This server has opened a connection to the hub. -/
def Sample.dialled : Srv := step Sample.net2 (.connect 1 8 "6.6.6.6".toList)

theorem Sample.polite_dialled : PoliteRun Sample.dialled := .step _ Sample.polite_net2 (by decide +kernel) (fun _ _ _ h => (by cases h))

theorem Sample.dialled_facts :
    recv Sample.dialled 8 "376 irc.example.net :End".toList = some (10, ⟨none, "376".toList, ["irc.example.net".toList, "End".toList]⟩) ∧
    (Sample.dialled.cl 10).type = .unknownServer ∧ (Sample.dialled.cl Sample.dialled.this).id ≠ [] ∧
    SameCase (Sample.dialled.cl Sample.dialled.this).id (nickPart "irc.example.net".toList) ∧
    (∀ d ∈ Sample.dialled.clients, d.type = .server → d.ref ≠ Sample.dialled.this → 0 ≤ d.hops) ∧
    Sponsored Sample.dialled (Sample.dialled.cl 10) := by decide +kernel

/-- The hub has shown its message of the day. -/
example : ∃ req : Request, PoliteRun Sample.dialled ∧ Received Sample.dialled 8 "376 irc.example.net :End".toList 10 req ∧
    (Sample.dialled.cl 10).type = .unknownServer ∧ req.command = "376".toList ∧ req.argv.head? = some "irc.example.net".toList ∧
    ((Sample.dialled.cl Sample.dialled.this).id ≠ [] ∧ SameCase (Sample.dialled.cl Sample.dialled.this).id (nickPart "irc.example.net".toList)) ∧
    (∀ d ∈ Sample.dialled.clients, d.type = .server → d.ref ≠ Sample.dialled.this → 0 ≤ d.hops) ∧ Sponsored Sample.dialled (Sample.dialled.cl 10) := by
  obtain ⟨h1, h2, h3, h4, h5, h6⟩ := Sample.dialled_facts
  exact ⟨_, Sample.polite_dialled, recv_sound h1, h2, rfl, rfl, ⟨h3, h4⟩, h5, h6⟩

end Ngircd
