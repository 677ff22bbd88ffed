import Verif.Spec.Peers
import Verif.Props.Forward
import Verif.Props.Webirc
import Verif.Props.UserTold

/-!
# C77: METADATA
-/

set_option linter.unusedSimpArgs false

namespace Ngircd
open Spec

variable {s v t : Srv} {i j : Nat} {l : Str} {cl : Nat} {req : Request} {c d f p x : Client}

/-- What the linked servers that understand `fl` get. -/
theorem flag_spec (hb : Base v) (ex : Option Nat) (p : Client) (fl : Char) (m : Msg) :
    ∃ o, (∀ t, Like v t → writeServersFlag t ex p (some fl) m = { t with out := o ++ t.out }) ∧
      (∀ j, ∀ d ∈ v.clients, d.type = .server → d.conn = some j → fl ∈ d.flags → some d.ref ≠ ex → onConn o j = [⟨j, some p.ID, m⟩]) ∧
      (∀ y ∈ o, ∃ d ∈ v.clients, d.type = .server ∧ d.conn = some y.conn ∧ fl ∈ d.flags ∧ some d.ref ≠ ex) := by
  obtain ⟨ch, hch⟩ : ∃ ch : Client → Bool, ch = fun c => decide (c.type = .server) && c.conn.isSome && (c.ref != v.this) && (some c.ref != ex) && c.hasFlag fl := ⟨_, rfl⟩
  have hc : ∀ d, ch d = true ↔ d.type = .server ∧ d.conn.isSome = true ∧ d.ref ≠ v.this ∧ some d.ref ≠ ex ∧ fl ∈ d.flags := by
    intro d
    have : d.hasFlag fl = true ↔ fl ∈ d.flags := by simp [Client.hasFlag, hasChar]
    rw [hch]
    simp only [Bool.and_eq_true, decide_eq_true_eq, bne_iff_ne, ne_eq, this, and_assoc]
  obtain ⟨o, h1, h2, h3⟩ := chosen_spec hb ch (fun d _ h => ((hc d).1 h).2.1) p m
  refine ⟨o, fun t ht => ?_, fun j d hd hty hj hfl hex => ?_, fun y hy => ?_⟩
  · rw [← h1 t ht]
    have e : t.clients.filter ch = peerServers t ex (some fl) := by
      rw [hch]
      simp only [peerServers, ht.this]
    rw [e]
    rfl
  · have hne : d.ref ≠ v.this := by
      have := hb.ne_this (r := d.ref) (by rw [cl_of_mem hb.cl.ord hd, hj]; rfl)
      exact this
    have := h2 j d hd ((hc d).2 ⟨hty, by rw [hj]; rfl, hne, hex, hfl⟩) hj
    rwa [if_pos hty] at this
  · obtain ⟨d, hd, hcd, hj⟩ := h3 y hy
    obtain ⟨a1, -, -, a4, a5⟩ := (hc d).1 hcd
    exact ⟨d, hd, a1, hj, a5, a4⟩

theorem metaClient_keeps (conf : Conf) (key val : Str) (d : Client) :
    (metaClient conf key val d).ref = d.ref ∧ (metaClient conf key val d).conn = d.conn ∧ (metaClient conf key val d).type = d.type ∧
    (metaClient conf key val d).introducer = d.introducer ∧ (metaClient conf key val d).id = d.id ∧ (metaClient conf key val d).hash = d.hash ∧
    (metaClient conf key val d).modes = d.modes := by
  unfold metaClient
  simp only
  split
  · exact ⟨rfl, rfl, rfl, rfl, rfl, rfl, rfl⟩
  · split
    · exact ⟨rfl, rfl, rfl, rfl, rfl, rfl, rfl⟩
    · split
      · exact ⟨rfl, rfl, rfl, rfl, rfl, rfl, rfl⟩
      · split
        · exact ⟨rfl, rfl, rfl, rfl, rfl, rfl, rfl⟩
        · split <;> exact ⟨rfl, rfl, rfl, rfl, rfl, rfl, rfl⟩

/-- What METADATA does, given the changed state. -/
def metaTell (u : Srv) (cl r p : Nat) (m : Msg) (tell first : Bool) : Srv :=
  if first then
    let u := writeServersFlag u (some cl) (u.cl p) (some 'M') m
    if tell then tellHost u r p else u
  else
    let u := if tell then tellHost u r p else u
    writeServersFlag u (some cl) (u.cl p) (some 'M') m

theorem emitted_like {u : Srv} {o : List Sent} (h : Emitted v u o) : Like v u := by
  obtain ⟨r, rfl⟩ := h
  exact ⟨rfl, rfl, rfl, rfl, rfl⟩

theorem emitted_cl {u : Srv} {o : List Sent} (h : Emitted v u o) (r : Nat) : u.cl r = v.cl r := (emitted_like h).cl r

theorem tellHost_out (hb : Base v) {u : Srv} {o : List Sent} (h : Emitted v u o) {r p : Nat} (hm : v.cl r ∈ v.clients) (hnt : (v.cl r).type ≠ .server) :
    Emitted v (tellHost u r p) (((v.cl r).conn.toList.map (fun k => (⟨k, some (shownAs v (v.cl p) k), ⟨"RPL_HOSTHIDDEN_MSG", [(v.cl r).ID, publicHost v (v.cl r)]⟩⟩ : Sent))) ++ o) := by
  unfold tellHost
  rw [emitted_cl h, emitted_cl h]
  cases hk : (v.cl r).conn with
  | none => exact h
  | some k =>
    rw [Option.isSome_some, if_pos rfl]
    have e : displayedHost u (v.cl r) = publicHost v (v.cl r) := by
      rw [← displayedHost_public]
      obtain ⟨q, rfl⟩ := h
      rfl
    rw [e]
    have hh : nextHop v (v.cl r) = v.cl r := hb.nextHop_conn hm (by rw [hk]; rfl)
    have := emitted_then h (d := v.cl r) (j := k) (by rw [hh]; exact hk) (v.cl p) ⟨"RPL_HOSTHIDDEN_MSG", [(v.cl r).ID, publicHost v (v.cl r)]⟩
    rw [hh, if_neg hnt] at this
    have e2 : shownAs v (v.cl p) k = maskCloaked v (v.cl p) := by
      unfold shownAs
      rw [isLink_iff hb hm hk, decide_eq_false hnt]
      rfl
    rw [Option.toList_some, List.map_singleton, e2]
    exact this

theorem metaTell_out (hb : Base v) {u : Srv} (h : Emitted v u []) {cl r p : Nat} (hm : v.cl r ∈ v.clients) (hnt : (v.cl r).type ≠ .server)
    (hcl : v.cl cl ∈ v.clients) (hcr : (v.cl cl).ref = cl) (hci : (v.cl cl).conn = some i) (m : Msg) (tell first : Bool) :
    ∃ o, Emitted v (metaTell u cl r p m tell first) o ∧
      (∀ j, j ≠ i → Speaks v j 'M' → onConn o j = [⟨j, some (v.cl p).ID, m⟩]) ∧
      (∀ k, (v.cl r).conn = some k → onConn o k = if tell then [⟨k, some (shownAs v (v.cl p) k), ⟨"RPL_HOSTHIDDEN_MSG", [(v.cl r).ID, publicHost v (v.cl r)]⟩⟩] else []) ∧
      (∀ y ∈ o, (v.cl r).conn = some y.conn ∨ (y.conn ≠ i ∧ Speaks v y.conn 'M')) := by
  obtain ⟨o1, k1, k2, k3⟩ := flag_spec hb (some cl) (v.cl p) 'M' m
  obtain ⟨o2, ho2⟩ : ∃ o2 : List Sent, o2 = if tell then ((v.cl r).conn.toList.map (fun k => (⟨k, some (shownAs v (v.cl p) k), ⟨"RPL_HOSTHIDDEN_MSG", [(v.cl r).ID, publicHost v (v.cl r)]⟩⟩ : Sent))) else [] := ⟨_, rfl⟩
  have hw : ∀ {w : Srv} {o : List Sent}, Emitted v w o → Emitted v (writeServersFlag w (some cl) (v.cl p) (some 'M') m) (o1 ++ o) := by
    intro w o hw
    rw [k1 w (emitted_like hw)]
    obtain ⟨q, rfl⟩ := hw
    exact ⟨q, by simp only [List.append_assoc]⟩
  have ht : ∀ {w : Srv} {o : List Sent}, Emitted v w o → Emitted v (if tell then tellHost w r p else w) (o2 ++ o) := by
    intro w o hw
    rw [ho2]
    cases tell with
    | true => exact tellHost_out hb hw hm hnt
    | false => exact hw
  have hother : ∀ y ∈ o1, y.conn ≠ i ∧ Speaks v y.conn 'M' := by
    intro y hy
    obtain ⟨d, hd, h1, h2, h3, h4⟩ := k3 y hy
    refine ⟨?_, d, hd, h1, h2, h3⟩
    intro e
    rw [e] at h2
    have := conn_owner hb hd hcl h2 hci
    rw [this, hcr] at h4
    exact h4 rfl
  have hlink : ∀ {j}, Speaks v j 'M' → (v.cl r).conn ≠ some j := by
    rintro j ⟨d, hd, h1, h2, -⟩ e
    rw [conn_owner hb hm hd e h2] at hnt
    exact hnt h1
  have hon1 : ∀ {k}, (v.cl r).conn = some k → onConn o1 k = [] := by
    intro k hk
    rw [onConn, List.filter_eq_nil_iff]
    intro y hy he
    have e : y.conn = k := by simpa using he
    exact hlink (hother y hy).2 (by rw [e]; exact hk)
  have hon2 : ∀ {j}, Speaks v j 'M' → onConn o2 j = [] := by
    intro j hj
    rw [onConn, List.filter_eq_nil_iff]
    intro y hy he
    have e : y.conn = j := by simpa using he
    rw [ho2] at hy
    split at hy
    · obtain ⟨k, hk, rfl⟩ := List.mem_map.1 hy
      refine hlink hj ?_
      rw [← e]
      exact Option.mem_toList.1 hk
    · cases hy
  have hon2' : ∀ {k}, (v.cl r).conn = some k → onConn o2 k = if tell then [⟨k, some (shownAs v (v.cl p) k), ⟨"RPL_HOSTHIDDEN_MSG", [(v.cl r).ID, publicHost v (v.cl r)]⟩⟩] else [] := by
    intro k hk
    rw [ho2, hk]
    cases tell <;> simp [onConn]
  have hlin : ∀ j, j ≠ i → Speaks v j 'M' → onConn o1 j = [⟨j, some (v.cl p).ID, m⟩] := by
    rintro j hj ⟨d, hd, h1, h2, h3⟩
    refine k2 j d hd h1 h2 h3 ?_
    intro e
    injection e with e
    have : d = v.cl cl := hb.cl.ord.eq_of_ref hd hcl (e.trans hcr.symm)
    rw [this, hci] at h2
    injection h2 with h2
    exact hj h2.symm
  have ho2c : ∀ y ∈ o2, (v.cl r).conn = some y.conn := by
    intro y hy
    rw [ho2] at hy
    split at hy
    · obtain ⟨k, hk, rfl⟩ := List.mem_map.1 hy
      exact Option.mem_toList.1 hk
    · cases hy
  cases first with
  | true =>
    refine ⟨o2 ++ o1, ?_, ?_, ?_, ?_⟩
    · have := ht (hw h)
      rw [List.append_nil] at this
      rw [metaTell, if_pos rfl, emitted_cl h]
      exact this
    · intro j hj hs
      rw [onConn_append, hon2 hs, hlin j hj hs]; rfl
    · intro k hk
      rw [onConn_append, hon1 hk, hon2' hk, List.append_nil]
    · intro y hy
      exact (List.mem_append.1 hy).imp (ho2c y) (hother y)
  | false =>
    refine ⟨o1 ++ o2, ?_, ?_, ?_, ?_⟩
    · have := ht h
      rw [List.append_nil] at this
      have e := hw this
      rw [metaTell, if_neg (by decide)]
      simp only
      rw [emitted_cl this]
      exact e
    · intro j hj hs
      rw [onConn_append, hon2 hs, hlin j hj hs]; rfl
    · intro k hk
      rw [onConn_append, hon1 hk, hon2' hk, List.nil_append]
    · intro y hy
      exact (List.mem_append.1 hy).elim (fun h => .inr (hother y h)) (fun h => .inl (ho2c y h))
theorem updCl_congr {r : Nat} {f g : Client → Client} (h : ∀ d ∈ s.clients, d.ref = r → f d = g d) : s.updCl r f = s.updCl r g := by
  simp only [Srv.updCl]
  congr 1
  apply List.map_congr_left
  intro d hd
  by_cases e : d.ref = r
  · simp only [e, if_pos, h d hd e]
  · simp only [e, if_false]

theorem behind_upd {r : Nat} {g : Client → Client} (hg : ∀ d, (g d).ref = d.ref ∧ (g d).conn = d.conn ∧ (g d).introducer = d.introducer)
    (h : Behind s i c) : Behind (s.updCl r g) i (if c.ref = r then g c else c) := by
  have k : ∀ c : Client, (if c.ref = r then g c else c).ref = c.ref ∧ (if c.ref = r then g c else c).conn = c.conn ∧ (if c.ref = r then g c else c).introducer = c.introducer := by
    intro c
    split
    · exact hg c
    · exact ⟨rfl, rfl, rfl⟩
  induction h with
  | @direct c hc => exact .direct ((k c).2.1.trans hc)
  | @via c p hc hp hpr _ ih =>
    exact .via ((k c).2.1.trans hc) (List.mem_map_of_mem (f := fun d : Client => if d.ref = r then g d else d) hp)
      ((k p).1.trans (hpr.trans (k c).2.2.symm)) ih

/-- The flag set by METADATA. -/
def metaFlag (c : Client) : Client := { c with flags := if 'M' ∈ c.flags then c.flags else (c.flags ++ ['M']).take 15 }

theorem metaFlag_upd (hb : Base s) (ht : x ∈ s.clients) :
    (if x.hasFlag 'M' then s else s.updCl x.ref (fun c => { c with flags := strlcpy 16 (c.flags ++ ['M']) })) = s.updCl x.ref metaFlag := by
  have e : x.hasFlag 'M' = true ↔ 'M' ∈ x.flags := by simp [Client.hasFlag, hasChar]
  by_cases h : 'M' ∈ x.flags
  · rw [if_pos (e.2 h)]
    have : s.updCl x.ref metaFlag = s.updCl x.ref (fun d => d) := updCl_congr (fun d hd he => by
      rw [hb.cl.ord.eq_of_ref hd ht he, metaFlag, if_pos h])
    rw [this]
    simp only [Srv.updCl, ite_self, List.map_id']
  · rw [if_neg (fun g => h (e.1 g))]
    exact updCl_congr (fun d hd he => by rw [hb.cl.ord.eq_of_ref hd ht he, metaFlag, if_neg h]; rfl)

theorem meta_base (hb : Base s) {r : Nat} {conf : Conf} {key val : Str} : Base (s.updCl r (metaClient conf key val)) := by
  refine ⟨hb.cl.upd (fun d hd _ => ?_), hb.ch.ord, hb.ch.lt, hb.ch.pairs, hb.ch.chan, hb.ch.clt⟩
  obtain ⟨h1, h2, h3, h4, h5, h6, -⟩ := metaClient_keeps conf key val d
  exact ⟨h1, h2, h4, by rw [h6, h5]; exact hb.cl.hash d hd, .inl h3⟩

theorem meta_run (hb : Base s) {p n key val : Str} (ha : Asker s i cl req) (hargs : req.argv = [n, key, val]) (hp : req.prefix? = some p)
    (hf : clientSearch s p = some f) (ht : clientSearch s n = some x) (hval : SameCase key "cloakhost".toList → val ≠ []) :
    ∃ b, ircMETADATA s cl req = (metaTell (s.updCl x.ref (metaClient s.conf key val)) cl x.ref f.ref (metaLine (metaClient s.conf key val x) key val)
      (decide (hostChanged key val x)) b, true) := by
  have hxm := clientSearch_mem ht
  have hfm := clientSearch_mem hf
  have hk : ∀ d, (metaClient s.conf key val d).ref = d.ref := fun d => (metaClient_keeps _ _ _ d).1
  have hcx : (s.updCl x.ref (metaClient s.conf key val)).cl x.ref = metaClient s.conf key val x := by
    rw [cl_updCl s x.ref x.ref _ hk (fun _ => by rw [cl?_of_mem hb.cl.ord hxm]; rfl), if_pos rfl, cl_of_mem hb.cl.ord hxm]
  have hmo := (metaClient_keeps s.conf key val x).2.2.2.2.2.2
  unfold ircMETADATA
  rw [hp]
  simp only [Request.arg, hargs, List.getD_cons_zero, List.getD_cons_succ]
  rw [hf]
  simp only
  rw [ht]
  simp only
  rw [metaFlag_upd hb hxm]
  by_cases hkey : SameCase key "cloakhost".toList
  · refine ⟨true, ?_⟩
    have hv := hval hkey
    rw [if_pos ((caseEq_same _ _).2 hkey), if_neg (show ¬ val.isEmpty = true by simpa using hv)]
    have e : (s.updCl x.ref metaFlag).updCl x.ref (fun c => { c with cloaked := some (strlcpy CLIENT_HOST_LEN val) }) = s.updCl x.ref (metaClient s.conf key val) := by
      rw [withTwo s x.ref metaFlag _ (fun _ => rfl)]
      refine updCl_congr (fun d _ _ => ?_)
      simp only [metaClient, if_pos hkey]
      rfl
    obtain ⟨W, hW⟩ : ∃ W, W = s.updCl x.ref (metaClient s.conf key val) := ⟨_, rfl⟩
    have hbW : Base W := by
      rw [hW]
      exact meta_base hb
    have hhop : (nextHop W (W.cl f.ref)).ref = cl := by
      have h1 := (nextHop_iff hb (cl := cl) ha.conn hfm).1 (ha.pre p f hp hf)
      have h2 := behind_upd (r := x.ref) (g := metaClient s.conf key val) (fun d => ⟨hk d, (metaClient_keeps _ _ _ d).2.1, (metaClient_keeps _ _ _ d).2.2.2.1⟩) h1
      have hcf : W.cl f.ref = if f.ref = x.ref then metaClient s.conf key val f else f := by
        refine cl_of_mem' hbW.cl.ord ?_ ?_
        · rw [hW]
          exact List.mem_map_of_mem (f := fun d : Client => if d.ref = x.ref then metaClient s.conf key val d else d) hfm
        · split
          · exact hk f
          · rfl
      refine (nextHop_iff hbW (i := i) ?_ ?_).2 ?_
      · rw [hW, cl_updCl s x.ref cl _ hk (fun _ => by rw [cl?_of_mem hb.cl.ord hxm]; rfl)]
        split
        · rename_i e
          rw [(metaClient_keeps _ _ _ _).2.1, ← e, ha.conn]
        · exact ha.conn
      · rw [hcf, hW]
        exact List.mem_map_of_mem (f := fun d : Client => if d.ref = x.ref then metaClient s.conf key val d else d) hfm
      · rw [hcf, hW]
        exact h2
    have e1 : updateCloak (s.updCl x.ref metaFlag) x.ref f.ref (some val) = writeServersFlag W (some cl) (W.cl f.ref) (some 'M') (metaLine (metaClient s.conf key val x) key val) := by
      unfold updateCloak
      simp only
      rw [e, ← hW, hhop, metaLine, if_pos hkey, hW, hcx]
      rfl
    obtain ⟨o1, k1, -, -⟩ := flag_spec hbW (some cl) (W.cl f.ref) 'M' (metaLine (metaClient s.conf key val x) key val)
    have hcl : (writeServersFlag W (some cl) (W.cl f.ref) (some 'M') (metaLine (metaClient s.conf key val x) key val)).cl x.ref = metaClient s.conf key val x := by
      rw [k1 W ⟨rfl, rfl, rfl, rfl, rfl⟩, ← hcx, ← hW]
      rfl
    have ht : (metaClient s.conf key val x).hasMode 'x' = decide (hostChanged key val x) := by
      rw [Bool.eq_iff_iff, hasMode_iff, hmo, decide_eq_true_eq]
      exact ⟨fun h => .inl ⟨hkey, h⟩, fun h => h.elim (·.2) (fun h => absurd (h.1.symm.trans hkey) (by decide))⟩
    rw [e1, metaTell, if_pos rfl]
    simp only
    rw [hcl, ht, ← hW]
  · refine ⟨false, ?_⟩
    rw [if_neg (fun h => hkey ((caseEq_same _ _).1 h))]
    have e1 : metadataSet (s.updCl x.ref metaFlag) x.ref f.ref key val =
        if decide (hostChanged key val x) then tellHost (s.updCl x.ref (metaClient s.conf key val)) x.ref f.ref else s.updCl x.ref (metaClient s.conf key val) := by
      have hemp : (!val.isEmpty) = true ↔ val ≠ [] := by cases val <;> simp
      have two : ∀ k : Client → Client, (∀ d, k (metaFlag d) = metaClient s.conf key val d) →
          (s.updCl x.ref metaFlag).updCl x.ref k = s.updCl x.ref (metaClient s.conf key val) := by
        intro k hk
        rw [withTwo s x.ref metaFlag k (fun _ => rfl)]
        exact updCl_congr (fun d _ _ => hk d)
      unfold metadataSet
      by_cases hh : SameCase key "host".toList ∧ val ≠ []
      · rw [if_pos (show (!val.isEmpty && caseEq key "host".toList) = true by rw [Bool.and_eq_true]; exact ⟨hemp.2 hh.2, (caseEq_same _ _).2 hh.1⟩)]
        have e : clientSetHostname (s.updCl x.ref metaFlag) x.ref val = s.updCl x.ref (metaClient s.conf key val) := by
          refine two (fun c => setHostC s.conf c val) (fun d => ?_)
          rw [setHostC_known]
          simp only [metaClient, if_neg hkey, if_pos hh]
          rfl
        rw [e]
        simp only
        rw [hcx]
        by_cases hx : 'x' ∈ x.modes
        · rw [if_pos (hasMode_iff.2 (by rw [hmo]; exact hx)), decide_eq_false (show ¬ hostChanged key val x from fun h => h.elim (fun h => hkey h.1) (fun h => h.2.2 hx))]
          rfl
        · rw [if_neg (show ¬ (metaClient s.conf key val x).hasMode 'x' = true from fun h => hx (by rw [← hmo]; exact hasMode_iff.1 h)),
            decide_eq_true (show hostChanged key val x from .inr ⟨hh.1, hh.2, hx⟩)]
          rfl
      · rw [if_neg (show ¬ (!val.isEmpty && caseEq key "host".toList) = true from fun h => by
            rw [Bool.and_eq_true] at h; exact hh ⟨(caseEq_same _ _).1 h.2, hemp.1 h.1⟩),
          decide_eq_false (show ¬ hostChanged key val x from fun h => h.elim (fun h => hkey h.1) (fun h => hh ⟨h.1, h.2.1⟩)), if_neg Bool.false_ne_true]
        by_cases hi : SameCase key "info".toList
        · rw [if_pos ((caseEq_same _ _).2 hi)]
          refine two (fun c => setInfoC s.conf c val) (fun d => ?_)
          simp only [metaClient, if_neg hkey, if_neg hh, if_pos hi, setInfoC]
          split <;> rfl
        · rw [if_neg (fun h => hi ((caseEq_same _ _).1 h))]
          by_cases hu : SameCase key "user".toList ∧ val ≠ []
          · rw [if_pos (show (!val.isEmpty && caseEq key "user".toList) = true by rw [Bool.and_eq_true]; exact ⟨hemp.2 hu.2, (caseEq_same _ _).2 hu.1⟩)]
            refine two (fun c => setUserC s.conf c val true) (fun d => ?_)
            simp only [metaClient, if_neg hkey, if_neg hh, if_neg hi, if_pos hu, setUserC]
            split <;> rfl
          · rw [if_neg (show ¬ (!val.isEmpty && caseEq key "user".toList) = true from fun h => by
              rw [Bool.and_eq_true] at h; exact hu ⟨(caseEq_same _ _).1 h.2, hemp.1 h.1⟩)]
            by_cases hac : SameCase key "accountname".toList
            · rw [if_pos ((caseEq_same _ _).2 hac)]
              refine two (fun c => { c with account := if val.isEmpty then none else some (val.take 31) }) (fun d => ?_)
              simp only [metaClient, if_neg hkey, if_neg hh, if_neg hi, if_neg hu, if_pos hac]
              cases val <;> rfl
            · rw [if_neg (fun h => hac ((caseEq_same _ _).1 h))]
              refine updCl_congr (fun d _ _ => ?_)
              simp only [metaClient, if_neg hkey, if_neg hh, if_neg hi, if_neg hu, if_neg hac]
              rfl
    have hcl : ∀ r, (metadataSet (s.updCl x.ref metaFlag) x.ref f.ref key val).cl r = (s.updCl x.ref (metaClient s.conf key val)).cl r := by
      intro r
      rw [e1]
      split
      · exact cl_congr (by unfold tellHost; split <;> rfl) r
      · rfl
    rw [hcl x.ref, hcx, metaTell, if_neg (by decide)]
    simp only
    rw [e1, metaLine, if_neg hkey]

/-- **C77** A linked server tells something about a user or service with METADATA: that client has the property now, and nothing else has changed;
all other linked servers that understand METADATA have been told the same; the client itself has been told its host name if that is now
another one for others to see; and nobody else has got a line. -/
theorem C77_metadata (h : PoliteRun s) (hr : Received s i l cl req) (hs : (s.cl cl).type = .server) (his : Is req "METADATA")
    {p n key val : Str} (hargs : req.argv = [n, key, val]) (hp : req.prefix? = some p) (hf : clientNamed s p = some f)
    (ht : clientNamed s n = some x) (hx : Person x) (hval : SameCase key "cloakhost".toList → val ≠ []) (rnd : Int) :
    ∃ v o, v = withClient s x.ref (metaClient s.conf key val) ∧ Emitted v (step s (.line i rnd l)) o ∧ MetaTold v i (v.cl f.ref) (v.cl x.ref) key val o := by
  have hb := h.reachable.base
  rw [← clientNamed_eq h] at hf ht
  have ha := hr.asker hb rnd
  have hbr := ha.base
  rw [step_do hr rnd his rfl (by rw [hs]; rfl) (by simp only [Command.argcOk, Request.argc, hargs]; rfl)]
  obtain ⟨b, hrun⟩ := meta_run hbr ha hargs hp hf ht hval
  have hxm := clientSearch_mem ht
  obtain ⟨V, hV⟩ : ∃ V, V = (s.roll rnd).updCl x.ref (metaClient s.conf key val) := ⟨_, rfl⟩
  have hbV : Base V := by rw [hV]; exact meta_base hbr
  have hkp := metaClient_keeps s.conf key val
  have hcx : V.cl x.ref = metaClient s.conf key val x := by
    rw [hV, cl_updCl (s.roll rnd) x.ref x.ref _ (fun d => (hkp d).1) (fun _ => by rw [cl?_of_mem hbr.cl.ord hxm]; rfl), if_pos rfl, cl_of_mem hbr.cl.ord hxm]
  have hccl : (V.cl cl).ref = cl ∧ (V.cl cl).conn = some i ∧ V.cl cl ∈ V.clients := by
    have e : V.cl cl = if cl = x.ref then metaClient s.conf key val (s.cl cl) else s.cl cl := by
      rw [hV, cl_updCl (s.roll rnd) x.ref cl _ (fun d => (hkp d).1) (fun _ => by rw [cl?_of_mem hbr.cl.ord hxm]; rfl)]
      split
      · rename_i e; rw [← e]; rfl
      · rfl
    have hm := List.mem_map_of_mem (f := fun d : Client => if d.ref = x.ref then metaClient s.conf key val d else d) ha.mem
    rw [roll_cl, show (s.cl cl).ref = cl from ha.ref] at hm
    rw [e, hV]
    refine ⟨?_, ?_, hm⟩
    · split
      · exact (hkp _).1.trans ha.ref
      · exact ha.ref
    · split
      · exact (hkp _).2.1.trans ha.conn
      · exact ha.conn
  have hvm : V.cl x.ref ∈ V.clients := by
    have hm := List.mem_map_of_mem (f := fun d : Client => if d.ref = x.ref then metaClient s.conf key val d else d) hxm
    rw [if_pos rfl] at hm
    rw [hcx, hV]
    exact hm
  have hnt : (V.cl x.ref).type ≠ .server := by
    rw [hcx, (hkp x).2.2.1]
    rcases hx with e | e <;> rw [e] <;> decide
  have hrun' : ircMETADATA (s.roll rnd) cl req = (metaTell V cl x.ref f.ref (metaLine (V.cl x.ref) key val) (decide (hostChanged key val x)) b, true) := by
    rw [hcx, hV]
    exact hrun
  obtain ⟨o, e1, e2, e3, e4⟩ := metaTell_out hbV (u := V) ⟨V.rnd, rfl⟩ (cl := cl) (r := x.ref) (p := f.ref) hvm hnt hccl.2.2 hccl.1 hccl.2.1 (metaLine (V.cl x.ref) key val)
    (decide (hostChanged key val x)) b
  have hhc : hostChanged key val (V.cl x.ref) ↔ hostChanged key val x := by
    rw [hcx]
    simp only [hostChanged, (hkp x).2.2.2.2.2.2]
  rw [hV] at e1 e2 e3 e4 hrun' hhc
  refine ⟨withClient s x.ref (metaClient s.conf key val), o, rfl, ?_, ?_⟩
  · show Emitted _ (ircMETADATA (s.roll rnd) cl req).1 o
    rw [hrun']
    obtain ⟨r, hr⟩ := e1
    exact ⟨r, hr⟩
  · refine ⟨e2, fun k hk => (e3 k hk).trans ?_, e4⟩
    by_cases hh : hostChanged key val x
    · rw [decide_eq_true hh, if_pos rfl]
      exact (if_pos (hhc.2 hh)).symm
    · rw [decide_eq_false hh, if_neg Bool.false_ne_true]
      exact (if_neg (fun g => hh (hhc.1 g))).symm

/-- **C77** Without a prefix, or about a client nobody knows, METADATA is only answered. -/
theorem C77_refused (h : PoliteRun s) (hr : Received s i l cl req) (his : Is req "METADATA")
    (hno : (∀ p, req.prefix? = some p → clientNamed s p = none) ∨ clientNamed s (req.arg 0) = none) (rnd : Int) :
    Answered i s (step s (.line i rnd l)) := by
  have hb := h.reachable.base
  simp only [← clientNamed_eq h] at hno
  have ha := hr.asker hb rnd
  rcases step_run hr hb rnd his rfl (by decide) with ⟨e, -⟩ | e
  · rw [e]
    show Answered i s (ircMETADATA (s.roll rnd) cl req).1
    refine Reply.ans (r := rnd) ?_
    unfold ircMETADATA
    split
    · exact rp_writeErr ha.hop (rp_refl _ _)
    · rename_i p hp
      split
      · exact rp_writeErr ha.hop (rp_refl _ _)
      · rename_i c hc
        split
        · exact rp_writeErr ha.hop (rp_refl _ _)
        · rename_i x hx
          rcases hno with h1 | h1
          · rw [roll_search, h1 p hp] at hc; cases hc
          · rw [roll_search, h1] at hx; cases hx
  · exact e
theorem Sample.meta_facts :
    recv Sample.net 7 ":peer.example.net METADATA alice host :new.host".toList = some (6, ⟨some "peer.example.net".toList, "METADATA".toList, ["alice".toList, "host".toList, "new.host".toList]⟩) ∧
    recv Sample.net 7 ":peer.example.net METADATA nobody host :new.host".toList = some (6, ⟨some "peer.example.net".toList, "METADATA".toList, ["nobody".toList, "host".toList, "new.host".toList]⟩) ∧
    (Sample.net.cl 6).type = .server ∧ (clientNamed Sample.net "peer.example.net".toList).any (fun d => decide (d.ref = 6)) = true ∧
    (clientNamed Sample.net "alice".toList).any (fun d => decide (d.type = .user ∧ hostChanged "host".toList "new.host".toList d ∧ d.conn = some 5)) = true ∧
    clientNamed Sample.net "nobody".toList = none ∧ (Sample.net.cl 10).type = .server ∧ (Sample.net.cl 10).conn = some 8 ∧ 'M' ∈ (Sample.net.cl 10).flags := by decide +kernel

example : ∃ req f x, PoliteRun Sample.net ∧ Received Sample.net 7 ":peer.example.net METADATA alice host :new.host".toList 6 req ∧ (Sample.net.cl 6).type = .server ∧
    Is req "METADATA" ∧ req.argv = ["alice".toList, "host".toList, "new.host".toList] ∧ req.prefix? = some "peer.example.net".toList ∧
    clientNamed Sample.net "peer.example.net".toList = some f ∧ clientNamed Sample.net "alice".toList = some x ∧ Person x ∧
    (SameCase "host".toList "cloakhost".toList → "new.host".toList ≠ []) ∧ hostChanged "host".toList "new.host".toList x ∧ x.conn = some 5 := by
  obtain ⟨f1, -, f3, f4, f5, -⟩ := Sample.meta_facts
  obtain ⟨g1, -⟩ := (Option.any_eq_true_iff_get _ _).1 f4
  obtain ⟨g3, g4⟩ := (Option.any_eq_true_iff_get _ _).1 f5
  have g4 := of_decide_eq_true g4
  exact ⟨_, _, _, Sample.polite_net, recv_sound f1, f3, by simp only [Is]; decide, rfl, rfl, (Option.some_get g1).symm, (Option.some_get g3).symm, .inl g4.1,
    fun _ => by decide, g4.2.1, g4.2.2⟩

example : ∃ req, PoliteRun Sample.net ∧ Received Sample.net 7 ":peer.example.net METADATA nobody host :new.host".toList 6 req ∧ Is req "METADATA" ∧
    ((∀ p, req.prefix? = some p → clientNamed Sample.net p = none) ∨ clientNamed Sample.net (req.arg 0) = none) := by
  obtain ⟨-, f2, -, -, -, f6, -⟩ := Sample.meta_facts
  exact ⟨_, Sample.polite_net, recv_sound f2, by simp only [Is]; decide, .inr f6⟩

end Ngircd
