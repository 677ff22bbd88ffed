import Verif.Lemmas.Conns
import Verif.Props.Counters
import Verif.Props.Notify
import Verif.Props.Conns

/-!
# WHOWAS

The store of recent departures and what WHOWAS tells about it (C45).
-/

namespace Ngircd

open Spec

set_option linter.unusedSimpArgs false

variable {s t u : Srv} {x : Ctx} {i cl r : Nat} {l : Str} {req : Request} {e : Event} {c : Client} {n : Str}

/-! ## Specification -/

/-- The store, read from the newest entry on. -/
def Spec.store (s : Srv) : List Whowas :=
  (List.range 64).map (fun k => s.whowas.getD ((s.lastWhowas.toNat + 64 - k) % 64) {})

/-- The departures remembered, the newest first. -/
def Spec.recent (s : Srv) : List Whowas := (store s).filter (fun w => decide (0 < w.time))

/-- Departures of client `c` are remembered: it has been online for half a minute, and the server is not configured to
forget. -/
def Spec.Memorable (s : Srv) (c : Client) : Prop := s.conf.morePrivacy = false ∧ c.starttime + 30 ≤ s.now

instance (s : Srv) (c : Client) : Decidable (Memorable s c) := by unfold Memorable; infer_instance

/-- What is remembered of client `c`. -/
def Spec.memory (s : Srv) (c : Client) : Whowas :=
  { time := s.now, id := (shown c).take 31, user := (if c.user = [] then "~".toList else c.user).take 19,
    host := (displayedHost s c).take 63, info := c.info.take 127, server := (shown (s.cl c.introducer)).take 63 }

/-! ## The ring -/

theorem getD_lt {α : Type} (l : List α) (k : Nat) (d : α) (h : k < l.length) : l.getD k d = l[k] := by
  rw [List.getD_eq_getElem?_getD, List.getElem?_eq_getElem h]; rfl


theorem ring_read (a : List Whowas) (w : Whowas) (p : Nat) (hl : a.length = 64) (hp : p < 64) :
    (List.range 64).map (fun k => (a.set ((p + 1) % 64) w).getD (((p + 1) % 64 + 64 - k) % 64) {}) =
      w :: ((List.range 64).map (fun k => a.getD ((p + 64 - k) % 64) {})).dropLast := by
  refine List.ext_getElem (by simp) ?_
  intro k h1 h2
  simp only [List.length_map, List.length_range] at h1
  simp only [List.getElem_map, List.getElem_range]
  cases k with
  | zero =>
    have e1 : ((p + 1) % 64 + 64 - 0) % 64 = (p + 1) % 64 := by omega
    rw [e1, getD_lt _ _ _ (by rw [List.length_set, hl]; omega)]
    simp
  | succ k =>
    have e1 : ((p + 1) % 64 + 64 - (k + 1)) % 64 = (p + 64 - k) % 64 := by omega
    have hne : (p + 1) % 64 ≠ (p + 64 - k) % 64 := by omega
    rw [e1]
    simp only [List.getElem_cons_succ, List.getElem_dropLast, List.getElem_map, List.getElem_range]
    rw [getD_lt _ _ _ (by rw [List.length_set, hl]; omega), getD_lt _ _ _ (by rw [hl]; omega),
      List.getElem_set_ne hne]

/-- The store is in order. -/
structure StoreInv (s : Srv) : Prop where
  len : s.whowas.length = 64
  last : -1 ≤ s.lastWhowas ∧ s.lastWhowas ≤ 63
  empty : s.lastWhowas = -1 → s.whowas = List.replicate 64 ({} : Whowas)
  used : ∃ k, store s = recent s ++ List.replicate k ({} : Whowas)

theorem store_length (s : Srv) : (store s).length = 64 := by simp [store]

theorem store_congr (h1 : t.whowas = s.whowas) (h2 : t.lastWhowas = s.lastWhowas) : store t = store s := by
  simp only [store, h1, h2]

theorem recent_congr (h1 : t.whowas = s.whowas) (h2 : t.lastWhowas = s.lastWhowas) : recent t = recent s := by
  simp only [recent, store_congr h1 h2]

theorem StoreInv.congr (h1 : t.whowas = s.whowas) (h2 : t.lastWhowas = s.lastWhowas) (h : StoreInv s) : StoreInv t := by
  obtain ⟨a, b, c, d⟩ := h
  refine ⟨by rw [h1]; exact a, by rw [h2]; exact b, by rw [h1, h2]; exact c, ?_⟩
  rw [store_congr h1 h2, recent_congr h1 h2]; exact d

theorem id_eq (c : Client) : c.ID = shown c := by
  simp only [Client.ID, shown]
  cases c.id <;> simp

theorem memory_eq (s : Srv) (c : Client) :
    ({ time := s.now, id := strlcpy 32 c.ID, user := strlcpy CLIENT_USER_LEN c.User,
       host := strlcpy CLIENT_HOST_LEN (displayedHost s c),
       info := strlcpy CLIENT_INFO_LEN c.info,
       server := strlcpy CLIENT_HOST_LEN (s.cl c.introducer).ID } : Whowas) = memory s c := by
  simp only [memory, strlcpy, id_eq, CLIENT_USER_LEN, CLIENT_HOST_LEN, CLIENT_INFO_LEN]
  have : c.User = if c.user = [] then "~".toList else c.user := by
    simp only [Client.User]; cases c.user <;> simp
  rw [this]

theorem register_spec (hi : StoreInv s) (c : Client) : StoreInv (registerWhowas s c) ∧
    recent (registerWhowas s c) = if Memorable s c then (memory s c :: recent s).take 64 else recent s := by
  simp only [registerWhowas]
  cases hp : s.conf.morePrivacy with
  | true =>
    simp only [if_true]
    exact ⟨hi, by rw [if_neg (by simp [Memorable, hp])]⟩
  | false =>
    simp only [Bool.false_eq_true, if_false]
    by_cases ht : (s.now : Int) - c.starttime < 30
    · rw [if_pos ht]
      exact ⟨hi, by rw [if_neg (by simp only [Memorable]; omega)]⟩
    · rw [if_neg ht, if_pos (show Memorable s c from ⟨hp, by omega⟩), memory_eq]
      have hpos : 0 < (memory s c).time := by show 0 < s.now; omega
      obtain ⟨hl, hb1, hemp, kk, hu⟩ := hi
      have hkey : ∃ p, p < 64 ∧ (if s.lastWhowas + 1 ≥ 64 ∨ s.lastWhowas + 1 < 0 then 0 else s.lastWhowas + 1) =
          (((p + 1) % 64 : Nat) : Int) ∧ store s = (List.range 64).map (fun k => s.whowas.getD ((p + 64 - k) % 64) {}) := by
        by_cases h1 : s.lastWhowas = -1
        · refine ⟨63, by omega, by rw [h1]; decide, ?_⟩
          simp only [store, h1, hemp h1]
          decide +kernel
        · refine ⟨s.lastWhowas.toNat, by omega, by split <;> omega, rfl⟩
      obtain ⟨p, hp1, hp2, hp3⟩ := hkey
      rw [hp2]
      simp only [Int.toNat_natCast]
      generalize hs' : ({ s with whowas := s.whowas.set ((p + 1) % 64) (memory s c), lastWhowas := (((p + 1) % 64 : Nat) : Int) } : Srv) = s'
      have hst : store s' = memory s c :: (store s).dropLast := by
        rw [← hs', hp3, ← ring_read _ _ _ hl hp1]; rfl
      have hfil : (recent s).filter (fun w => decide (0 < w.time)) = recent s := by simp [recent]
      have hlen := store_length s
      have hrec : recent s' = (memory s c :: recent s).take 64 ∧ ∃ k, store s' = recent s' ++ List.replicate k ({} : Whowas) := by
        unfold recent
        rw [hst]
        cases kk with
        | zero =>
          have hu0 : store s = recent s := by simpa using hu
          rw [List.filter_cons_of_pos (by simpa using hpos), List.dropLast_eq_take, hlen]
          have : (List.take (64 - 1) (store s)).filter (fun w => decide (0 < w.time)) = List.take 63 (store s) := by
            rw [List.filter_eq_self]
            intro w hw
            have := List.mem_of_mem_take hw
            rw [hu0] at this
            exact (List.mem_filter.1 this).2
          rw [this]
          refine ⟨?_, 0, by simp⟩
          rw [show (store s).filter (fun w => decide (0 < w.time)) = store s from hu0.symm]; rfl
        | succ kk =>
          have hlen2 : (recent s).length + (kk + 1) = 64 := by
            have := congrArg List.length hu
            rw [hlen] at this; simp at this; omega
          have hdl : (store s).dropLast = recent s ++ List.replicate kk ({} : Whowas) := by
            rw [hu, List.replicate_succ', ← List.append_assoc, List.dropLast_concat]
          have hz : (List.replicate kk ({} : Whowas)).filter (fun w => decide (0 < w.time)) = [] := by
            rw [List.filter_eq_nil_iff]
            intro w hw
            rw [(List.mem_replicate.1 hw).2]; decide
          rw [List.filter_cons_of_pos (by simpa using hpos), hdl, List.filter_append, hz, List.append_nil, hfil]
          refine ⟨?_, kk, by simp⟩
          rw [show (store s).filter (fun w => decide (0 < w.time)) = recent s from rfl]
          rw [List.take_of_length_le (by simp; omega)]
      refine ⟨⟨by rw [← hs']; simpa using hl, by
        rw [← hs']
        show -1 ≤ (((p + 1) % 64 : Nat) : Int) ∧ (((p + 1) % 64 : Nat) : Int) ≤ 63
        omega, ?_, hrec.2⟩, hrec.1⟩
      rw [← hs']
      intro h
      have h : (((p + 1) % 64 : Nat) : Int) = -1 := h
      omega

/-! ## Events -/

theorem core_whowas (h : t.core = s.core) : t.whowas = s.whowas :=
  (congrArg Srv.whowas h : t.core.whowas = s.core.whowas)
theorem core_lastWhowas (h : t.core = s.core) : t.lastWhowas = s.lastWhowas :=
  (congrArg Srv.lastWhowas h : t.core.lastWhowas = s.core.lastWhowas)

/-- The actions that write to the store. -/
def Act.logs : Act → Bool
  | .destroy _ | .whowas _ => true
  | _ => false

theorem run_store (t : Srv) {a : Act} (ha : a.logs = false) :
    (a.run t).whowas = t.whowas ∧ (a.run t).lastWhowas = t.lastWhowas := by
  cases a with
  | destroy | whowas => cases ha
  | setType r ty =>
    simp only [Act.run, clientSetType]
    generalize hu : (t.updCl r fun c => if ty = .server then { c with type := ty, mytoken := genMyToken t } else { c with type := ty }) = u
    obtain ⟨_, _, h⟩ := adjustCounters_eq u (u.cl r)
    rw [h, ← hu]; exact ⟨rfl, rfl⟩
  | newCl c =>
    simp only [Act.run, initNewClient]
    obtain ⟨_, _, h⟩ := adjustCounters_eq { t with clients := c :: t.clients, nextRef := t.nextRef + 1 } c
    rw [h]; exact ⟨rfl, rfl⟩
  | newLocal c k =>
    simp only [Act.run, initNewClient]
    obtain ⟨_, _, h⟩ := adjustCounters_eq { t with clients := c :: t.clients, nextRef := t.nextRef + 1 } c
    rw [h]; exact ⟨rfl, rfl⟩
  | umode r m set => simp only [Act.run]; split <;> exact ⟨rfl, rfl⟩
  | remove ch r => simp only [Act.run, deleteIfEmpty]; split <;> exact ⟨rfl, rfl⟩
  | chMode ch m set => simp only [Act.run]; split <;> exact ⟨rfl, rfl⟩
  | mmode ch r m set => simp only [Act.run]; split <;> exact ⟨rfl, rfl⟩
  | _ => exact ⟨rfl, rfl⟩

/-- What a departure leaves. -/
def addTo (s : Srv) (m : Prop) [Decidable m] (w : Whowas) : List Whowas := if m then (w :: recent s).take 64 else recent s

theorem destroySelf_store (hi : StoreInv t) (c : Client) (fwd : Option Str) (q : Bool) :
    StoreInv (destroySelf t c fwd q) ∧
    recent (destroySelf t c fwd q) = if (c.type = .user ∨ c.type = .service) ∧ Memorable t c then
      (memory (dropCl t c.ref) c :: recent t).take 64 else recent t := by
  have hc := destroySelf_core t c fwd q
  have h0 : StoreInv (dropCl t c.ref) := hi.congr (s := t) rfl rfl
  split at hc
  · rename_i hty
    obtain ⟨a, b, h1⟩ := quitAll_eq (dropCl t c.ref) c.ref t.chans
    rw [h1] at hc
    have h2 : StoreInv { dropCl t c.ref with chans := a, cl2 := b } := h0.congr (s := dropCl t c.ref) rfl rfl
    obtain ⟨g1, g2⟩ := register_spec h2 c
    refine ⟨g1.congr (core_whowas hc) (core_lastWhowas hc), ?_⟩
    rw [recent_congr (core_whowas hc) (core_lastWhowas hc), g2]
    simp only [hty, true_and]
    rfl
  · rename_i hty
    refine ⟨h0.congr (core_whowas hc) (core_lastWhowas hc), ?_⟩
    rw [recent_congr (core_whowas hc) (core_lastWhowas hc)]
    simp only [hty, false_and, if_false]
    rfl

/-- What an action adds. -/
theorem run_recent (hi : StoreInv t) (a : Act) : StoreInv (a.run t) ∧
    ∃ new, recent (a.run t) = (new ++ recent t).take 64 ∧ (∀ w ∈ new, 0 < w.time ∧ w.time = t.now) ∧
      (new ≠ [] → t.conf.morePrivacy = false ∧ ((∃ c, a = .whowas c) ∨ ∃ c, a = .destroy c)) := by
  have hle : (recent t).length ≤ 64 := by
    have := List.length_filter_le (fun w : Whowas => decide (0 < w.time)) (store t)
    rw [store_length] at this; exact this
  have hself : recent t = ([] ++ recent t).take 64 := by
    rw [List.nil_append, List.take_of_length_le hle]
  have hmem : ∀ (c : Client), Memorable t c → ∀ (w : Whowas), w.time = t.now → ∀ v ∈ [w], 0 < v.time ∧ v.time = t.now := by
    intro c hm w hw v hv
    simp only [List.mem_cons, List.not_mem_nil, or_false] at hv
    rw [hv, hw]
    exact ⟨by have := hm.2; omega, rfl⟩
  by_cases ha : a.logs = false
  · obtain ⟨h1, h2⟩ := run_store t ha
    exact ⟨hi.congr h1 h2, [], by rw [recent_congr h1 h2]; exact hself, by simp, by simp⟩
  · cases a with
    | destroy c =>
      obtain ⟨g1, g2⟩ := destroySelf_store hi c none false
      refine ⟨g1.congr (s := destroySelf t c none false) rfl rfl, ?_⟩
      have e : recent ((Act.destroy c).run t) = recent (destroySelf t c none false) := rfl
      rw [e, g2]
      split
      · rename_i hm
        exact ⟨[memory (dropCl t c.ref) c], rfl, hmem c hm.2 _ rfl, fun _ => ⟨hm.2.1, .inr ⟨c, rfl⟩⟩⟩
      · exact ⟨[], hself, by simp, by simp⟩
    | whowas c =>
      obtain ⟨g1, g2⟩ := register_spec hi c
      refine ⟨g1, ?_⟩
      have e : recent ((Act.whowas c).run t) = recent (registerWhowas t c) := rfl
      rw [e, g2]
      split
      · rename_i hm
        exact ⟨[memory t c], rfl, hmem c hm _ rfl, fun _ => ⟨hm.1, .inl ⟨c, rfl⟩⟩⟩
      · exact ⟨[], hself, by simp, by simp⟩
    | _ => exact absurd rfl ha

theorem reach_store (h : Reachable s) : StoreInv s :=
  reach_inv_all (I := StoreInv) (fun s t hc hi => hi.congr (core_whowas hc) (core_lastWhowas hc))
    (fun x t a hb hi hp => (run_recent hi a).1) (fun conf host now => by
      refine ⟨rfl, (by decide : (-1 : Int) ≤ -1 ∧ (-1 : Int) ≤ 63), fun _ => rfl, 64, ?_⟩
      have : store (clientInit conf host now) = List.replicate 64 ({} : Whowas) := by
        show (List.range 64).map (fun k => (List.replicate 64 ({} : Whowas)).getD (((-1 : Int).toNat + 64 - k) % 64) {}) = _
        decide +kernel
      unfold recent
      rw [this]; rfl) h

theorem take_take_append {α : Type} (a b c : List α) (k : Nat) : (a ++ (b ++ c).take k).take k = ((a ++ b) ++ c).take k := by
  rw [List.append_assoc, List.take_append, List.take_append (l₁ := a), List.take_take]
  congr 2
  omega

theorem run_origin (hb : Base t) {a : Act} (hp : Okay x t a) (h1 : ¬ x.peer) (h2 : ¬ x.opens) : ∀ d ∈ (a.run t).clients, ∃ c ∈ t.clients, c.ref = d.ref := by
  intro d hd
  rcases run_mem hp hd with ⟨c, hc, hk⟩ | ⟨hr, ⟨h, -⟩ | ⟨-, -, -, hc⟩⟩
  · exact ⟨c, hc, hk.ref.symm⟩
  · exact absurd h h1
  · have hb' : Base (a.run t) := (Steps.one a hp rfl).base hb
    obtain ⟨j, hj⟩ := Option.isSome_iff_exists.1 hc
    obtain ⟨k, hk, -, e2⟩ := hb'.cl.clConn d hd j hj
    have hsub := run_conns (fun k => k.client) hp h2 (fun i f hf k => (hf.keeps k).2.1)
    obtain ⟨k', hk', he⟩ := List.mem_map.1 (hsub.subset (List.mem_map.2 ⟨k, hk, rfl⟩))
    obtain ⟨c, hc, h3, -⟩ := hb.cl.connCl k' hk'
    exact ⟨c, hc, h3.trans (he.trans e2)⟩

theorem steps_old (h : Steps (Okay x) s t) (hb : Base s) (h1 : ¬ x.peer) (h2 : ¬ x.opens) :
    ∀ d ∈ t.clients, ∃ c ∈ s.clients, c.ref = d.ref := by
  induction h with
  | refl hc => intro d hd; rw [core_clients hc] at hd; exact ⟨d, hd, rfl⟩
  | @tail t0 t' a h0 hp hr ih =>
    intro d hd
    rw [core_clients hr] at hd
    obtain ⟨c, hc, he⟩ := run_origin (h0.base hb) hp h1 h2 d hd
    obtain ⟨c', hc', he'⟩ := ih c hc
    exact ⟨c', hc', he'.trans he⟩

theorem newLocal_store (s : Srv) (i : Nat) (h : Option Str) (ty : CType) :
    (clientNewLocal s i h ty).whowas = s.whowas ∧ (clientNewLocal s i h ty).lastWhowas = s.lastWhowas := by
  simp only [clientNewLocal]
  exact run_store s (a := .newCl _) rfl

theorem recent_length (s : Srv) : (recent s).length ≤ 64 := by
  have := List.length_filter_le (fun w : Whowas => decide (0 < w.time)) (store s)
  rw [store_length] at this; exact this

theorem open_store (ho : (evCtx s e True True).opens) : recent (step s e) = recent s := by
  cases e with
  | accept i host a ssl =>
    simp only [step, newConnection]
    split
    · rfl
    · exact recent_congr (newLocal_store ..).1 (newLocal_store ..).2
  | connect n i a =>
    simp only [step, newServer]
    split
    · rfl
    · exact recent_congr (newLocal_store ..).1 (newLocal_store ..).2
  | line i rnd l => simp only [evCtx] at ho; split at ho <;> exact absurd ho id
  | _ => exact absurd ho id

/-- **C45** Whatever happens, the store holds the latest departures recorded, newest first and at most 64. -/
theorem C45_store (h : Reachable s) (e : Event) :
    (recent s).length ≤ 64 ∧ ∃ new, recent (step s e) = (new ++ recent s).take 64 ∧
      (∀ w ∈ new, 0 < w.time ∧ s.now ≤ w.time ∧ w.time ≤ (step s e).now) ∧
      (((∀ r, SentBy s e r → (s.cl r).type ≠ .server ∧ ¬ Sends s e r "NICK") ∧
        ∀ c ∈ s.clients, ∃ d ∈ (step s e).clients, d.ref = c.ref) → new = []) := by
  refine ⟨?_, ?_⟩
  · have := List.length_filter_le (fun w : Whowas => decide (0 < w.time)) (store s)
    rw [store_length] at this; exact this
  by_cases ho : (evCtx s e True True).opens
  · refine ⟨[], ?_, by simp, fun _ => rfl⟩
    rw [open_store ho, List.nil_append, List.take_of_length_le (recent_length s)]
  obtain ⟨f1, f2, f3, f4, f5⟩ := evCtx_facts s e
  have key : ∀ t, Steps (Okay (evCtx s e True True)) s t → StoreInv t ∧ ∃ new, recent t = (new ++ recent s).take 64 ∧
      (∀ w ∈ new, 0 < w.time ∧ s.now ≤ w.time ∧ w.time ≤ t.now) ∧
      (((∀ r, SentBy s e r → (s.cl r).type ≠ .server ∧ ¬ Sends s e r "NICK") ∧
        ∀ c ∈ s.clients, ∃ d ∈ t.clients, d.ref = c.ref) → new = []) := by
    intro t hst
    induction hst with
    | refl hc =>
      refine ⟨(reach_store h).congr (core_whowas hc) (core_lastWhowas hc), [], ?_, by simp, fun _ => rfl⟩
      rw [recent_congr (core_whowas hc) (core_lastWhowas hc), List.nil_append, List.take_of_length_le]
      have := List.length_filter_le (fun w : Whowas => decide (0 < w.time)) (store s)
      rw [store_length] at this; exact this
    | @tail t0 t' a h0 hp hr ih =>
      obtain ⟨hi, new, e1, e2, e3⟩ := ih
      obtain ⟨hi', new', g1, g2, g3⟩ := run_recent hi a
      have hle : t0.now ≤ t'.now := steps_now (Steps.one a hp hr)
      have hle0 := steps_now h0
      refine ⟨hi'.congr (core_whowas hr) (core_lastWhowas hr), new' ++ new, ?_, ?_, ?_⟩
      · rw [recent_congr (core_whowas hr) (core_lastWhowas hr), g1, e1, take_take_append]
      · intro w hw
        rcases List.mem_append.1 hw with hw | hw
        · obtain ⟨a1, a2⟩ := g2 w hw; omega
        · obtain ⟨a1, a2, a3⟩ := e2 w hw; omega
      · rintro ⟨k1, k2⟩
        have hnp : ¬ (evCtx s e True True).peer := fun hpe => by
          obtain ⟨r, q1, q2⟩ := f1 hpe
          exact (k1 r q1).1 q2
        have ho' := run_origin (h0.base h.base) hp hnp ho
        rw [← core_clients hr] at ho'
        have hnew : new = [] := e3 ⟨k1, fun c hc => by
          obtain ⟨d, hd, he⟩ := k2 c hc
          obtain ⟨d', hd', he'⟩ := ho' d hd
          exact ⟨d', hd', he'.trans he⟩⟩
        have hold : ∀ d ∈ t0.clients, ∃ c ∈ s.clients, c.ref = d.ref := by
          exact steps_old h0 h.base hnp ho
        rw [hnew, List.append_nil]
        apply Classical.byContradiction
        intro hne
        rcases (g3 hne).2 with ⟨c, rfl⟩ | ⟨c, rfl⟩
        · obtain ⟨r, rfl, h1 | ⟨h1, h2⟩⟩ := hp
          · exact hnp h1
          · have := f4 "NICK" (by decide) h2
            exact (k1 _ this.sent).2 this
        · obtain ⟨h1, h2, -⟩ := hp
          obtain ⟨c', hc', he'⟩ := hold c (List.mem_of_find?_eq_some h2)
          obtain ⟨d, hd, he⟩ := k2 c' hc'
          rw [core_clients hr, destroy_run_clients] at hd
          have := (List.mem_filter.1 hd).2
          rw [he, he'] at this
          simp at this
  exact (key _ (step_steps_any h.base e)).2

example : Reachable Sample.s5 ∧ recent Sample.s5 = [] ∧
    ((recent (step (step Sample.s5 (.tick 100)) (.lost 6 none false))).map Whowas.id) = ["bob".toList] :=
  ⟨Sample.reach_s5, by decide +kernel, by decide +kernel⟩

/-! ## Departures -/

theorem memory_drop (hin : c.introducer ≠ c.ref) : memory (dropCl s c.ref) c = memory s c := by
  have h1 : (dropCl s c.ref).cl c.introducer = s.cl c.introducer := dropCl_cl s hin
  have h2 : displayedHost (dropCl s c.ref) c = displayedHost s c := by
    simp only [displayedHost, genCloak, h1]; rfl
  simp only [memory, h1, h2]; rfl

theorem memory_congr (h1 : t.clients = s.clients) (h2 : t.conf = s.conf) (h3 : t.now = s.now) : memory t c = memory s c := by
  have hx : ∀ r, t.cl r = s.cl r := fun r => by simp only [Srv.cl, Srv.cl?, h1]
  simp only [memory, displayedHost, genCloak, hx, h2, h3]

theorem destroy_store (hi : StoreInv s) (hord : Desc s.clients) (hm : c ∈ s.clients) (hty : c.type = .user)
    (hin : c.introducer ≠ c.ref) (fwd : Option Str) (q : Bool) :
    recent (clientDestroy s c.ref fwd q) = if Memorable s c then (memory s c :: recent s).take 64 else recent s := by
  rw [destroy_user hord hm (.inl hty)]
  have e : destroyUserOrService (dropCl s c.ref) c fwd q = destroySelf s c fwd q := by
    simp only [destroySelf, hty]; rfl
  rw [e, (destroySelf_store hi c fwd q).2, memory_drop hin]
  simp only [hty, true_or, true_and]

theorem close_store (h : Reachable s) (hst : t.core = s.core) {k : Conn} (hk : t.conn? i = some k) (hty : (s.cl k.client).type = .user)
    (hin : (s.cl k.client).introducer ≠ k.client) (fwd : Option Str) (inform : Bool) :
    recent (connClose t i fwd inform) = if Memorable s (s.cl k.client) then
      (memory s (s.cl k.client) :: recent s).take 64 else recent s := by
  have hb : Base t := Base.of_core hst h.base
  obtain ⟨hm, hr, hconn, hne⟩ := conn?_mem hb.cl hk
  have hcl : t.cl k.client = s.cl k.client := core_cl hst _
  rw [hcl] at hm hr hconn
  generalize hc : s.cl k.client = c at *
  simp only [connClose, hk, hcl]
  generalize hs1 : (if inform = true then closeMsgs t i c fwd else t) = s1
  have hcore1 : s1.core = t.core := by rw [← hs1]; split <;> simp
  have hcore2 := hcore1.trans hst
  have hi1 : StoreInv s1 := (reach_store h).congr (core_whowas hcore2) (core_lastWhowas hcore2)
  rw [← hr]
  have := destroy_store (s := { s1 with conns := s1.conns.filter (fun x => x.idx != i) }) (c := c)
    (hi1.congr (s := s1) rfl rfl) (by show Desc s1.clients; rw [core_clients hcore1]; exact hb.cl.ord)
    (by show c ∈ s1.clients; rw [core_clients hcore1]; exact hm) hty (by rw [hr]; exact hin) fwd true
  have e1 : Memorable { s1 with conns := s1.conns.filter (fun x => x.idx != i) } c ↔ Memorable s c := by
    unfold Memorable
    show s1.conf.morePrivacy = false ∧ _ ≤ s1.now ↔ _
    rw [core_conf hcore2, core_now hcore2]
  have e2 : memory { s1 with conns := s1.conns.filter (fun x => x.idx != i) } c = memory s c := by
    exact memory_congr (core_clients hcore2 :) (core_conf hcore2 :) (core_now hcore2 :)
  have e3 : recent { s1 with conns := s1.conns.filter (fun x => x.idx != i) } = recent s :=
    (recent_congr (s := s1) rfl rfl).trans (recent_congr (core_whowas hcore2) (core_lastWhowas hcore2))
  rw [e2, e3] at this
  simp only [e1] at this
  exact this

/-- **C45** A user whose connection is lost is the newest entry of the store. -/
theorem C45_lost (h : Reachable s) (ho : Owner s i r) (hu : (s.cl r).type = .user) (hin : (s.cl r).introducer ≠ r)
    (reason : Option Str) (inform : Bool) :
    recent (step s (.lost i reason inform)) =
      if Memorable s (s.cl r) then (memory s (s.cl r) :: recent s).take 64 else recent s := by
  obtain ⟨k, hk, rfl⟩ := ho.conn h.base
  have hs : step s (.lost i reason inform) = connClose s i reason inform := by
    simp only [step]; rw [if_pos (by rw [hk]; rfl)]
  rw [hs]
  exact close_store h rfl hk hu hin reason inform

example : Reachable (step Sample.s5 (.tick 100)) ∧ Owner (step Sample.s5 (.tick 100)) 6 4 ∧
    ((step Sample.s5 (.tick 100)).cl 4).type = .user ∧ ((step Sample.s5 (.tick 100)).cl 4).introducer ≠ 4 ∧
    Memorable (step Sample.s5 (.tick 100)) ((step Sample.s5 (.tick 100)).cl 4) ∧ ¬ Memorable Sample.s5 (Sample.s5.cl 4) :=
  ⟨.step _ Sample.reach_s5 (by decide +kernel), by simp only [Owner]; decide +kernel, by decide +kernel, by decide +kernel,
    by decide +kernel, by decide +kernel⟩

/-- **C45** So is a user that quits. -/
theorem C45_quit (h : Reachable s) (hr : Received s i l cl req) (hn : Is req "QUIT") (hu : (s.cl cl).type = .user)
    (hin : (s.cl cl).introducer ≠ cl) (ha : req.argv.length ≤ 1) (rnd : Int) :
    recent (step s (.line i rnd l)) =
      if Memorable s (s.cl cl) then (memory s (s.cl cl) :: recent s).take 64 else recent s := by
  have hb := h.base
  obtain ⟨h1, h2, h3, h4⟩ := hr.owner hb
  have hst : step s (.line i rnd l) = (ircQUIT (s.roll rnd) cl req).1 :=
    step_do hr rnd hn rfl (by rw [hu]; rfl) (by
      match hl : req.argv, ha with
      | [], _ => simp only [Command.argcOk, Request.argc, hl]; rfl
      | [a], _ => simp only [Command.argcOk, Request.argc, hl]; rfl)
  have hrun : step s (.line i rnd l) = connClose (s.roll rnd) i (if req.argc = 1 then some (quitText (req.arg 0)) else none) true := by
    rw [hst]
    simp only [ircQUIT, roll_cl, hu, closeClient, h3]
    rfl
  obtain ⟨k, hk, hkc⟩ := conn?_of_mem hb.cl h1 h3
  rw [h2] at hkc
  subst hkc
  rw [hrun]
  exact close_store (t := s.roll rnd) h rfl hk hu hin _ true

example : ∃ req, Reachable (step Sample.s5 (.tick 100)) ∧ Received (step Sample.s5 (.tick 100)) 5 "QUIT".toList 3 req ∧
    Is req "QUIT" ∧ req.argv.length ≤ 1 ∧ ((step Sample.s5 (.tick 100)).cl 3).type = .user ∧
    ((step Sample.s5 (.tick 100)).cl 3).introducer ≠ 3 ∧
    Memorable (step Sample.s5 (.tick 100)) ((step Sample.s5 (.tick 100)).cl 3) :=
  ⟨⟨none, "QUIT".toList, []⟩, .step _ Sample.reach_s5 (by decide +kernel), recv_sound (by decide +kernel),
    by simp only [Is]; decide, by decide, by decide +kernel, by decide +kernel, by decide +kernel⟩

/-- What NICK does for a user that may take the name. -/
theorem nick_step (h : PoliteRun s) (hr : Received s i l cl req) (hn : Is req "NICK") (hu : (s.cl cl).type = .user)
    (ha : req.argv = [n]) (hm : MayRename s (s.cl cl) n) (rnd : Int) :
    step s (.line i rnd l) = changeNick (s.roll rnd) cl cl n true := by
  have hb := h.reachable.base
  obtain ⟨h1, h2, h3, h4⟩ := hr.owner hb
  have hid : (s.cl cl).id ≠ [] := (polite_nick h).named _ h1 (by rw [h3]; rfl) (.inr (.inl hu))
  have hst : step s (.line i rnd l) = (ircNICK (s.roll rnd) cl req).1 :=
    step_do hr rnd hn rfl (by rw [hu]; rfl) (by simp only [Command.argcOk, Request.argc, ha]; rfl)
  have hrun : step s (.line i rnd l) = if (s.cl cl).hasMode 'r' = true then writeErr (s.roll rnd) (s.cl cl) ⟨"ERR_RESTRICTED_MSG", [(s.cl cl).ID]⟩
      else (nickTarget (s.roll rnd) cl cl n).1 := by
    rw [hst]
    simp only [ircNICK, roll_cl, hu, Request.argc, Request.arg, ha]
    rw [if_pos (by rfl), if_neg (by simp)]
    split <;> rfl
  rw [hrun, if_neg (by rw [hasMode_iff]; exact hm.free)]
  obtain ⟨k1, -⟩ := nickTarget_ok h h1 hu hid (.direct h3) rnd n cl
  rw [h2] at k1
  obtain ⟨k3, k4⟩ := k1 ⟨hm.other, hm.name⟩
  rw [k3]
  have hno : (if ((s.cl cl).type = .user && !(s.cl cl).hasMode 'o') = true then noNickChange (s.roll rnd) cl else none) = none := by
    by_cases ho : 'o' ∈ (s.cl cl).modes
    · rw [if_neg (by rw [(hasMode_iff).2 ho]; simp)]
    · have : (s.cl cl).hasMode 'o' = false := by
        cases e : (s.cl cl).hasMode 'o' with
        | false => rfl
        | true => exact absurd (hasMode_iff.1 e) ho
      rw [if_pos (by rw [hu, this]; rfl)]
      simp only [noNickChange, List.find?_eq_none, Bool.and_eq_true, not_and]
      intro ch hch hN hon
      have := (hm.channels).resolve_left ho ch hch (hasChar_iff.1 hN)
      rw [h2] at this
      exact this (isMemberOf_iff.1 hon)
  have hnc : (nickChange (s.roll rnd) cl cl n).1 = match (if ((s.cl cl).type = .user && !(s.cl cl).hasMode 'o') = true then
        noNickChange (s.roll rnd) cl else none) with
      | some ch => writeErr (s.roll rnd) (s.cl cl) ⟨"ERR_NONICKCHANGE_MSG", [(s.cl cl).ID, ch.name]⟩
      | none => changeNick (s.roll rnd) cl cl n ((s.cl cl).type = .user) := by
    simp only [nickChange]
    rw [roll_cl]
    split <;> rename_i e <;> rw [e]
  rw [hnc, hno, hu]
  rfl

/-- **C45** A nick given up is remembered in the same way. -/
theorem C45_nick (h : PoliteRun s) (hr : Received s i l cl req) (hn : Is req "NICK") (hu : (s.cl cl).type = .user)
    (ha : req.argv = [n]) (hm : MayRename s (s.cl cl) n) (rnd : Int) :
    recent (step s (.line i rnd l)) =
      if Memorable s (s.cl cl) then (memory s (s.cl cl) :: recent s).take 64 else recent s := by
  rw [nick_step h hr hn hu ha hm rnd]
  simp only [changeNick, if_true]
  generalize hs1 : writeRelatedPrefix _ cl ((s.roll rnd).cl cl) false ⟨"NICK", [n]⟩ = s1
  have hcore : s1.core = s.core := by
    rw [← hs1]; simp
  have hi : StoreInv s1 := (reach_store h.reachable).congr (core_whowas hcore) (core_lastWhowas hcore)
  have hset : ∀ u : Srv, recent (clientSetID u cl n) = recent u := fun u => recent_congr rfl rfl
  rw [hset, roll_cl, (register_spec hi _).2]
  have e1 : Memorable s1 (s.cl cl) ↔ Memorable s (s.cl cl) := by
    unfold Memorable; rw [core_conf hcore, core_now hcore]
  have e2 : memory s1 (s.cl cl) = memory s (s.cl cl) := by
    simp only [memory, displayedHost, genCloak, core_cl hcore, core_conf hcore, core_now hcore]
  rw [e2, recent_congr (core_whowas hcore) (core_lastWhowas hcore)]
  simp only [e1]

example : ∃ req, PoliteRun (step Sample.s5 (.tick 100)) ∧ Received (step Sample.s5 (.tick 100)) 5 "NICK ally".toList 3 req ∧
    Is req "NICK" ∧ ((step Sample.s5 (.tick 100)).cl 3).type = .user ∧ req.argv = ["ally".toList] ∧
    MayRename (step Sample.s5 (.tick 100)) ((step Sample.s5 (.tick 100)).cl 3) "ally".toList ∧
    Memorable (step Sample.s5 (.tick 100)) ((step Sample.s5 (.tick 100)).cl 3) :=
  ⟨⟨none, "NICK".toList, ["ally".toList]⟩,
    .step _ (Sample.fine_s5.mono (fun _ h => h.1) (fun _ _ h => h.1)) (by decide +kernel) (fun _ _ _ h => (by cases h)),
    recv_sound (by decide +kernel), by simp only [Is]; decide, by decide +kernel, rfl,
    ⟨by decide +kernel, by decide +kernel, .inr ⟨(C14_nick_check _ _).1 (by decide +kernel), by simp only [Reserved]; decide +kernel,
      by decide +kernel⟩, .inr (by simp only [OnChannel]; decide +kernel)⟩, by decide +kernel⟩

/-- **C45** A remote user whose server tells of its QUIT is remembered, too. -/
theorem C45_remote_quit {p : Str} (h : PoliteRun s) (hr : Received s i l cl req) (hn : Is req "QUIT") (hs : (s.cl cl).type = .server)
    (hp : req.prefix? = some p) (hc : Originator s cl req c) (hu : c.type = .user)
    (ha : req.argv.length ≤ 1) (rnd : Int) :
    recent (step s (.line i rnd l)) = if Memorable s c then (memory s c :: recent s).take 64 else recent s := by
  have hb := h.reachable.base
  obtain ⟨g1, g2, g3, g4⟩ := hr.owner hb
  have hns : c.type ≠ .server := by rw [hu]; decide
  obtain ⟨h1, h2, h3⟩ := remote_behind h hr hs hp hc hns
  have hm := hc.1
  have hst : step s (.line i rnd l) = (ircQUIT (s.roll rnd) cl req).1 :=
    step_do hr rnd hn rfl (by rw [hs]; rfl) (by
      match hl : req.argv, ha with
      | [], _ => simp only [Command.argcOk, Request.argc, hl]; rfl
      | [a], _ => simp only [Command.argcOk, Request.argc, hl]; rfl)
  have hne : c.ref ≠ cl := by
    intro he
    rw [hb.cl.ord.eq_of_ref hm g1 (he.trans g2.symm)] at h3
    rw [h3] at g3; cases g3
  have hrun : step s (.line i rnd l) = clientDestroy (s.roll rnd) c.ref
      (if req.argc = 1 then some (strlcpy COMMAND_LEN (req.arg 0)) else none) true := by
    rw [hst]
    simp only [ircQUIT, roll_cl, hs, if_true, hp, roll_search, h1]
    rw [if_pos hne]
  rw [hrun]
  have hi : StoreInv (s.roll rnd) := (reach_store h.reachable).congr (s := s) rfl rfl
  exact destroy_store (s := s.roll rnd) hi hb.cl.ord hm hu (hb.cl.rem c hm h3 (h2.ne_this hb hm)).1 _ true

/-- zed, who is on another server, quits after 100 seconds. -/
example : ∃ req, Received (step Sample.s5 (.tick 100)) 7 ":zed QUIT :gone".toList 6 req ∧ Is req "QUIT" ∧
    ((step Sample.s5 (.tick 100)).cl 6).type = .server ∧ req.prefix? = some "zed".toList ∧
    Originator (step Sample.s5 (.tick 100)) 6 req ((step Sample.s5 (.tick 100)).cl 7) ∧
    Memorable (step Sample.s5 (.tick 100)) ((step Sample.s5 (.tick 100)).cl 7) ∧ PoliteRun (step Sample.s5 (.tick 100)) :=
  ⟨⟨some "zed".toList, "QUIT".toList, ["gone".toList]⟩, recv_sound (by decide +kernel), by simp only [Is]; decide,
    by decide +kernel, rfl, ⟨by decide +kernel, .inl ⟨by decide +kernel, _, rfl, (caseEq_same _ _).1 (by decide +kernel)⟩⟩,
    by unfold Memorable; decide +kernel,
    .step _ (Sample.fine_s5.mono (fun _ h => h.1) (fun _ _ h => h.1)) (by decide +kernel) (fun _ _ _ h => (by cases h))⟩

/-! ## WHOWAS -/

/-- What WHOWAS says about an entry. -/
def Spec.aboutEntry (c : Client) (w : Whowas) : List Msg :=
  [⟨"RPL_WHOWASUSER_MSG", [shown c, w.id, w.user, w.host, w.info]⟩,
   ⟨"RPL_WHOISSERVER_MSG", [shown c, w.id, w.server, (toString (w.time : Int)).toList]⟩]

/-- The answer to WHOWAS `n` for client `c`: at most `max` entries with that nick, the newest first. -/
def Spec.whowasAnswer (s : Srv) (c : Client) (n : Str) (max : Nat) : List Msg :=
  (match ((recent s).filter (fun w => decide (SameCase n w.id))).take max with
  | [] => [⟨"ERR_WASNOSUCHNICK_MSG", [shown c, n]⟩]
  | ws => ws.flatMap (aboutEntry c)) ++ [⟨"RPL_ENDOFWHOWAS_MSG", [shown c, n]⟩]

/-- The state with some lines sent to a local client. -/
def told (s : Srv) (i : Nat) (c : Client) (ms : List Msg) : Srv :=
  { s with out := (ms.map (fun m => (⟨i, some (getPrefix s c (s.cl s.this)), m⟩ : Sent))).reverse ++ s.out }

theorem told_write (hc : c.introducer = c.ref ∨ c.introducer = s.this) (hi : c.conn = some i) (ms : List Msg) (m : Msg) :
    write (told s i c ms) c m = told s i c (ms ++ [m]) := writes_local hc hi m rfl

theorem told_entry (hc : c.introducer = c.ref ∨ c.introducer = s.this) (hi : c.conn = some i) (ms : List Msg) (w : Whowas) :
    whowasWrite (told s i c ms) c w = told s i c (ms ++ aboutEntry c w) := by
  simp only [whowasWrite, told_write hc hi, aboutEntry, id_eq, List.append_assoc, intStr]
  rfl

/-- The scan of the ring, with `j` entries left. -/
theorem scan_spec (hc : c.introducer = c.ref ∨ c.introducer = s.this) (hi : c.conn = some i) {last : Nat} (hl : last < 64) {max : Nat}
    : ∀ j, 0 < j → j ≤ 64 → ∀ nc, nc < max → ∀ ms,
    ∃ p, whowasScan c n last max j ((last + 64 - (64 - j)) % 64) nc nc (told s i c ms) =
      (told s i c (ms ++ ((((List.range' (64 - j) j).map (fun k => s.whowas.getD ((last + 64 - k) % 64) {})).filter
        (fun w => decide (0 < w.time) && caseEq n w.id)).take (max - nc)).flatMap (aboutEntry c)), p,
       nc + ((((List.range' (64 - j) j).map (fun k => s.whowas.getD ((last + 64 - k) % 64) {})).filter
        (fun w => decide (0 < w.time) && caseEq n w.id)).take (max - nc)).length,
       nc + ((((List.range' (64 - j) j).map (fun k => s.whowas.getD ((last + 64 - k) % 64) {})).filter
        (fun w => decide (0 < w.time) && caseEq n w.id)).take (max - nc)).length) := by
  intro j
  induction j with
  | zero => intro h; omega
  | succ j ih =>
    intro _ hj nc hnc ms
    simp only [whowasScan]
    have hw : (told s i c ms).whowas = s.whowas := rfl
    rw [hw]
    generalize hpos : (last + 64 - (64 - (j + 1))) % 64 = pos
    generalize he : s.whowas.getD pos {} = w
    have hprev : whowasPrev pos = (last + 64 - (64 - j)) % 64 := by
      simp only [whowasPrev]; split <;> omega
    have hlist : (List.range' (64 - (j + 1)) (j + 1)).map (fun k => s.whowas.getD ((last + 64 - k) % 64) {}) =
        w :: (List.range' (64 - j) j).map (fun k => s.whowas.getD ((last + 64 - k) % 64) {}) := by
      rw [List.range'_succ, List.map_cons, hpos, he, show 64 - (j + 1) + 1 = 64 - j by omega]
    rw [hlist, hprev]
    have hend : (last + 64 - (64 - j)) % 64 = last ↔ j = 0 := by omega
    cases hh : decide (w.time > 0) && caseEq n w.id with
    | true =>
      rw [List.filter_cons_of_pos (by exact hh)]
      have htake : ∀ L : List Whowas, (w :: L).take (max - nc) = w :: L.take (max - (nc + 1)) := by
        intro L
        rw [show max - nc = (max - (nc + 1)) + 1 by omega, List.take_succ_cons]
      rw [htake]
      simp only [if_true, told_entry hc hi]
      by_cases hfin : nc + 1 = max
      · rw [if_pos ⟨by omega, by omega⟩]
        have : max - (nc + 1) = 0 := by omega
        rw [this, List.take_zero]
        simp only [List.flatMap_cons, List.flatMap_nil, List.append_nil, List.length_cons, List.length_nil]
        exact ⟨_, rfl⟩
      · rw [if_neg (fun h => by omega)]
        by_cases hz : j = 0
        · rw [if_pos (hend.2 hz)]
          subst hz
          simp only [List.range'_zero, List.map_nil, List.filter_nil, List.take_nil, List.flatMap_cons, List.flatMap_nil,
            List.append_nil, List.length_cons, List.length_nil]
          exact ⟨_, rfl⟩
        · rw [if_neg (fun h => hz (hend.1 h))]
          obtain ⟨p, hp⟩ := ih (by omega) (by omega) (nc + 1) (by omega) (ms ++ aboutEntry c w)
          refine ⟨p, ?_⟩
          rw [hp]
          simp only [List.flatMap_cons, List.append_assoc, List.length_cons]
          congr 3 <;> omega
    | false =>
      rw [List.filter_cons_of_neg (by rw [show (decide (0 < w.time) && caseEq n w.id) = false from hh]; simp)]
      simp only [Bool.false_eq_true, if_false]
      rw [if_neg (fun h => by omega)]
      by_cases hz : j = 0
      · rw [if_pos (hend.2 hz)]
        subst hz
        simp only [List.range'_zero, List.map_nil, List.filter_nil, List.take_nil, List.flatMap_nil,
          List.append_nil, List.length_nil, Nat.add_zero]
        exact ⟨_, rfl⟩
      · rw [if_neg (fun h => hz (hend.1 h))]
        exact ih (by omega) (by omega) nc hnc ms

theorem items_one (h1 : n ≠ []) (h2 : ',' ∉ n) : strtok n [','] = [n] := by
  rw [strtok_items]; exact items_plain h2 h1

/-- **C45** WHOWAS with one nick tells the newest entries with that nick, as many as asked for (5 without a
number, 25 if the number is not positive), each with the server, or that there is none. -/
theorem C45_whowas (h : Reachable s) (hr : Received s i l cl req) (his : Is req "WHOWAS") (hu : (s.cl cl).type = .user)
    (hp : s.conf.morePrivacy = false) (hn : n ≠ [] ∧ ',' ∉ n ∧ n.length < 513) {max : Nat}
    (ha : (req.argv = [n] ∧ max = 5) ∨ ∃ a, req.argv = [n, a] ∧ (max : Int) = if atoi a < 1 then 25 else atoi a) (rnd : Int) :
    Emitted s (step s (.line i rnd l))
      ((whowasAnswer s (s.cl cl) n max).map (fun m => ⟨i, some (shownAs s (s.cl s.this) i), m⟩)).reverse := by
  have hb := h.base
  obtain ⟨ho1, ho2, ho3, ho4⟩ := hr.owner hb
  have hinv := reach_store h
  have hgo : step s (.line i rnd l) = (ircWHOWAS (s.roll rnd) cl req).1 := by
    rw [step_do hr rnd his rfl (by rw [hu]; rfl) (by
      rcases ha with ⟨e, -⟩ | ⟨a, e, -⟩ <;> simp only [Command.argcOk, Request.argc, e] <;> rfl)]
  have hmax : whowasMax req = max ∧ 0 < max := by
    rcases ha with ⟨e, rfl⟩ | ⟨a, e, e2⟩
    · simp [whowasMax, Request.argc, e]
    · simp only [whowasMax, Request.argc, Request.arg, e]
      refine ⟨e2.symm, ?_⟩
      split at e2 <;> omega
  have hc : (s.cl cl).introducer = (s.cl cl).ref ∨ (s.cl cl).introducer = s.this :=
    hb.cl.loc _ ho1 (by rw [ho3]; rfl)
  have hcpy : strlcpy COMMAND_LEN n = n := List.take_of_length_le (by simp only [COMMAND_LEN]; omega)
  have harg : req.arg 0 = n := by rcases ha with ⟨e, -⟩ | ⟨a, e, -⟩ <;> simp [Request.arg, e]
  have hargc : ¬ req.argc < 1 ∧ ¬ req.argc > 3 ∧ ¬ req.argc > 2 := by
    rcases ha with ⟨e, -⟩ | ⟨a, e, -⟩ <;> simp [Request.argc, e]
  have hl : s.lastWhowas.toNat < 64 := by have := hinv.last; omega
  have hf : (List.range' (64 - 64) 64).map (fun k => s.whowas.getD ((s.lastWhowas.toNat + 64 - k) % 64) {}) = store s := by
    simp only [store, List.range_eq_range']
  have hfil : (store s).filter (fun w => decide (0 < w.time) && caseEq n w.id) =
      (recent s).filter (fun w => decide (SameCase n w.id)) := by
    rw [recent, List.filter_filter]
    refine List.filter_congr (fun w _ => ?_)
    rw [Bool.and_comm]
    congr 1
    rw [Bool.eq_iff_iff, caseEq_same]; simp
  obtain ⟨p, hscan⟩ := scan_spec (s := s.roll rnd) (c := s.cl cl) (n := n) hc ho3 hl 64 (by omega) (by omega) 0 hmax.2 []
  have hpos : (s.lastWhowas.toNat + 64 - (64 - 64)) % 64 = s.lastWhowas.toNat := by omega
  rw [hpos] at hscan
  have hf' : (List.range' (64 - 64) 64).map (fun k => (s.roll rnd).whowas.getD ((s.lastWhowas.toNat + 64 - k) % 64) {}) = store s := hf
  rw [hf', hfil, Nat.sub_zero] at hscan
  simp only [List.nil_append, Nat.zero_add] at hscan
  have htold : told (s.roll rnd) i (s.cl cl) [] = s.roll rnd := rfl
  rw [htold] at hscan
  have hrun : step s (.line i rnd l) = told (s.roll rnd) i (s.cl cl) (whowasAnswer s (s.cl cl) n max) := by
    rw [hgo]
    simp only [ircWHOWAS]
    rw [if_neg hargc.1, if_neg hargc.2.1, getSender_user (by exact hu)]
    simp only [getTarget]
    rw [if_neg (show ¬ req.argc > 2 from hargc.2.2)]
    simp only [ne_eq, not_true_eq_false, if_false, hmax.1, harg, hcpy, items_one hn.1 hn.2.1]
    rw [if_neg (show ¬ (s.roll rnd).conf.morePrivacy = true by show ¬ s.conf.morePrivacy = true; rw [hp]; simp)]
    simp only [whowasLoop]
    have hlast : (s.roll rnd).lastWhowas.toNat = s.lastWhowas.toNat := rfl
    rw [hlast, roll_cl, hscan]
    simp only [whowasAnswer]
    cases hw : ((recent s).filter (fun w => decide (SameCase n w.id))).take max with
    | nil =>
      simp only [List.length_nil, if_true, List.flatMap_nil]
      have e1 : writeErr (told (s.roll rnd) i (s.cl cl) []) (s.cl cl) ⟨"ERR_WASNOSUCHNICK_MSG", [(s.cl cl).ID, n]⟩ =
          told (s.roll rnd) i (s.cl cl) [⟨"ERR_WASNOSUCHNICK_MSG", [(s.cl cl).ID, n]⟩] :=
        told_write (s := s.roll rnd) hc ho3 [] _
      rw [e1]
      have e2 := told_write (s := s.roll rnd) hc ho3 [⟨"ERR_WASNOSUCHNICK_MSG", [(s.cl cl).ID, n]⟩]
        ⟨"RPL_ENDOFWHOWAS_MSG", [(s.cl cl).ID, n]⟩
      have e3 : (told (s.roll rnd) i (s.cl cl) [⟨"ERR_WASNOSUCHNICK_MSG", [(s.cl cl).ID, n]⟩]).cl cl = s.cl cl := rfl
      rw [e3]
      rw [id_eq] at e2 ⊢
      exact e2
    | cons w ws =>
      simp only [List.length_cons]
      rw [if_neg (by omega)]
      have e2 := told_write (s := s.roll rnd) hc ho3 ((w :: ws).flatMap (aboutEntry (s.cl cl)))
        ⟨"RPL_ENDOFWHOWAS_MSG", [(s.cl cl).ID, n]⟩
      rw [id_eq] at e2
      have e3 : (told (s.roll rnd) i (s.cl cl) ((w :: ws).flatMap (aboutEntry (s.cl cl)))).cl cl = s.cl cl := rfl
      rw [e3, id_eq]
      exact e2
  rw [hrun]
  refine ⟨rnd, ?_⟩
  have e1 : getPrefix (s.roll rnd) (s.cl cl) ((s.roll rnd).cl (s.roll rnd).this) = shownAs s (s.cl s.this) i := by
    have hl : isLink s i = false := by
      cases hl : isLink s i with
      | false => rfl
      | true => rw [isLink_iff hb ho1 ho3, hu] at hl; cases hl
    simp only [shownAs, getPrefix, hl, hu]
    rfl
  simp only [told, e1]
  rfl

/-- bob has left; alice asks for him. -/
def Sample.s5g : Srv := step (step Sample.s5 (.tick 100)) (.lost 6 none false)

theorem Sample.reach_s5g : Reachable Sample.s5g :=
  .step _ (.step _ Sample.reach_s5 (by decide +kernel)) (by decide +kernel)

example : ∃ req, Reachable Sample.s5g ∧ Received Sample.s5g 5 "WHOWAS BOB".toList 3 req ∧ Is req "WHOWAS" ∧
    (Sample.s5g.cl 3).type = .user ∧ Sample.s5g.conf.morePrivacy = false ∧ req.argv = ["BOB".toList] ∧
    (whowasAnswer Sample.s5g (Sample.s5g.cl 3) "BOB".toList 5).length = 3 :=
  ⟨⟨none, "WHOWAS".toList, ["BOB".toList]⟩, Sample.reach_s5g, recv_sound (by decide +kernel), by simp only [Is]; decide,
    by decide +kernel, by decide +kernel, rfl, by decide +kernel⟩

end Ngircd
