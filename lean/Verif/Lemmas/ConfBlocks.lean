import Verif.Lemmas.ConfFile

/-!
# Lemmas about reading configuration files: the sections
-/

set_option linter.unusedSimpArgs false

namespace Ngircd
open Spec

theorem sectionsOk : TabOk sections := by decide +kernel
theorem globalOk : TabOk globalVars := by decide +kernel
theorem limitOk : TabOk limitVars := by decide +kernel
theorem optionOk : TabOk optionVars := by decide +kernel
theorem sslOk : TabOk sslVars := by decide +kernel
theorem operOk : TabOk operVars := by decide +kernel
theorem serverOk : TabOk serverVars := by decide +kernel
theorem channelOk : TabOk channelVars := by decide +kernel

theorem named_cons_pos {b : Str × List Assign} {h : String} (bs : List (Str × List Assign))
    (hs : SameCase b.1 h.toList) : blocksNamed (b :: bs) h = b.2 :: blocksNamed bs h := by
  simp [blocksNamed, hs]

theorem named_cons_neg {b : Str × List Assign} {h : String} (bs : List (Str × List Assign))
    (hs : ¬ SameCase b.1 h.toList) : blocksNamed (b :: bs) h = blocksNamed bs h := by
  simp [blocksNamed, hs]

/-- Blocks of other sections keep what they do not set. -/
theorem block_keeps {G : Type} {π : Cfg → G} {k : Section} {n : String} (hm : (n, k) ∈ sections)
    (hopen : ∀ k' c, k' ≠ k → π (openSection k' c) = π c)
    (hother : ∀ k' v a c, k' ≠ k → π (handleVar k' v a c) = π c)
    (c : Cfg) (b : Str × List Assign) (hs : ¬ SameCase b.1 n.toList) : π (blockStep c b) = π c := by
  unfold blockStep
  cases hv : varOf sections b.1 with
  | none => rfl
  | some k' =>
    have hk : k' ≠ k := fun e => hs ((varOf_iff sectionsOk hm b.1).1 (by rw [hv, e]))
    have : ∀ (as : List Assign) (c : Cfg), π (inBlock k' c as) = π c := by
      intro as
      induction as with
      | nil => intro c; rfl
      | cons a as ih => intro c; exact (ih _).trans (hother _ _ _ _ hk)
    exact (this _ _).trans (hopen _ _ hk)

theorem section_fold {G : Type} {π : Cfg → G} {k : Section} {n : String} {step : G → Assign → G}
    (hm : (n, k) ∈ sections)
    (hopen : ∀ k' c, π (openSection k' c) = π c)
    (hvar : ∀ a c, π (handleVar k a.1 a.2 c) = step (π c) a)
    (hother : ∀ k' v a c, k' ≠ k → π (handleVar k' v a c) = π c)
    (bs : List (Str × List Assign)) (c : Cfg) :
    π (bs.foldl blockStep c) = (allIn bs n).foldl step (π c) := by
  induction bs generalizing c with
  | nil => rfl
  | cons b bs ih =>
    rw [List.foldl_cons, ih]
    by_cases hs : SameCase b.1 n.toList
    · unfold allIn
      rw [named_cons_pos bs hs, List.flatten_cons, List.foldl_append]
      congr 1
      have hb : blockStep c b = inBlock k (openSection k c) b.2 := by
        unfold blockStep; rw [(varOf_iff sectionsOk hm b.1).2 hs]
      rw [hb, ← hopen k c]
      generalize openSection k c = d
      have : ∀ (as : List Assign) (c : Cfg), π (inBlock k c as) = as.foldl step (π c) := by
        intro as
        induction as with
        | nil => intro c; rfl
        | cons a as ih => intro c; exact (ih _).trans (by rw [hvar]; rfl)
      exact this _ _
    · unfold allIn
      rw [named_cons_neg bs hs, block_keeps hm (fun k' c _ => hopen k' c) hother c b hs]

theorem updLast_snoc {α : Type} (f : α → α) (l : List α) (x : α) : updLast f (l ++ [x]) = l ++ [f x] := by
  simp [updLast]

theorem updLast_same {α : Type} (l : List α) : updLast (fun x => x) l = l := by
  unfold updLast
  cases h : l.getLast? with
  | none => rfl
  | some x =>
    obtain ⟨us, e⟩ := List.getLast?_eq_some_iff.1 h
    rw [e]; simp

theorem elem_fold {E β : Type} {π : Cfg → List E} {k : Section} {n : String} {tab : List (String × β)}
    {set : β → Str → E → E} {init : E}
    (hm : (n, k) ∈ sections)
    (hopen : ∀ c, π (openSection k c) = π c ++ [init])
    (hopen' : ∀ k' c, k' ≠ k → π (openSection k' c) = π c)
    (hvar : ∀ v a c, π (handleVar k v a c) = updLast (fun x => applyVar tab set x (v, a)) (π c))
    (hother : ∀ k' v a c, k' ≠ k → π (handleVar k' v a c) = π c)
    (bs : List (Str × List Assign)) (c : Cfg) :
    π (bs.foldl blockStep c) = π c ++ (blocksNamed bs n).map (fun as => as.foldl (applyVar tab set) init) := by
  induction bs generalizing c with
  | nil => simp [blocksNamed]
  | cons b bs ih =>
    rw [List.foldl_cons, ih]
    by_cases hs : SameCase b.1 n.toList
    · rw [named_cons_pos bs hs, List.map_cons]
      have hb : blockStep c b = inBlock k (openSection k c) b.2 := by
        unfold blockStep; rw [(varOf_iff sectionsOk hm b.1).2 hs]
      have : ∀ (as : List Assign) (c : Cfg) (l : List E) (x : E), π c = l ++ [x] →
          π (inBlock k c as) = l ++ [as.foldl (applyVar tab set) x] := by
        intro as
        induction as with
        | nil => intro c l x e; exact e
        | cons a as ih =>
          intro c l x e
          exact ih _ l _ (by rw [hvar, e, updLast_snoc])
      rw [hb, this b.2 _ (π c) init (hopen c), List.append_assoc]
      rfl
    · rw [named_cons_neg bs hs, block_keeps hm hopen' hother c b hs]

theorem each_map {α β : Type} {R : α → β → Prop} {f : α → β} (h : ∀ a, R a (f a)) (l : List α) :
    Each R l (l.map f) := by
  induction l with
  | nil => exact .nil
  | cons a l ih => exact .cons (h a) ih

theorem flush_glob (c : Cfg) : c.flush.glob = c.glob := by unfold Cfg.flush; (repeat' split) <;> rfl
theorem flush_lim (c : Cfg) : c.flush.lim = c.lim := by unfold Cfg.flush; (repeat' split) <;> rfl
theorem flush_opt (c : Cfg) : c.flush.opt = c.opt := by unfold Cfg.flush; (repeat' split) <;> rfl
theorem flush_ssl (c : Cfg) : c.flush.ssl = c.ssl := by unfold Cfg.flush; (repeat' split) <;> rfl
theorem flush_opers (c : Cfg) : c.flush.opers = c.opers := by unfold Cfg.flush; (repeat' split) <;> rfl
theorem flush_chans (c : Cfg) : c.flush.chans = c.chans := by unfold Cfg.flush; (repeat' split) <;> rfl
theorem flush_passive (c : Cfg) : c.flush.passive = c.passive := by unfold Cfg.flush; (repeat' split) <;> rfl

theorem glob_fold (bs : List (Str × List Assign)) (c : Cfg) :
    (bs.foldl blockStep c).glob = (allIn bs "[GLOBAL]").foldl (applyVar globalVars setGlobal) c.glob := by
  refine section_fold (π := Cfg.glob) (k := .global) (by decide) ?_ ?_ ?_ bs c
  · intro k' c; cases k' <;> first | rfl | exact flush_glob c
  · intro a c; simp only [handleVar, applyVar]; generalize varOf globalVars a.1 = o; cases o <;> rfl
  · intro k' v a c hk
    cases k' with
    | global => exact absurd rfl hk
    | server => simp only [handleVar]; (repeat' split) <;> rfl
    | _ => simp only [handleVar]; split <;> rfl

theorem lim_fold (bs : List (Str × List Assign)) (c : Cfg) :
    (bs.foldl blockStep c).lim = (allIn bs "[LIMITS]").foldl (applyVar limitVars setLimit) c.lim := by
  refine section_fold (π := Cfg.lim) (k := .limits) (by decide) ?_ ?_ ?_ bs c
  · intro k' c; cases k' <;> first | rfl | exact flush_lim c
  · intro a c; simp only [handleVar, applyVar]; generalize varOf limitVars a.1 = o; cases o <;> rfl
  · intro k' v a c hk
    cases k' with
    | limits => exact absurd rfl hk
    | server => simp only [handleVar]; (repeat' split) <;> rfl
    | _ => simp only [handleVar]; split <;> rfl

theorem opt_fold (bs : List (Str × List Assign)) (c : Cfg) :
    (bs.foldl blockStep c).opt = (allIn bs "[OPTIONS]").foldl (applyVar optionVars setOption) c.opt := by
  refine section_fold (π := Cfg.opt) (k := .options) (by decide) ?_ ?_ ?_ bs c
  · intro k' c; cases k' <;> first | rfl | exact flush_opt c
  · intro a c; simp only [handleVar, applyVar]; generalize varOf optionVars a.1 = o; cases o <;> rfl
  · intro k' v a c hk
    cases k' with
    | options => exact absurd rfl hk
    | server => simp only [handleVar]; (repeat' split) <;> rfl
    | _ => simp only [handleVar]; split <;> rfl

theorem ssl_fold (bs : List (Str × List Assign)) (c : Cfg) :
    (bs.foldl blockStep c).ssl = (allIn bs "[SSL]").foldl (applyVar sslVars setSsl) c.ssl := by
  refine section_fold (π := Cfg.ssl) (k := .ssl) (by decide) ?_ ?_ ?_ bs c
  · intro k' c; cases k' <;> first | rfl | exact flush_ssl c
  · intro a c; simp only [handleVar, applyVar]; generalize varOf sslVars a.1 = o; cases o <;> rfl
  · intro k' v a c hk
    cases k' with
    | ssl => exact absurd rfl hk
    | server => simp only [handleVar]; (repeat' split) <;> rfl
    | _ => simp only [handleVar]; split <;> rfl

theorem opers_fold (bs : List (Str × List Assign)) (c : Cfg) :
    (bs.foldl blockStep c).opers = c.opers ++ (blocksNamed bs "[OPERATOR]").map (fun as => as.foldl (applyVar operVars setOper) {}) := by
  refine elem_fold (π := Cfg.opers) (k := .operator) (by decide) (fun _ => rfl) ?_ ?_ ?_ bs c
  · intro k' c hk; cases k' <;> first | rfl | exact flush_opers c | exact absurd rfl hk
  · intro v a c; simp only [handleVar, applyVar]; generalize varOf operVars v = o; cases o
    · exact (updLast_same _).symm
    · rfl
  · intro k' v a c hk
    cases k' with
    | operator => exact absurd rfl hk
    | server => simp only [handleVar]; (repeat' split) <;> rfl
    | _ => simp only [handleVar]; split <;> rfl

theorem chans_fold (bs : List (Str × List Assign)) (c : Cfg) :
    (bs.foldl blockStep c).chans = c.chans ++ (blocksNamed bs "[CHANNEL]").map (fun as => as.foldl (applyVar channelVars setChannel) {}) := by
  refine elem_fold (π := Cfg.chans) (k := .channel) (by decide) (fun _ => rfl) ?_ ?_ ?_ bs c
  · intro k' c hk; cases k' <;> first | rfl | exact flush_chans c | exact absurd rfl hk
  · intro v a c; simp only [handleVar, applyVar]; generalize varOf channelVars v = o; cases o
    · exact (updLast_same _).symm
    · rfl
  · intro k' v a c hk
    cases k' with
    | channel => exact absurd rfl hk
    | server => simp only [handleVar]; (repeat' split) <;> rfl
    | _ => simp only [handleVar]; split <;> rfl

/-! ## The table of servers -/

/-- The server a block describes. -/
def serverOf (passive : Bool) (as : List Assign) : ServerCfg :=
  as.foldl (applyVar serverVars setPeer) { disabled := passive }

/-- A server being collected has a place. -/
def Placed (c : Cfg) : Prop := c.newServer.name = [] ∨ c.newIdx.isSome

theorem fill_used {t : List ServerCfg} (h : ∀ x ∈ t, x.name ≠ []) (bs : List ServerCfg) : fill t bs = t := by
  induction t generalizing bs with
  | nil => cases bs <;> rfl
  | cons x t ih =>
    cases bs with
    | nil => rfl
    | cons b bs =>
      rw [fill, if_neg (h x (List.mem_cons_self ..)), ih (fun y hy => h y (List.mem_cons_of_mem _ hy))]

theorem fill_full {t : List ServerCfg} (h : t.findIdx? (fun x => x.name.isEmpty) = none) (bs : List ServerCfg) :
    fill t bs = t := by
  rw [List.findIdx?_eq_none_iff] at h
  refine fill_used (fun x hx e => ?_) bs
  have := h x hx
  rw [e] at this; cases this

theorem fill_set {t : List ServerCfg} {i : Nat} {b : ServerCfg}
    (h : t.findIdx? (fun x => x.name.isEmpty) = some i) (hb : b.name ≠ []) (bs : List ServerCfg) :
    fill (t.set i b) bs = fill t (b :: bs) := by
  induction t generalizing i with
  | nil => cases h
  | cons x t ih =>
    rw [List.findIdx?_cons] at h
    cases hx : x.name.isEmpty with
    | true =>
      rw [hx] at h
      simp only [if_true, Option.some.injEq] at h
      subst h
      have hx' : x.name = [] := List.isEmpty_iff.1 hx
      rw [List.set_cons_zero]
      cases bs with
      | nil =>
        rw [fill, fill, if_pos hx']
        cases t <;> rfl
      | cons d bs => rw [fill, if_neg hb, fill, if_pos hx']
    | false =>
      rw [hx] at h
      simp only [Bool.false_eq_true, if_false, Option.map_eq_some_iff] at h
      obtain ⟨j, hj, e⟩ := h
      subst e
      have hx' : ¬ x.name = [] := by intro e; rw [e] at hx; cases hx
      rw [List.set_cons_succ]
      have := ih hj
      cases bs with
      | nil =>
        have hn : fill t [] = t := by cases t <;> rfl
        have hn' : ∀ u : List ServerCfg, fill u [] = u := by intro u; cases u <;> rfl
        rw [hn'] at this
        rw [fill, fill, if_neg hx', this]
      | cons d bs => rw [fill, if_neg hx', fill, if_neg hx', this]

theorem fill_nil (t : List ServerCfg) : fill t [] = t := by cases t <;> rfl

/-- What the other sections do not touch. -/
def Cfg.peers (c : Cfg) : List ServerCfg × ServerCfg × Option Nat × Bool :=
  (c.table, c.newServer, c.newIdx, c.passive)

theorem flush_table (c : Cfg) : c.flush.table =
    if c.newServer.name = [] then c.table
    else match c.newIdx with
      | none => c.table
      | some i => c.table.set i c.newServer := by
  unfold Cfg.flush
  cases hn : c.newServer.name with
  | nil => rfl
  | cons a l => cases hi : c.newIdx <;> simp [hi]

theorem flush_congr {c d : Cfg} (h : c.peers = d.peers) : c.flush.table = d.flush.table := by
  simp only [Cfg.peers, Prod.mk.injEq] at h
  rw [flush_table, flush_table, h.1, h.2.1, h.2.2.1]

theorem placed_congr {c d : Cfg} (h : c.peers = d.peers) (hd : Placed d) : Placed c := by
  simp only [Cfg.peers, Prod.mk.injEq] at h
  unfold Placed; rw [h.2.1, h.2.2.1]; exact hd

/-- The collected server with its assignments. -/
def Cfg.withServer (c : Cfg) (x : ServerCfg) : Cfg := { c with newServer := x }

/-- The assignments of a server block without a place. -/
theorem server_block_none (as : List Assign) (c : Cfg) (h : c.newIdx.isNone = true) :
    inBlock .server c as = c := by
  induction as with
  | nil => rfl
  | cons a as ih =>
    have e : inBlock .server c (a :: as) = inBlock .server (handleVar .server a.1 a.2 c) as := rfl
    have e2 : handleVar .server a.1 a.2 c = c := if_pos h
    rw [e, e2, ih]

/-- The assignments of a server block. -/
theorem server_block (as : List Assign) (c : Cfg) (h : c.newIdx.isNone = false) :
    inBlock .server c as = c.withServer (as.foldl (applyVar serverVars setPeer) c.newServer) := by
  induction as generalizing c with
  | nil => rfl
  | cons a as ih =>
    have e : inBlock .server c (a :: as) = inBlock .server (handleVar .server a.1 a.2 c) as := rfl
    have e2 : handleVar .server a.1 a.2 c = c.withServer (applyVar serverVars setPeer c.newServer a) := by
      refine (if_neg (by rw [h]; simp)).trans ?_
      unfold applyVar Cfg.withServer
      generalize varOf serverVars a.1 = o
      cases o <;> rfl
    rw [e, e2, ih (c.withServer (applyVar serverVars setPeer c.newServer a)) h]
    rfl

theorem servers_fold (bs : List (Str × List Assign)) (c : Cfg) (h : Placed c) :
    Placed (bs.foldl blockStep c) ∧
    (bs.foldl blockStep c).flush.table =
      fill c.flush.table (((blocksNamed bs "[SERVER]").map (serverOf c.passive)).filter (fun x => x.name ≠ [])) := by
  induction bs generalizing c with
  | nil => exact ⟨h, (fill_nil _).symm⟩
  | cons b bs ih =>
    rw [List.foldl_cons]
    by_cases hs : SameCase b.1 "[SERVER]".toList
    · rw [named_cons_pos bs hs]
      have hb : blockStep c b = inBlock .server (openSection .server c) b.2 := by
        unfold blockStep; rw [(varOf_iff sectionsOk (show ("[SERVER]", Section.server) ∈ sections by decide) b.1).2 hs]
      rw [hb]
      have hp : c.flush.passive = c.passive := flush_passive c
      cases hf : c.flush.table.findIdx? (fun x => x.name.isEmpty) with
      | none =>
        have hn : (openSection .server c).newIdx = none := hf
        rw [server_block_none _ _ (by rw [hn]; rfl)]
        have hnm : (openSection .server c).newServer.name = [] := rfl
        obtain ⟨i1, i2⟩ := ih (openSection .server c) (.inl hnm)
        refine ⟨i1, ?_⟩
        have ht : (openSection .server c).flush.table = c.flush.table := by
          rw [flush_table, if_pos hnm]; rfl
        rw [i2, ht, fill_full hf, fill_full hf]
      | some i =>
        have hn : (openSection .server c).newIdx = some i := hf
        rw [server_block _ _ (by rw [hn]; rfl)]
        obtain ⟨d, hd⟩ : ∃ d : Cfg, d = (openSection .server c).withServer
            (b.2.foldl (applyVar serverVars setPeer) (openSection .server c).newServer) := ⟨_, rfl⟩
        rw [← hd]
        have d1 : d.newServer = serverOf c.passive b.2 := by rw [hd]; rfl
        have d2 : d.newIdx = some i := by rw [hd]; exact hf
        have d3 : d.table = c.flush.table := by rw [hd]; rfl
        have d4 : d.passive = c.passive := by rw [hd]; exact hp
        obtain ⟨i1, i2⟩ := ih d (.inr (by rw [d2]; rfl))
        refine ⟨i1, ?_⟩
        rw [i2, flush_table, d1, d2, d3, d4, List.map_cons]
        by_cases hnm : (serverOf c.passive b.2).name = []
        · rw [if_pos hnm, List.filter_cons_of_neg (by simp [hnm])]
        · rw [if_neg hnm, List.filter_cons_of_pos (by simpa using hnm)]
          exact fill_set hf hnm _
    · rw [named_cons_neg bs hs]
      have hk : (blockStep c b).peers = c.peers := by
        refine block_keeps (π := Cfg.peers) (k := .server) (by decide) ?_ ?_ c b hs
        · intro k' c hk; cases k' <;> first | rfl | exact absurd rfl hk
        · intro k' v a c hk
          cases k' with
          | server => exact absurd rfl hk
          | _ => simp only [handleVar]; split <;> rfl
      obtain ⟨i1, i2⟩ := ih (blockStep c b) (placed_congr hk h)
      refine ⟨i1, ?_⟩
      have hp : (blockStep c b).passive = c.passive := by
        simp only [Cfg.peers, Prod.mk.injEq] at hk; exact hk.2.2.2
      rw [i2, flush_congr hk, hp]

end Ngircd
