import Verif.Spec.ConfRange
import Verif.Props.ConfFile
import Verif.Spec.Registry

/-!
# C85: every configuration that is accepted is a proper one
-/

set_option linter.unusedSimpArgs false

namespace Ngircd
open Spec

/-- What `handleVar` and `openSection` preserve holds after reading files. -/
theorem line_inv {P : Cfg → Prop} (hopen : ∀ k c, P c → P (openSection k c))
    (hvar : ∀ k v a c, P c → P (handleVar k v a c)) (st : Place × Cfg) (l : Str) (h : P st.2) : P (confLine st l).2 := by
  unfold confLine
  simp only
  split
  · exact h
  split
  · exact h
  split
  · split
    · exact hopen _ _ h
    · exact h
  split
  · exact h
  split
  · exact h
  split
  · exact hvar _ _ _ _ h
  · exact h

theorem file_inv {P : Cfg → Prop} (hopen : ∀ k c, P c → P (openSection k c))
    (hvar : ∀ k v a c, P c → P (handleVar k v a c)) (files : List Str) (c : Cfg) (h : P c) :
    P (files.foldl readFile c) := by
  induction files generalizing c with
  | nil => exact h
  | cons f fs ih =>
    refine ih _ ?_
    unfold readFile
    have : ∀ (ls : List Str) (st : Place × Cfg), P st.2 → P (ls.foldl confLine st).2 := by
      intro ls
      induction ls with
      | nil => intro st h; exact h
      | cons l ls ih => intro st h; exact ih _ (line_inv hopen hvar st l h)
    exact this _ _ h

theorem cpy_len (n : Nat) (v : Str) : (strlcpy (n + 1) v).length ≤ n := by
  unfold strlcpy; rw [List.length_take]; exact Nat.min_le_left _ _

theorem mem_updLast {α : Type} {f : α → α} {l : List α} {y : α} (h : y ∈ updLast f l) :
    y ∈ l ∨ ∃ x ∈ l, y = f x := by
  unfold updLast at h
  cases hl : l.getLast? with
  | none => rw [hl] at h; exact .inl h
  | some x =>
    rw [hl] at h
    rcases List.mem_append.1 h with h | h
    · exact .inl (List.dropLast_subset _ h)
    · exact .inr ⟨x, List.mem_of_getLast? hl, List.mem_singleton.1 h⟩

theorem distinct_ok (known v : Str) : (distinct known v).Nodup ∧ ∀ t ∈ distinct known v, t ∈ known := by
  unfold distinct
  have : ∀ (v acc : Str), (acc.Nodup ∧ ∀ t ∈ acc, t ∈ known) →
      (v.foldl (fun acc c => if c ∈ known ∧ c ∉ acc then acc ++ [c] else acc) acc).Nodup ∧
      ∀ t ∈ v.foldl (fun acc c => if c ∈ known ∧ c ∉ acc then acc ++ [c] else acc) acc, t ∈ known := by
    intro v
    induction v with
    | nil => intro acc h; exact h
    | cons c v ih =>
      intro acc h
      rw [List.foldl_cons]
      by_cases hc : c ∈ known ∧ c ∉ acc
      · rw [if_pos hc]
        refine ih _ ⟨?_, ?_⟩
        · rw [List.nodup_append]
          refine ⟨h.1, by simp, ?_⟩
          intro a ha b hb e
          rw [List.mem_singleton.1 hb] at e
          exact hc.2 (e ▸ ha)
        · intro t ht
          rcases List.mem_append.1 ht with ht | ht
          · exact h.2 t ht
          · rw [List.mem_singleton.1 ht]; exact hc.1
      · rw [if_neg hc]
        exact ih _ h
  exact this v [] ⟨List.nodup_nil, fun t ht => by cases ht⟩

theorem ports_ok (v : Str) : ∀ p ∈ portsParse v, 0 < p ∧ p < 65535 := by
  intro p hp
  unfold portsParse at hp
  obtain ⟨q, _, hq⟩ := List.mem_filterMap.1 hp
  simp only at hq
  split at hq
  · rename_i h
    cases hq
    omega
  · cases hq

theorem peer_fits (v : ServerVar) (a : Str) (x : ServerCfg) (h : PeerFits x) : PeerFits (setPeer v a x) := by
  obtain ⟨h1, h2, h3, h4, h5, h6⟩ := h
  cases v <;> simp only [setPeer]
  case port =>
    split
    · rename_i hp
      exact ⟨h1, h2, h3, h4, by simp only; omega, h6⟩
    · exact ⟨h1, h2, h3, h4, h5, h6⟩
  case passive => split <;> exact ⟨h1, h2, h3, h4, h5, h6⟩
  all_goals first
    | exact ⟨h1, h2, h3, h4, h5, h6⟩
    | exact ⟨cpy_len _ _, h2, h3, h4, h5, h6⟩
    | exact ⟨h1, cpy_len _ _, h3, h4, h5, h6⟩
    | exact ⟨h1, h2, cpy_len _ _, h4, h5, h6⟩
    | exact ⟨h1, h2, h3, cpy_len _ _, h5, h6⟩
    | exact ⟨h1, h2, h3, h4, h5, cpy_len _ _⟩

theorem channel_fits (v : ChannelVar) (a : Str) (x : ChannelCfg) (h : ChannelFits x) : ChannelFits (setChannel v a x) := by
  obtain ⟨h1, h2, h3, h4, h5⟩ := h
  cases v <;> simp only [setChannel]
  case name =>
    refine ⟨?_, h2, h3, h4, h5⟩
    simp only [channelName]
    cases hv : isValidChanName a with
    | false =>
      simp only [Bool.false_eq_true, if_false]
      refine ⟨?_, ?_⟩
      · rw [List.length_cons]; exact Nat.succ_le_succ (cpy_len 49 a)
      · intro c hc; simp only [List.head?_cons, Option.some.injEq] at hc; exact .inl hc.symm
    | true =>
      simp only [if_true]
      refine ⟨cpy_len 50 a, ?_⟩
      intro c hc
      cases a with
      | nil => cases hc
      | cons d r =>
        simp only [strlcpy, CHANNEL_NAME_LEN, List.take_succ_cons, List.head?_cons, Option.some.injEq] at hc
        subst hc
        unfold isValidChanName at hv
        simp only [Bool.and_eq_true] at hv
        have hd := List.contains_iff_mem.1 hv.1.1
        rcases List.mem_cons.1 hd with h | h
        · exact .inl h
        · rcases List.mem_cons.1 h with h | h
          · exact .inr (.inl h)
          · exact .inr (.inr (List.mem_singleton.1 h))
  case modes =>
    split
    · exact ⟨h1, h2, h3, h4, h5⟩
    · refine ⟨h1, ?_, h3, h4, h5⟩
      intro m hm
      rcases List.mem_append.1 hm with hm | hm
      · exact h2 m hm
      · rw [List.mem_singleton.1 hm, List.length_take]; exact Nat.min_le_left _ _
  case topic => exact ⟨h1, h2, h3, cpy_len _ _, h5⟩
  case key => exact ⟨h1, h2, cpy_len _ _, h4, h5⟩
  case maxUsers => exact ⟨h1, h2, h3, h4, by simp only; omega⟩
  all_goals exact ⟨h1, h2, h3, h4, h5⟩

/-- Bounds of the configuration and of the server being collected. -/
def Bounds (c : Cfg) : Prop := Within c ∧ PeerFits c.newServer

theorem none_fits (b : Bool) : PeerFits { disabled := b } :=
  ⟨Nat.zero_le _, Nat.zero_le _, Nat.zero_le _, Nat.zero_le _, (by show (0 : Nat) < 65535; decide), Nat.zero_le _⟩

theorem blank_fits : ChannelFits {} :=
  ⟨⟨Nat.zero_le _, fun _ h => (by cases h)⟩, fun _ h => (by cases h), Nat.zero_le _, Nat.zero_le _, by decide⟩

theorem flush_within (c : Cfg) (h : Bounds c) : Within c.flush := by
  obtain ⟨h, hn⟩ := h
  unfold Cfg.flush
  split
  · exact h
  · split
    · exact ⟨h.1, h.2, h.3, h.4, h.5, h.6, h.7, h.8, h.9, h.10, h.11, h.12, h.13, h.14, h.15, h.16, h.17, h.18⟩
    · refine ⟨h.1, h.2, h.3, h.4, h.5, h.6, h.7, h.8, h.9, h.10, h.11, h.12, h.13, h.14, h.15, h.16, ?_, h.18⟩
      intro x hx
      rcases List.mem_or_eq_of_mem_set hx with hx | hx
      · exact h.17 x hx
      · rw [hx]; exact hn

theorem bounds_open (k : Section) (c : Cfg) (h : Bounds c) : Bounds (openSection k c) := by
  have hf := flush_within c h
  obtain ⟨h, hn⟩ := h
  cases k with
  | server =>
    exact ⟨⟨hf.1, hf.2, hf.3, hf.4, hf.5, hf.6, hf.7, hf.8, hf.9, hf.10, hf.11, hf.12, hf.13, hf.14, hf.15, hf.16, hf.17, hf.18⟩, none_fits _⟩
  | channel =>
    refine ⟨⟨h.1, h.2, h.3, h.4, h.5, h.6, h.7, h.8, h.9, h.10, h.11, h.12, h.13, h.14, h.15, h.16, h.17, ?_⟩, hn⟩
    intro x hx
    rcases List.mem_append.1 hx with hx | hx
    · exact h.18 x hx
    · rw [List.mem_singleton.1 hx]; exact blank_fits
  | operator =>
    refine ⟨⟨h.1, h.2, h.3, h.4, h.5, h.6, h.7, h.8, h.9, h.10, h.11, h.12, h.13, h.14, h.15, ?_, h.17, h.18⟩, hn⟩
    intro x hx
    rcases List.mem_append.1 hx with hx | hx
    · exact h.16 x hx
    · rw [List.mem_singleton.1 hx]; exact ⟨Nat.zero_le _, Nat.zero_le _⟩
  | _ => exact ⟨h, hn⟩

theorem bounds_var (k : Section) (v a : Str) (c : Cfg) (h : Bounds c) : Bounds (handleVar k v a c) := by
  obtain ⟨h, hn⟩ := h
  cases k with
  | global =>
    simp only [handleVar]
    split
    · exact ⟨h, hn⟩
    · rename_i w _
      cases w <;> simp only [setGlobal] <;> (repeat' split)
      case name => exact ⟨⟨h.1, h.2, h.3, h.4, h.5, cpy_len _ _, h.7, h.8, h.9, h.10, h.11, h.12, h.13, h.14, h.15, h.16, h.17, h.18⟩, hn⟩
      case info => exact ⟨⟨h.1, h.2, h.3, h.4, h.5, h.6, cpy_len _ _, h.8, h.9, h.10, h.11, h.12, h.13, h.14, h.15, h.16, h.17, h.18⟩, hn⟩
      case password => exact ⟨⟨h.1, h.2, h.3, h.4, h.5, h.6, h.7, cpy_len _ _, h.9, h.10, h.11, h.12, h.13, h.14, h.15, h.16, h.17, h.18⟩, hn⟩
      case network =>
        refine ⟨⟨h.1, h.2, h.3, h.4, h.5, h.6, h.7, h.8, ⟨?_, ?_⟩, h.10, h.11, h.12, h.13, h.14, h.15, h.16, h.17, h.18⟩, hn⟩
        · exact Nat.le_trans (List.takeWhile_sublist _).length_le (cpy_len 127 a)
        · intro hm
          have := List.all_eq_true.1 (List.all_takeWhile (l := strlcpy CLIENT_INFO_LEN a) (p := fun c => c != ' ')) _ hm
          exact absurd this (by decide)
      case ports =>
        refine ⟨⟨h.1, h.2, h.3, h.4, h.5, h.6, h.7, h.8, h.9, h.10, ?_, h.12, h.13, h.14, h.15, h.16, h.17, h.18⟩, hn⟩
        intro p hp
        rcases List.mem_append.1 hp with hp | hp
        · exact ports_ok a p hp
        · exact h.11 p (List.mem_append_right _ hp)
      all_goals first
        | exact ⟨⟨h.1, h.2, h.3, h.4, h.5, h.6, h.7, h.8, h.9, h.10, h.11, h.12, h.13, h.14, h.15, h.16, h.17, h.18⟩, hn⟩
        | exact ⟨⟨h.1, h.2, h.3, h.4, h.5, h.6, h.7, h.8, h.9, (by simp only; omega), h.11, h.12, h.13, h.14, h.15, h.16, h.17, h.18⟩, hn⟩
  | limits =>
    simp only [handleVar]
    split
    · exact ⟨h, hn⟩
    · rename_i w _
      cases w <;> simp only [setLimit]
      case connectRetry => exact ⟨⟨h.1, (by simp only; split <;> omega), h.3, h.4, h.5, h.6, h.7, h.8, h.9, h.10, h.11, h.12, h.13, h.14, h.15, h.16, h.17, h.18⟩, hn⟩
      case maxNickLength =>
        refine ⟨⟨?_, h.2, h.3, h.4, h.5, h.6, h.7, h.8, h.9, h.10, h.11, h.12, h.13, h.14, h.15, h.16, h.17, h.18⟩, hn⟩
        simp only [nickLength_eq, nickLength]
        repeat' split
        all_goals omega
      case maxPenaltyTime => exact ⟨⟨h.1, h.2, h.3, h.4, (by simp only; split <;> omega), h.6, h.7, h.8, h.9, h.10, h.11, h.12, h.13, h.14, h.15, h.16, h.17, h.18⟩, hn⟩
      case pingTimeout => exact ⟨⟨h.1, h.2, (by simp only; split <;> omega), h.4, h.5, h.6, h.7, h.8, h.9, h.10, h.11, h.12, h.13, h.14, h.15, h.16, h.17, h.18⟩, hn⟩
      case pongTimeout => exact ⟨⟨h.1, h.2, h.3, (by simp only; split <;> omega), h.5, h.6, h.7, h.8, h.9, h.10, h.11, h.12, h.13, h.14, h.15, h.16, h.17, h.18⟩, hn⟩
      all_goals exact ⟨⟨h.1, h.2, h.3, h.4, h.5, h.6, h.7, h.8, h.9, h.10, h.11, h.12, h.13, h.14, h.15, h.16, h.17, h.18⟩, hn⟩
  | options =>
    simp only [handleVar]
    split
    · exact ⟨h, hn⟩
    · rename_i w _
      cases w <;> simp only [setOption] <;> (repeat' split)
      case allowedChannelTypes =>
        refine ⟨⟨h.1, h.2, h.3, h.4, h.5, h.6, h.7, h.8, h.9, h.10, h.11, ?_, h.13, h.14, h.15, h.16, h.17, h.18⟩, hn⟩
        simp only [pick_eq]
        exact distinct_ok CHANTYPES a
      case defaultUserModes =>
        refine ⟨⟨h.1, h.2, h.3, h.4, h.5, h.6, h.7, h.8, h.9, h.10, h.11, h.12, ?_, h.14, h.15, h.16, h.17, h.18⟩, hn⟩
        simp only [pick_eq]
        exact distinct_ok USERMODES a
      case cloakHost => exact ⟨⟨h.1, h.2, h.3, h.4, h.5, h.6, h.7, h.8, h.9, h.10, h.11, h.12, h.13, ⟨cpy_len _ _, h.14.2⟩, h.15, h.16, h.17, h.18⟩, hn⟩
      case cloakHostModeX => exact ⟨⟨h.1, h.2, h.3, h.4, h.5, h.6, h.7, h.8, h.9, h.10, h.11, h.12, h.13, ⟨h.14.1, cpy_len _ _, h.14.2.2⟩, h.15, h.16, h.17, h.18⟩, hn⟩
      case cloakHostSalt => exact ⟨⟨h.1, h.2, h.3, h.4, h.5, h.6, h.7, h.8, h.9, h.10, h.11, h.12, h.13, ⟨h.14.1, h.14.2.1, cpy_len _ _⟩, h.15, h.16, h.17, h.18⟩, hn⟩
      case webircPassword => exact ⟨⟨h.1, h.2, h.3, h.4, h.5, h.6, h.7, h.8, h.9, h.10, h.11, h.12, h.13, h.14, cpy_len _ _, h.16, h.17, h.18⟩, hn⟩
      all_goals exact ⟨⟨h.1, h.2, h.3, h.4, h.5, h.6, h.7, h.8, h.9, h.10, h.11, h.12, h.13, h.14, h.15, h.16, h.17, h.18⟩, hn⟩
  | ssl =>
    simp only [handleVar]
    split
    · exact ⟨h, hn⟩
    · rename_i w _
      cases w <;> simp only [setSsl]
      case ports =>
        refine ⟨⟨h.1, h.2, h.3, h.4, h.5, h.6, h.7, h.8, h.9, h.10, ?_, h.12, h.13, h.14, h.15, h.16, h.17, h.18⟩, hn⟩
        intro p hp
        rcases List.mem_append.1 hp with hp | hp
        · exact h.11 p (List.mem_append_left _ hp)
        · exact ports_ok a p hp
      all_goals exact ⟨⟨h.1, h.2, h.3, h.4, h.5, h.6, h.7, h.8, h.9, h.10, h.11, h.12, h.13, h.14, h.15, h.16, h.17, h.18⟩, hn⟩
  | operator =>
    simp only [handleVar]
    split
    · exact ⟨h, hn⟩
    · rename_i w _
      refine ⟨⟨h.1, h.2, h.3, h.4, h.5, h.6, h.7, h.8, h.9, h.10, h.11, h.12, h.13, h.14, h.15, ?_, h.17, h.18⟩, hn⟩
      intro o ho
      rcases mem_updLast ho with ho | ⟨x, hx, e⟩
      · exact h.16 o ho
      · obtain ⟨a1, a2⟩ := h.16 x hx
        rw [e]
        cases w <;> simp only [setOper]
        · exact ⟨cpy_len _ _, a2⟩
        · exact ⟨a1, cpy_len _ _⟩
        · split <;> exact ⟨a1, a2⟩
  | server =>
    simp only [handleVar]
    split
    · exact ⟨h, hn⟩
    · split
      · exact ⟨h, hn⟩
      · exact ⟨⟨h.1, h.2, h.3, h.4, h.5, h.6, h.7, h.8, h.9, h.10, h.11, h.12, h.13, h.14, h.15, h.16, h.17, h.18⟩, peer_fits _ _ _ hn⟩
  | channel =>
    simp only [handleVar]
    split
    · exact ⟨h, hn⟩
    · refine ⟨⟨h.1, h.2, h.3, h.4, h.5, h.6, h.7, h.8, h.9, h.10, h.11, h.12, h.13, h.14, h.15, h.16, h.17, ?_⟩, hn⟩
      intro o ho
      rcases mem_updLast ho with ho | ⟨x, hx, e⟩
      · exact h.18 o ho
      · rw [e]; exact channel_fits _ _ _ (h.18 x hx)

theorem clean_fits (none : ServerCfg) (hn : PeerFits none) (is : List Nat) (t : List ServerCfg) (h : ∀ x ∈ t, PeerFits x) :
    ∀ x ∈ is.foldl (cleanSlot none) t, PeerFits x := by
  induction is generalizing t with
  | nil => exact h
  | cons i is ih =>
    refine ih _ ?_
    intro y hy
    unfold cleanSlot at hy
    split at hy
    · exact h y hy
    · rename_i x hx
      have hxm := List.mem_of_getElem? hx
      split at hy
      · rcases List.mem_or_eq_of_mem_set hy with hy | hy
        · exact h y hy
        · rw [hy]; exact hn
      · split at hy
        · obtain ⟨n, hn', e⟩ := List.mem_mapIdx.1 hy
          rw [← e]
          split
          · exact hn
          · exact h _ (List.getElem_mem _)
        · rcases List.mem_or_eq_of_mem_set hy with hy | hy
          · exact h y hy
          · rw [hy]
            have := h x hxm
            exact ⟨this.1, this.2, this.3, this.4, this.5, this.6⟩

/-- The defaults are within their bounds. -/
theorem start_within : Within {} :=
  ⟨by decide, by decide, by decide, by decide, by decide, by decide, by decide, by decide, by decide, by decide,
    fun p hp => (by cases hp), by decide, by decide, by decide, by decide, fun p hp => (by cases hp),
    fun p hp => (by cases hp), fun p hp => (by cases hp)⟩

/-- After reading any files, all settings are within their bounds (provided that the entries taken
over from the previous configuration are). -/
theorem C85_within (starting : Bool) (old : Cfg) (files : List Str)
    (ht : ∀ x ∈ old.table, PeerFits x) (hc : ∀ x ∈ old.chans, ChannelFits x) :
    Within (readConfig starting old files) := by
  unfold readConfig
  refine flush_within _ (file_inv bounds_open bounds_var files _ ⟨?_, none_fits _⟩)
  have h0 := start_within
  refine ⟨h0.1, h0.2, h0.3, h0.4, h0.5, h0.6, h0.7, h0.8, h0.9, h0.10, h0.11, h0.12, h0.13, h0.14, h0.15, h0.16, ?_, hc⟩
  refine clean_fits _ (none_fits _) _ _ ?_
  cases starting with
  | true => intro x hx; rw [(List.mem_replicate.1 hx).2]; exact none_fits _
  | false => exact ht

theorem valid_rest {n : Str} (h : validName false n = true) : ∀ c ∈ n, Alnum c ∨ c = '.' ∨ c = '-' := by
  induction n with
  | nil => intro c hc; cases hc
  | cons d r ih =>
    rw [validName] at h
    split at h
    · rename_i hd
      intro c hc
      rcases List.mem_cons.1 hc with hc | hc
      · subst hc
        rcases hd with h1 | h1 | h1 | h1
        · exact .inl (.inl h1)
        · exact .inl (.inr (.inl h1))
        · exact .inl (.inr (.inr h1))
        · exact .inr h1.2
      · exact ih h c hc
    · cases h

/-- A server only runs with a proper name. -/
theorem C85_name (host : Str) (starting : Bool) (old : Cfg) (files : List Str)
    (ht : ∀ x ∈ old.table, PeerFits x) (hc : ∀ x ∈ old.chans, ChannelFits x) (n : Str)
    (h : serverNameOf host (readConfig starting old files) = some n) : HostName n := by
  have hw := C85_within starting old files ht hc
  generalize readConfig starting old files = c at *
  unfold serverNameOf at h
  simp only at h
  obtain ⟨m, hm⟩ : ∃ m, m = (if c.glob.name.isEmpty then
      (if (strchr (strlcpy CLIENT_ID_LEN host) '.').isNone then strlcat CLIENT_ID_LEN (strlcpy CLIENT_ID_LEN host) ".host".toList
       else strlcpy CLIENT_ID_LEN host) else c.glob.name) := ⟨_, rfl⟩
  rw [← hm] at h
  have hlen : m.length < 64 := by
    rw [hm]
    split
    · split
      · have h1 : (strlcpy CLIENT_ID_LEN host).length ≤ 63 := cpy_len 63 host
        rw [strlcat_eq CLIENT_ID_LEN _ _ (Nat.lt_succ_of_le h1), List.length_take]
        simp only [CLIENT_ID_LEN]
        omega
      · exact Nat.lt_succ_of_le (cpy_len 63 host)
    · exact Nat.lt_succ_of_le hw.name
  split at h
  · cases h
  · rename_i hb
    simp only [Option.some.injEq] at h
    subst h
    simp only [Bool.or_eq_true, not_or, Bool.not_eq_true, Bool.not_eq_false'] at hb
    obtain ⟨⟨h1, h2⟩, h3⟩ := hb
    have hdot : '.' ∈ m := by
      rw [strchr_eq] at h3
      by_cases hd : '.' ∈ m
      · exact hd
      · rw [if_neg hd] at h3; cases h3
    cases m with
    | nil => cases h1
    | cons d r =>
      have h2' : validName true (d :: r) = true := by simpa using h2
      rw [validName] at h2'
      split at h2'
      · rename_i hd
        have had : Alnum d := by
          rcases hd with h1 | h1 | h1 | h1
          · exact .inl h1
          · exact .inr (.inl h1)
          · exact .inr (.inr h1)
          · cases h1.1
        refine ⟨?_, ⟨d, r, rfl, had⟩, hdot, hlen⟩
        intro x hx
        rcases List.mem_cons.1 hx with hx | hx
        · rw [hx]; exact .inl had
        · exact valid_rest h2' x hx
      · cases h2'

/-- A server started with files in which no name of a server contains an exclamation mark starts in
one of the states all the other properties are about. -/
theorem C85_start (host : Str) (fmt : Str → Option (UInt32 → Str)) (motd : List Str) (old : Cfg) (files : List Str)
    (hc : ∀ x ∈ old.chans, ChannelFits x) (ht : ∀ x ∈ old.table, PeerFits x) (n : Str)
    (h : serverNameOf host (readConfig true old files) = some n)
    (hp : ∀ x ∈ (readConfig true old files).table, '!' ∉ x.name) (now : Nat) :
    PoliteRun (Srv.init ((readConfig true old files).conf fmt motd n) host now) := by
  have hw := C85_within true old files ht hc
  have hn := C85_name host true old files ht hc n h
  refine .init _ host now ⟨⟨?_, ?_, hn.short⟩, hw.nickLength.2, ?_⟩
  · obtain ⟨c, r, e, _⟩ := hn.first
    show n ≠ []
    rw [e]; intro h; cases h
  · show '!' ∉ n
    intro hm
    rcases hn.chars '!' hm with h | h | h
    · rcases h with h | h | h <;> exact absurd h (by decide)
    · exact absurd h (by decide)
    · exact absurd h (by decide)
  · intro cs hcs
    obtain ⟨x, hx, e⟩ := List.mem_map.1 hcs
    obtain ⟨hx, hxn⟩ := List.mem_filter.1 hx
    rw [← e]
    refine ⟨?_, hp x hx, Nat.lt_succ_of_le (hw.servers x hx).name⟩
    intro e'
    simp only at e'
    rw [e'] at hxn; cases hxn

/-- Names of configured servers are not checked. -/
theorem C85_violated_by_server_name :
    ∃ (files : List Str) (host n : Str), serverNameOf host (readConfig true {} files) = some n ∧
      (readConfig true {} files).table.any (fun x => x.name == "a!b c".toList) = true :=
  ⟨["[GLOBAL]\nName = a.b\n[SERVER]\nName = a!b c\n".toList], [], "a.b".toList, by decide +kernel, by decide +kernel⟩

theorem Sample.conf_accepted : serverNameOf [] (readConfig true {} [Sample.confText]) = some "irc.example.net".toList ∧
    (∀ x ∈ (readConfig true {} [Sample.confText]).table, '!' ∉ x.name) := by decide +kernel

example : ∃ n, PoliteRun (Srv.init ((readConfig true {} [Sample.confText]).conf (fun _ => none) [] n) [] 1000) :=
  ⟨_, C85_start [] _ [] {} [Sample.confText] (fun x hx => by cases hx) (fun x hx => by cases hx) _
    Sample.conf_accepted.1 Sample.conf_accepted.2 1000⟩

example : Within (readConfig false Sample.running [Sample.confText]) :=
  C85_within false _ _ (fun x hx => by
    rcases List.mem_cons.1 hx with h | h
    · rw [h]; exact ⟨by decide, by decide, by decide, by decide, by decide, by decide⟩
    · rw [(List.mem_replicate.1 h).2]; exact none_fits false) (fun x hx => by cases hx)

/-- **C85**: the server always listens somewhere: on the ports given, with or without SSL, and on port 6667
exactly if none are given. -/
theorem C85_ports (starting : Bool) (old : Cfg) (files : List Str) :
    let c := readConfig starting old files
    (c.listenPorts ≠ [] ∨ c.ssl.ports ≠ []) ∧ (c.glob.ports ≠ [] ∨ c.ssl.ports ≠ [] → c.listenPorts = c.glob.ports) ∧
      (c.glob.ports = [] → c.ssl.ports = [] → c.listenPorts = [6667]) := by
  intro c
  unfold Cfg.listenPorts
  cases h1 : c.glob.ports <;> cases h2 : c.ssl.ports <;> simp

/-- With ports for SSL only there is no other port. -/
example : (readConfig true {} ["[GLOBAL]\nName = a.b\n[SSL]\nPorts = 6697\n".toList]).listenPorts = [] ∧
    (readConfig true {} ["[GLOBAL]\nName = a.b\n".toList]).listenPorts = [6667] := by decide +kernel

end Ngircd
