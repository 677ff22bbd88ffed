import Verif.Props.ConfRange

/-!
# C86: reading a configuration file fails no assertion and writes behind no array

`Cfg.bad`, `SslCfg.bad` and `ChannelCfg.bad` tell in the model that an assertion failed or that memory
behind an array was written.
-/

set_option linter.unusedSimpArgs false

namespace Ngircd
open Spec

/-- No assertion failed, and nothing has been written behind an array. -/
structure Spec.Sound (c : Cfg) : Prop where
  reader : c.bad = false
  ssl : c.ssl.bad = false
  channels : ∀ x ∈ c.chans, x.bad = false

/-- The settings of SSL which must not be repeated. -/
def Spec.sslOnce : List String :=
  ["CertFile", "DHFile", "KeyFile", "KeyFilePassword", "CipherList", "CAFile", "CRLFile"]

theorem pick_safe (all : Str) (size : Nat) (v : Str) (acc : Str × Bool) (hn : acc.1.Nodup) (hs : ∀ c ∈ acc.1, c ∈ all)
    (hsz : all.length < size) (hb : acc.2 = false) : (pickChars all size v acc).2 = false := by
  induction v generalizing acc with
  | nil => exact hb
  | cons p ps ih =>
    rw [pickChars]
    split
    · exact ih acc hn hs hb
    · rename_i hp
      have hp' : p ∉ acc.1 := fun h => hp (List.contains_iff_mem.2 h)
      split
      · rename_i ha
        have hn' : (acc.1 ++ [p]).Nodup := by
          rw [List.nodup_append]
          refine ⟨hn, by simp, ?_⟩
          intro a ha b hb e
          rw [List.mem_singleton.1 hb] at e
          exact hp' (e ▸ ha)
        have hs' : ∀ c ∈ acc.1 ++ [p], c ∈ all := by
          intro c hc
          rcases List.mem_append.1 hc with hc | hc
          · exact hs c hc
          · rw [List.mem_singleton.1 hc]; exact List.contains_iff_mem.1 ha
        refine ih _ hn' hs' ?_
        have hl : (acc.1 ++ [p]).length ≤ all.length := hn'.length_le_of_subset hs'
        rw [List.length_append, List.length_singleton] at hl
        simp only [hb, Bool.false_or, decide_eq_false_iff_not]
        omega
      · exact ih acc hn hs hb

theorem option_safe (v : OptionVar) (a : Str) : optionBad v a = false := by
  cases v <;> first
    | rfl
    | exact pick_safe CHANTYPES 8 a ([], false) List.nodup_nil (fun c hc => by cases hc) (by decide) rfl
    | exact pick_safe USERMODES CLIENT_MODE_LEN a ([], false) List.nodup_nil (fun c hc => by cases hc) (by decide) rfl

/-- The server being collected has a place, and nothing failed. -/
def Good (c : Cfg) : Prop := Placed c ∧ c.bad = false

theorem flush_good (c : Cfg) (h : Good c) : c.flush.bad = false := by
  obtain ⟨h, hb⟩ := h
  unfold Cfg.flush
  split
  · exact hb
  · rename_i hn
    rcases h with h | h
    · rw [h] at hn; exact absurd rfl hn
    · split
      · rename_i hi; rw [hi] at h; cases h
      · exact hb

theorem good_open (k : Section) (c : Cfg) (h : Good c) : Good (openSection k c) := by
  cases k with
  | server => exact ⟨.inl rfl, flush_good c h⟩
  | _ => exact h

theorem good_var (k : Section) (v a : Str) (c : Cfg) (h : Good c) : Good (handleVar k v a c) := by
  obtain ⟨h, hb⟩ := h
  cases k with
  | server =>
    simp only [handleVar]
    split
    · exact ⟨h, hb⟩
    · rename_i hi
      have hi' : c.newIdx.isSome = true := by cases hx : c.newIdx with
        | none => rw [hx] at hi; exact absurd rfl hi
        | some _ => rfl
      split
      · exact ⟨h, hb⟩
      · exact ⟨.inr hi', hb⟩
  | options =>
    simp only [handleVar]
    split
    · exact ⟨h, hb⟩
    · exact ⟨h, by simp only [hb, option_safe, Bool.or_self]⟩
  | _ => simp only [handleVar]; split <;> exact ⟨h, hb⟩

/-- Whatever the files say: the options and the table of servers are safe. -/
theorem C86_reader (starting : Bool) (old : Cfg) (files : List Str) : (readConfig starting old files).bad = false :=
  flush_good _ (file_inv good_open good_var files _ ⟨.inl rfl, rfl⟩)

/-- Values still to come, and one already set. -/
def load (as : List Assign) (n : String) (f : Option Str) : Nat := (values as n).length + f.toList.length

theorem load_cons {v : SslVar} {n : String} (hm : (n, v) ∈ sslVars) (a : Assign) (as : List Assign) (f : Option Str) :
    load (a :: as) n f = load as n f + (if varOf sslVars a.1 = some v then 1 else 0) := by
  have h := varOf_iff sslOk hm a.1
  unfold load values
  by_cases hs : SameCase a.1 n.toList
  · rw [if_pos (h.2 hs), List.filter_cons_of_pos (by simpa using hs), List.map_cons, List.length_cons]; omega
  · rw [if_neg (fun e => hs (h.1 e)), List.filter_cons_of_neg (by simpa using hs)]; omega

theorem load_set {as : List Assign} {n : String} {f : Option Str} (h : load as n f + 1 ≤ 1) (x : Str) :
    f = none ∧ load as n (some x) ≤ 1 := by
  unfold load at h ⊢
  cases f with
  | none => exact ⟨rfl, by simp at h ⊢; omega⟩
  | some y => simp at h

/-- The state of the SSL variables. -/
structure Loads (as : List Assign) (g : SslCfg) : Prop where
  cert : load as "CertFile" g.certFile ≤ 1
  dh : load as "DHFile" g.dhFile ≤ 1
  key : load as "KeyFile" g.keyFile ≤ 1
  pwd : load as "KeyFilePassword" g.keyFilePassword ≤ 1
  cipher : load as "CipherList" g.cipherList ≤ 1
  ca : load as "CAFile" g.caFile ≤ 1
  crl : load as "CRLFile" g.crlFile ≤ 1
  bad : g.bad = false

theorem ssl_safe (as : List Assign) (g : SslCfg) (h : Loads as g) : (as.foldl (applyVar sslVars setSsl) g).bad = false := by
  induction as generalizing g with
  | nil => exact h.bad
  | cons a as ih =>
    obtain ⟨h1, h2, h3, h4, h5, h6, h7, hb⟩ := h
    rw [load_cons (v := .certFile) (by decide)] at h1
    rw [load_cons (v := .dhFile) (by decide)] at h2
    rw [load_cons (v := .keyFile) (by decide)] at h3
    rw [load_cons (v := .keyFilePassword) (by decide)] at h4
    rw [load_cons (v := .cipherList) (by decide)] at h5
    rw [load_cons (v := .caFile) (by decide)] at h6
    rw [load_cons (v := .crlFile) (by decide)] at h7
    refine ih _ ?_
    unfold applyVar
    cases hv : varOf sslVars a.1 with
    | none =>
      simp only [hv] at h1 h2 h3 h4 h5 h6 h7
      exact ⟨by simpa using h1, by simpa using h2, by simpa using h3, by simpa using h4, by simpa using h5, by simpa using h6, by simpa using h7, hb⟩
    | some v =>
      rw [hv] at h1 h2 h3 h4 h5 h6 h7
      cases v <;> simp only [setSsl] <;>
        simp only [Option.some.injEq, reduceCtorEq, if_true, if_false, Nat.add_zero] at h1 h2 h3 h4 h5 h6 h7
      case certFile => obtain ⟨e, h1⟩ := load_set h1 a.2; exact ⟨h1, h2, h3, h4, h5, h6, h7, by simp [hb, e]⟩
      case dhFile => obtain ⟨e, h2⟩ := load_set h2 a.2; exact ⟨h1, h2, h3, h4, h5, h6, h7, by simp [hb, e]⟩
      case keyFile => obtain ⟨e, h3⟩ := load_set h3 a.2; exact ⟨h1, h2, h3, h4, h5, h6, h7, by simp [hb, e]⟩
      case keyFilePassword => obtain ⟨e, h4⟩ := load_set h4 a.2; exact ⟨h1, h2, h3, h4, h5, h6, h7, by simp [hb, e]⟩
      case cipherList => obtain ⟨e, h5⟩ := load_set h5 a.2; exact ⟨h1, h2, h3, h4, h5, h6, h7, by simp [hb, e]⟩
      case caFile => obtain ⟨e, h6⟩ := load_set h6 a.2; exact ⟨h1, h2, h3, h4, h5, h6, h7, by simp [hb, e]⟩
      case crlFile => obtain ⟨e, h7⟩ := load_set h7 a.2; exact ⟨h1, h2, h3, h4, h5, h6, h7, by simp [hb, e]⟩
      case ports => exact ⟨h1, h2, h3, h4, h5, h6, h7, hb⟩

theorem modes_safe (vs : List Str) (p : List Str × Bool) (hb : p.2 = false) (hl : p.1.length + vs.length ≤ 512) :
    (vs.foldl (fun (p : List Str × Bool) v => if p.1.length ≥ 512 * 8 then p
      else (p.1 ++ [v.take COMMAND_LEN], p.2 || decide (512 ≤ p.1.length))) p).2 = false := by
  induction vs generalizing p with
  | nil => exact hb
  | cons v vs ih =>
    rw [List.length_cons] at hl
    rw [List.foldl_cons, if_neg (by omega)]
    refine ih _ ?_ ?_
    · simp only [hb, Bool.false_or, decide_eq_false_iff_not]; omega
    · rw [List.length_append, List.length_singleton]; omega

theorem channel_safe (as : List Assign) (h : (values as "Modes").length ≤ 512) :
    (as.foldl (applyVar channelVars setChannel) {}).bad = false := by
  have := values_fold (v := .modes) (n := "Modes") channelOk (by decide) (set := setChannel) (π := fun x : ChannelCfg => (x.modes, x.bad))
    (φ := fun (p : List Str × Bool) v => if p.1.length ≥ 512 * 8 then p
      else (p.1 ++ [v.take COMMAND_LEN], p.2 || decide (512 ≤ p.1.length)))
    (by intro a g; simp only [setChannel]; split <;> rfl)
    (by intro w a g hw; cases w <;> first | rfl | exact absurd rfl hw) as {}
  have h2 := modes_safe (values as "Modes") ([], false) rfl (by rw [List.length_nil]; omega)
  exact (congrArg Prod.snd this).trans h2

/-- Reading files is safe when no setting of SSL is given twice and no channel has more than 512 lines
with modes. -/
theorem C86_safe_partial (starting : Bool) (old : Cfg) (files : List Str) (hf : ∀ f ∈ files, Readable f)
    (ho : ∀ x ∈ old.chans, x.bad = false)
    (hs : ∀ n ∈ sslOnce, (values (allIn (fileBlocks files) "[SSL]") n).length ≤ 1)
    (hm : ∀ as ∈ blocksNamed (fileBlocks files) "[CHANNEL]", (values as "Modes").length ≤ 512) :
    Sound (readConfig starting old files) := by
  refine ⟨C86_reader starting old files, ?_, ?_⟩
  · unfold readConfig
    simp only
    rw [readFiles_eq _ _ hf, flush_ssl, ssl_fold]
    have : ∀ n ∈ sslOnce, load (allIn (fileBlocks files) "[SSL]") n none ≤ 1 := fun n hn => hs n hn
    exact ssl_safe _ _ ⟨this _ (by decide), this _ (by decide), this _ (by decide), this _ (by decide), this _ (by decide),
      this _ (by decide), this _ (by decide), rfl⟩
  · unfold readConfig
    simp only
    rw [readFiles_eq _ _ hf, flush_chans, chans_fold]
    intro x hx
    rcases List.mem_append.1 hx with hx | hx
    · exact ho x hx
    · obtain ⟨as, has, e⟩ := List.mem_map.1 hx
      rw [← e]; exact channel_safe as (hm as has)

/-- Setting the certificate twice fails an assertion. -/
theorem C86_violated_by_ssl : ∃ files, (∀ f ∈ files, Readable f) ∧ ¬ Sound (readConfig true {} files) := by
  refine ⟨["[SSL]\nCertFile = a\nCertFile = b\n".toList], by decide +kernel, fun h => ?_⟩
  exact absurd h.ssl (by decide +kernel)

/-- The 513th line with modes of a channel is written behind the array. -/
theorem C86_violated_by_modes : ∃ files, (∀ f ∈ files, Readable f) ∧ ¬ Sound (readConfig true {} files) ∧
    (readConfig true {} files).ssl.bad = false := by
  refine ⟨["[CHANNEL]\n".toList ++ (List.replicate 513 "Modes=+m\n".toList).flatten], by decide +kernel, fun h => ?_, by decide +kernel⟩
  have := h.channels
  revert this
  decide +kernel

/-- The sample file is safe. -/
theorem Sample.conf_sound : Sound (readConfig true {} [Sample.confText]) :=
  C86_safe_partial true {} _ (by decide +kernel) (fun x hx => by cases hx) (by decide +kernel) (by decide +kernel)

end Ngircd
