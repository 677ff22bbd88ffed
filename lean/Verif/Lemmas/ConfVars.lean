import Verif.Lemmas.ConfBlocks

/-!
# What a configuration file says: the sections
-/

set_option linter.unusedSimpArgs false

namespace Ngircd
open Spec

theorem yes_eq (v : Str) : argIsTrue v = yes v := by
  unfold argIsTrue yes
  simp only [← caseEq_same]
  cases h1 : caseEq v "yes".toList
  · cases h2 : caseEq v "true".toList
    · by_cases h3 : atoi v = 0 <;> simp [h3]
    · simp
  · simp

theorem portList_eq (v : Str) : portsParse v = portList v := by
  unfold portsParse portList
  generalize strtok v [','] = l
  induction l with
  | nil => rfl
  | cons p l ih =>
    rw [List.filterMap_cons, List.filter_cons]
    simp only [trim_eq] at ih ⊢
    by_cases h : 0 < atoi (trimStr p) ∧ atoi (trimStr p) < 65535
    · have h' : atoi (trimStr p) > 0 ∧ atoi (trimStr p) < 0xFFFF := h
      simp only [if_pos h', h, decide_true, and_self, if_true, List.map_cons, ih]
    · have h' : ¬ (atoi (trimStr p) > 0 ∧ atoi (trimStr p) < 0xFFFF) := h
      simp only [if_neg h', h, decide_false, Bool.false_eq_true, if_false, ih]

theorem pick_eq (all : Str) (size : Nat) (v : Str) (acc : Str × Bool) :
    (pickChars all size v acc).1 =
      v.foldl (fun acc c => if c ∈ all ∧ c ∉ acc then acc ++ [c] else acc) acc.1 := by
  induction v generalizing acc with
  | nil => rfl
  | cons p ps ih =>
    rw [pickChars, List.foldl_cons]
    by_cases h1 : p ∈ acc.1
    · rw [if_pos (List.contains_iff_mem.2 h1), ih, if_neg (fun h => h.2 h1)]
    · rw [if_neg (fun h => h1 (List.contains_iff_mem.1 h))]
      by_cases h2 : p ∈ all
      · rw [if_pos (List.contains_iff_mem.2 h2), ih, if_pos ⟨h2, h1⟩]
      · rw [if_neg (fun h => h2 (List.contains_iff_mem.1 h)), ih, if_neg (fun h => h2 h.1)]

theorem atLeast_eq (n : Int) (v : Str) : (if atoi v < n then n else atoi v) = atLeast n v := by
  unfold atLeast; omega

theorem nickLength_eq (v : Str) : handleMaxNickLength v = nickLength v := by
  unfold handleMaxNickLength nickLength CLIENT_NICK_LEN
  simp only
  repeat' split
  all_goals omega

/-- Solves the goals about the variable itself. -/
macro "set_tac" : tactic => `(tactic| first
  | rfl
  | exact yes_eq _
  | exact portList_eq _
  | exact atLeast_eq _ _
  | exact nickLength_eq _
  | exact pick_eq _ _ _ _)

/-- Solves the goals about the other variables. -/
macro "keep_tac" w:ident h:ident : tactic => `(tactic| (cases $w:ident <;> first
  | rfl
  | (exact absurd rfl $h)
  | (simp only [setGlobal, setOption, setOper, setPeer, setChannel]; (repeat' split) <;> rfl)))

theorem fold_nonempty (vs : List Str) (d : Str) :
    vs.foldl (fun x v => if x.isEmpty then text 255 v else x) d =
      if d = [] then (((vs.map (text 255)).filter (fun v => v ≠ [])).head?).getD [] else d := by
  induction vs generalizing d with
  | nil => simp
  | cons v vs ih =>
    rw [List.foldl_cons, ih]
    cases d with
    | nil =>
      simp only [List.isEmpty_nil, if_true, List.map_cons]
      by_cases hv : text 255 v = []
      · rw [if_pos hv, List.filter_cons_of_neg (by simp [hv])]
      · rw [if_neg hv, List.filter_cons_of_pos (by simpa using hv)]; rfl
    | cons a l => rfl

theorem fold_port (vs : List Str) :
    vs.foldl (fun x v => if 0 ≤ atoi v ∧ atoi v < 65535 then (atoi v).toNat else x) 0 =
      (((vs.map atoi).filter (fun p => 0 ≤ p ∧ p < 65535)).getLast?.getD 0).toNat := by
  have h := fold_accept (fun p : Int => decide (0 ≤ p ∧ p < 65535)) (vs.map atoi) 0
  rw [← h]
  have : ∀ (vs : List Str) (d : Int),
      vs.foldl (fun x v => if 0 ≤ atoi v ∧ atoi v < 65535 then (atoi v).toNat else x) d.toNat =
        ((vs.map atoi).foldl (fun x v => if decide (0 ≤ v ∧ v < 65535) = true then v else x) d).toNat := by
    intro vs
    induction vs with
    | nil => intro d; rfl
    | cons v vs ih =>
      intro d
      rw [List.foldl_cons, List.map_cons, List.foldl_cons, ← ih]
      congr 1
      by_cases hv : 0 ≤ atoi v ∧ atoi v < 65535
      · rw [if_pos hv, if_pos (decide_eq_true hv)]
      · rw [if_neg hv, if_neg (by simpa using hv)]
  exact this vs 0

theorem fold_any (p : Str → Bool) (vs : List Str) (d : Bool) :
    vs.foldl (fun x v => x || p v) d = (d || vs.any p) := by
  induction vs generalizing d with
  | nil => simp
  | cons v vs ih => rw [List.foldl_cons, ih, List.any_cons, Bool.or_assoc]

theorem fold_keep {β G α : Type} {tab : List (String × β)} {set : β → Str → G → G} {π : G → α}
    (h : ∀ w a g, π (set w a g) = π g) (as : List Assign) (g : G) :
    π (as.foldl (applyVar tab set) g) = π g := by
  induction as generalizing g with
  | nil => rfl
  | cons a as ih =>
    rw [List.foldl_cons, ih]
    unfold applyVar
    cases varOf tab a.1 with
    | none => rfl
    | some v => exact h _ _ _

theorem fold_upto (vs : List Str) :
    vs.foldl (fun x v => if x.length ≥ 4096 then x else x ++ [text 513 v]) [] = (vs.map (text 513)).take 4096 := by
  have : ∀ (vs : List Str) (d : List Str), d.length ≤ 4096 →
      vs.foldl (fun x v => if x.length ≥ 4096 then x else x ++ [text 513 v]) d = (d ++ vs.map (text 513)).take 4096 := by
    intro vs
    induction vs with
    | nil => intro d hd; simp [List.take_of_length_le hd]
    | cons v vs ih =>
      intro d hd
      rw [List.foldl_cons]
      by_cases h : d.length ≥ 4096
      · rw [if_pos h, ih d hd]
        have e : d.length = 4096 := Nat.le_antisymm hd h
        rw [← e, List.take_left, List.take_left]
      · rw [if_neg h, ih _ (by simp; omega)]
        simp
  exact this vs [] (Nat.zero_le _)

theorem global_is (as : List Assign) : GlobalIs as (as.foldl (applyVar globalVars setGlobal) {}) where
  name := by
    refine set_last (v := .name) globalOk (by decide) GlobalCfg.name ?_ ?_ as _
    · intro a g; set_tac
    · intro w a g h; keep_tac w h
  admin1 := by
    refine set_last (v := .adminInfo1) globalOk (by decide) GlobalCfg.admin1 ?_ ?_ as _
    · intro a g; set_tac
    · intro w a g h; keep_tac w h
  admin2 := by
    refine set_last (v := .adminInfo2) globalOk (by decide) GlobalCfg.admin2 ?_ ?_ as _
    · intro a g; set_tac
    · intro w a g h; keep_tac w h
  adminMail := by
    refine set_last (v := .adminEMail) globalOk (by decide) GlobalCfg.adminMail ?_ ?_ as _
    · intro a g; set_tac
    · intro w a g h; keep_tac w h
  info := by
    refine set_last (v := .info) globalOk (by decide) GlobalCfg.info ?_ ?_ as _
    · intro a g; set_tac
    · intro w a g h; keep_tac w h
  helpFile := by
    refine set_last (v := .helpFile) globalOk (by decide) GlobalCfg.helpFile ?_ ?_ as _
    · intro a g; set_tac
    · intro w a g h; keep_tac w h
  motdFile := by
    refine set_last (v := .motdFile) globalOk (by decide) GlobalCfg.motdFile ?_ ?_ as _
    · intro a g; set_tac
    · intro w a g h; keep_tac w h
  pwd := by
    refine set_last (v := .password) globalOk (by decide) GlobalCfg.pwd ?_ ?_ as _
    · intro a g; set_tac
    · intro w a g h; keep_tac w h
  pidFile := by
    refine set_last (v := .pidFile) globalOk (by decide) GlobalCfg.pidFile ?_ ?_ as _
    · intro a g; set_tac
    · intro w a g h; keep_tac w h
  ports := by
    refine set_last (v := .ports) globalOk (by decide) GlobalCfg.ports ?_ ?_ as _
    · intro a g; set_tac
    · intro w a g h; keep_tac w h
  listen := by
    have h : (as.foldl (applyVar globalVars setGlobal) {}).listen = _ :=
      values_fold (n := "Listen") (v := .listen) (π := GlobalCfg.listen) (φ := fun x v => if x.isSome then x else some v)
        globalOk (by decide) (fun a g => by simp only [setGlobal]; split <;> rfl) (fun w a g h => by keep_tac w h) as _
    rw [h, fold_first]; rfl
  motd := by
    have h : (as.foldl (applyVar globalVars setGlobal) {}).motd = _ :=
      values_fold (n := "MotdPhrase") (v := .motdPhrase) (π := GlobalCfg.motd)
        (φ := fun x v => if decide (v ≠ [] ∧ v.length < 127) then v else x)
        globalOk (by decide) (fun a g => by
          simp only [setGlobal]
          by_cases h1 : a = []
          · subst h1; rfl
          · have h1' : ¬ a.length = 0 := fun e => h1 (List.length_eq_zero_iff.1 e)
            rw [if_neg h1']
            by_cases h2 : a.length ≥ 127
            · rw [if_pos h2, if_neg (by simp; intro; omega)]
            · rw [if_neg h2, if_pos (by simp; exact ⟨h1, by omega⟩)])
        (fun w a g h => by keep_tac w h) as _
    rw [h, fold_accept]
  network := by
    refine set_last (v := .network) globalOk (by decide) GlobalCfg.network ?_ ?_ as _
    · intro a g; exact cutAt_eq _ _
    · intro w a g h; keep_tac w h

theorem limit_is (as : List Assign) : LimitIs as (as.foldl (applyVar limitVars setLimit) {}) where
  connectRetry := by
    refine set_last (v := .connectRetry) limitOk (by decide) LimitCfg.connectRetry ?_ ?_ as _
    · intro a g; set_tac
    · intro w a g h; keep_tac w h
  idleTimeout := by
    refine set_last (v := .idleTimeout) limitOk (by decide) LimitCfg.idleTimeout ?_ ?_ as _
    · intro a g; set_tac
    · intro w a g h; keep_tac w h
  maxConnections := by
    refine set_last (v := .maxConnections) limitOk (by decide) LimitCfg.maxConnections ?_ ?_ as _
    · intro a g; set_tac
    · intro w a g h; keep_tac w h
  maxConnectionsIP := by
    refine set_last (v := .maxConnectionsIP) limitOk (by decide) LimitCfg.maxConnectionsIP ?_ ?_ as _
    · intro a g; set_tac
    · intro w a g h; keep_tac w h
  maxJoins := by
    refine set_last (v := .maxJoins) limitOk (by decide) LimitCfg.maxJoins ?_ ?_ as _
    · intro a g; set_tac
    · intro w a g h; keep_tac w h
  maxNickLength := by
    refine set_last (v := .maxNickLength) limitOk (by decide) LimitCfg.maxNickLength ?_ ?_ as _
    · intro a g; set_tac
    · intro w a g h; keep_tac w h
  maxListSize := by
    refine set_last (v := .maxListSize) limitOk (by decide) LimitCfg.maxListSize ?_ ?_ as _
    · intro a g; set_tac
    · intro w a g h; keep_tac w h
  maxPenaltyTime := by
    refine set_last (v := .maxPenaltyTime) limitOk (by decide) LimitCfg.maxPenaltyTime ?_ ?_ as _
    · intro a g; set_tac
    · intro w a g h; keep_tac w h
  pingTimeout := by
    refine set_last (v := .pingTimeout) limitOk (by decide) LimitCfg.pingTimeout ?_ ?_ as _
    · intro a g; set_tac
    · intro w a g h; keep_tac w h
  pongTimeout := by
    refine set_last (v := .pongTimeout) limitOk (by decide) LimitCfg.pongTimeout ?_ ?_ as _
    · intro a g; set_tac
    · intro w a g h; keep_tac w h

theorem option_is (as : List Assign) : OptionIs as (as.foldl (applyVar optionVars setOption) {}) where
  allowedChannelTypes := by
    refine set_last (v := .allowedChannelTypes) optionOk (by decide) OptionCfg.allowedChannelTypes ?_ ?_ as _
    · intro a g; set_tac
    · intro w a g h; keep_tac w h
  allowRemoteOper := by
    refine set_last (v := .allowRemoteOper) optionOk (by decide) OptionCfg.allowRemoteOper ?_ ?_ as _
    · intro a g; set_tac
    · intro w a g h; keep_tac w h
  chroot := by
    refine set_last (v := .chrootDir) optionOk (by decide) OptionCfg.chroot ?_ ?_ as _
    · intro a g; set_tac
    · intro w a g h; keep_tac w h
  cloakHost := by
    refine set_last (v := .cloakHost) optionOk (by decide) OptionCfg.cloakHost ?_ ?_ as _
    · intro a g; set_tac
    · intro w a g h; keep_tac w h
  cloakHostModeX := by
    refine set_last (v := .cloakHostModeX) optionOk (by decide) OptionCfg.cloakHostModeX ?_ ?_ as _
    · intro a g; set_tac
    · intro w a g h; keep_tac w h
  cloakHostSalt := by
    refine set_last (v := .cloakHostSalt) optionOk (by decide) OptionCfg.cloakHostSalt ?_ ?_ as _
    · intro a g; set_tac
    · intro w a g h; keep_tac w h
  cloakUserToNick := by
    refine set_last (v := .cloakUserToNick) optionOk (by decide) OptionCfg.cloakUserToNick ?_ ?_ as _
    · intro a g; set_tac
    · intro w a g h; keep_tac w h
  connectIPv6 := by
    refine set_last (v := .connectIPv6) optionOk (by decide) OptionCfg.connectIPv6 ?_ ?_ as _
    · intro a g; set_tac
    · intro w a g h; keep_tac w h
  connectIPv4 := by
    refine set_last (v := .connectIPv4) optionOk (by decide) OptionCfg.connectIPv4 ?_ ?_ as _
    · intro a g; set_tac
    · intro w a g h; keep_tac w h
  defaultUserModes := by
    refine set_last (v := .defaultUserModes) optionOk (by decide) OptionCfg.defaultUserModes ?_ ?_ as _
    · intro a g; set_tac
    · intro w a g h; keep_tac w h
  dns := by
    refine set_last (v := .dns) optionOk (by decide) OptionCfg.dns ?_ ?_ as _
    · intro a g; set_tac
    · intro w a g h; keep_tac w h
  ident := by
    refine set_last (v := .ident) optionOk (by decide) OptionCfg.ident ?_ ?_ as _
    · intro a g; set_tac
    · intro w a g h; keep_tac w h
  morePrivacy := by
    refine set_last (v := .morePrivacy) optionOk (by decide) OptionCfg.morePrivacy ?_ ?_ as _
    · intro a g; set_tac
    · intro w a g h; keep_tac w h
  noticeBeforeRegistration := by
    refine set_last (v := .noticeBeforeRegistration) optionOk (by decide) OptionCfg.noticeBeforeRegistration ?_ ?_ as _
    · intro a g; set_tac
    · intro w a g h; keep_tac w h
  operCanMode := by
    refine set_last (v := .operCanUseMode) optionOk (by decide) OptionCfg.operCanMode ?_ ?_ as _
    · intro a g; set_tac
    · intro w a g h; keep_tac w h
  operChanPAutoOp := by
    refine set_last (v := .operChanPAutoOp) optionOk (by decide) OptionCfg.operChanPAutoOp ?_ ?_ as _
    · intro a g; set_tac
    · intro w a g h; keep_tac w h
  operServerMode := by
    refine set_last (v := .operServerMode) optionOk (by decide) OptionCfg.operServerMode ?_ ?_ as _
    · intro a g; set_tac
    · intro w a g h; keep_tac w h
  pam := by
    refine set_last (v := .pam) optionOk (by decide) OptionCfg.pam ?_ ?_ as _
    · intro a g; set_tac
    · intro w a g h; keep_tac w h
  pamIsOptional := by
    refine set_last (v := .pamIsOptional) optionOk (by decide) OptionCfg.pamIsOptional ?_ ?_ as _
    · intro a g; set_tac
    · intro w a g h; keep_tac w h
  pamServiceName := by
    refine set_last (v := .pamServiceName) optionOk (by decide) OptionCfg.pamServiceName ?_ ?_ as _
    · intro a g; set_tac
    · intro w a g h; keep_tac w h
  authPing := by
    refine set_last (v := .requireAuthPing) optionOk (by decide) OptionCfg.authPing ?_ ?_ as _
    · intro a g; set_tac
    · intro w a g h; keep_tac w h
  scrubCTCP := by
    refine set_last (v := .scrubCTCP) optionOk (by decide) OptionCfg.scrubCTCP ?_ ?_ as _
    · intro a g; set_tac
    · intro w a g h; keep_tac w h
  webircPwd := by
    refine set_last (v := .webircPassword) optionOk (by decide) OptionCfg.webircPwd ?_ ?_ as _
    · intro a g; set_tac
    · intro w a g h; keep_tac w h
  includeDir := by
    have h : (as.foldl (applyVar optionVars setOption) {}).includeDir = _ :=
      values_fold (n := "IncludeDir") (v := .includeDir) (π := OptionCfg.includeDir) (φ := fun x v => if x.isEmpty then text 255 v else x)
        optionOk (by decide) (fun a g => by simp only [setOption]; split <;> rfl) (fun w a g h => by keep_tac w h) as _
    rw [h, fold_nonempty]; rfl

theorem ssl_is (as : List Assign) : SslIs as (as.foldl (applyVar sslVars setSsl) {}) where
  certFile := by
    refine set_last (v := .certFile) sslOk (by decide) SslCfg.certFile ?_ ?_ as _
    · intro a g; set_tac
    · intro w a g h; keep_tac w h
  dhFile := by
    refine set_last (v := .dhFile) sslOk (by decide) SslCfg.dhFile ?_ ?_ as _
    · intro a g; set_tac
    · intro w a g h; keep_tac w h
  keyFile := by
    refine set_last (v := .keyFile) sslOk (by decide) SslCfg.keyFile ?_ ?_ as _
    · intro a g; set_tac
    · intro w a g h; keep_tac w h
  keyFilePassword := by
    refine set_last (v := .keyFilePassword) sslOk (by decide) SslCfg.keyFilePassword ?_ ?_ as _
    · intro a g; set_tac
    · intro w a g h; keep_tac w h
  ports := by
    refine set_last (v := .ports) sslOk (by decide) SslCfg.ports ?_ ?_ as _
    · intro a g; set_tac
    · intro w a g h; keep_tac w h
  cipherList := by
    refine set_last (v := .cipherList) sslOk (by decide) SslCfg.cipherList ?_ ?_ as _
    · intro a g; set_tac
    · intro w a g h; keep_tac w h
  caFile := by
    refine set_last (v := .caFile) sslOk (by decide) SslCfg.caFile ?_ ?_ as _
    · intro a g; set_tac
    · intro w a g h; keep_tac w h
  crlFile := by
    refine set_last (v := .crlFile) sslOk (by decide) SslCfg.crlFile ?_ ?_ as _
    · intro a g; set_tac
    · intro w a g h; keep_tac w h

theorem oper_is (as : List Assign) : OperIs as (as.foldl (applyVar operVars setOper) {}) where
  name := by
    refine set_last (v := .name) operOk (by decide) OperCfg.name ?_ ?_ as _
    · intro a g; set_tac
    · intro w a g h; keep_tac w h
  pwd := by
    refine set_last (v := .password) operOk (by decide) OperCfg.pwd ?_ ?_ as _
    · intro a g; set_tac
    · intro w a g h; keep_tac w h
  mask := by
    have h : (as.foldl (applyVar operVars setOper) {}).mask = _ :=
      values_fold (n := "Mask") (v := .mask) (π := OperCfg.mask) (φ := fun x v => if x.isSome then x else some v)
        operOk (by decide) (fun a g => by simp only [setOper]; split <;> rfl) (fun w a g h => by keep_tac w h) as _
    rw [h, fold_first]; rfl

theorem server_is (passive : Bool) (as : List Assign) : ServerIs passive as (as.foldl (applyVar serverVars setPeer) { disabled := passive }) where
  host := by
    refine set_last (v := .host) serverOk (by decide) ServerCfg.host ?_ ?_ as _
    · intro a g; set_tac
    · intro w a g h; keep_tac w h
  name := by
    refine set_last (v := .name) serverOk (by decide) ServerCfg.name ?_ ?_ as _
    · intro a g; set_tac
    · intro w a g h; keep_tac w h
  pwdIn := by
    refine set_last (v := .myPassword) serverOk (by decide) ServerCfg.pwdIn ?_ ?_ as _
    · intro a g; set_tac
    · intro w a g h; keep_tac w h
  pwdOut := by
    refine set_last (v := .peerPassword) serverOk (by decide) ServerCfg.pwdOut ?_ ?_ as _
    · intro a g; set_tac
    · intro w a g h; keep_tac w h
  group := by
    refine set_last (v := .group) serverOk (by decide) ServerCfg.group ?_ ?_ as _
    · intro a g; set_tac
    · intro w a g h; keep_tac w h
  sslConnect := by
    refine set_last (v := .sslConnect) serverOk (by decide) ServerCfg.sslConnect ?_ ?_ as _
    · intro a g; set_tac
    · intro w a g h; keep_tac w h
  sslVerify := by
    refine set_last (v := .sslVerify) serverOk (by decide) ServerCfg.sslVerify ?_ ?_ as _
    · intro a g; set_tac
    · intro w a g h; keep_tac w h
  svsMask := by
    refine set_last (v := .serviceMask) serverOk (by decide) ServerCfg.svsMask ?_ ?_ as _
    · intro a g; set_tac
    · intro w a g h; keep_tac w h
  port := by
    have h : (as.foldl (applyVar serverVars setPeer) { disabled := passive }).port = _ :=
      values_fold (n := "Port") (v := .port) (π := ServerCfg.port)
        (φ := fun x v => if 0 ≤ atoi v ∧ atoi v < 65535 then (atoi v).toNat else x)
        serverOk (by decide) (fun a g => by simp only [setPeer]; split <;> rfl) (fun w a g h => by keep_tac w h) as _
    rw [h]
    exact fold_port _
  disabled := by
    have h : (as.foldl (applyVar serverVars setPeer) { disabled := passive }).disabled = _ :=
      values_fold (n := "Passive") (v := .passive) (π := ServerCfg.disabled) (φ := fun x v => x || yes v)
        serverOk (by decide) (fun a g => by
          simp only [setPeer, yes_eq]
          cases yes a
          · simp
          · simp) (fun w a g h => by keep_tac w h) as _
    rw [h]
    exact fold_any yes _ _
  fresh := by
    constructor
    · have : ∀ (as : List Assign) (x : ServerCfg), (as.foldl (applyVar serverVars setPeer) x).conn = x.conn :=
        fold_keep (fun w a g => by cases w <;> first | rfl | (simp only [setPeer]; split <;> rfl))
      exact this _ _
    · have : ∀ (as : List Assign) (x : ServerCfg), (as.foldl (applyVar serverVars setPeer) x).once = x.once :=
        fold_keep (fun w a g => by cases w <;> first | rfl | (simp only [setPeer]; split <;> rfl))
      exact this _ _

theorem channel_is (as : List Assign) : ChannelIs as (as.foldl (applyVar channelVars setChannel) {}) where
  key := by
    refine set_last (v := .key) channelOk (by decide) ChannelCfg.key ?_ ?_ as _
    · intro a g; set_tac
    · intro w a g h; keep_tac w h
  topic := by
    refine set_last (v := .topic) channelOk (by decide) ChannelCfg.topic ?_ ?_ as _
    · intro a g; set_tac
    · intro w a g h; keep_tac w h
  keyFile := by
    refine set_last (v := .keyFile) channelOk (by decide) ChannelCfg.keyFile ?_ ?_ as _
    · intro a g; set_tac
    · intro w a g h; keep_tac w h
  autojoin := by
    refine set_last (v := .autojoin) channelOk (by decide) ChannelCfg.autojoin ?_ ?_ as _
    · intro a g; set_tac
    · intro w a g h; keep_tac w h
  maxusers := by
    refine set_last (v := .maxUsers) channelOk (by decide) ChannelCfg.maxusers ?_ ?_ as _
    · intro a g; set_tac
    · intro w a g h; keep_tac w h
  name := by
    refine set_last (v := .name) channelOk (by decide) ChannelCfg.name ?_ ?_ as _
    · intro a g
      show channelName a = _
      unfold channelName
      cases hv : isValidChanName a with
      | false => rfl
      | true =>
        have hl : a.length < CHANNEL_NAME_LEN := by
          unfold isValidChanName at hv
          simp only [Bool.and_eq_true, decide_eq_true_eq] at hv
          exact hv.1.2
        exact List.take_of_length_le (Nat.le_of_lt_succ hl)
    · intro w a g h; keep_tac w h
  modes := by
    have h : (as.foldl (applyVar channelVars setChannel) {}).modes = _ :=
      values_fold (n := "Modes") (v := .modes) (π := ChannelCfg.modes)
        (φ := fun x v => if x.length ≥ 4096 then x else x ++ [text 513 v])
        channelOk (by decide) (fun a g => by simp only [setChannel]; split <;> rfl) (fun w a g h => by keep_tac w h) as _
    rw [h]
    exact fold_upto _

end Ngircd
