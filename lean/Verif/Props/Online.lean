import Verif.Props.Answers

/-!
# C72: the answers to ISON and USERHOST
-/

set_option linter.unusedSimpArgs false

namespace Ngircd
open Spec

variable {s v t : Srv} {i j : Nat} {l : Str} {cl : Nat} {req : Request} {c d p : Client}

theorem spaced_flatten : ∀ xs : List Str, xs ≠ [] → (xs.map (· ++ [' '])).flatten = spaced xs ++ [' ']
  | [], h => absurd rfl h
  | [a], _ => by simp [spaced]
  | a :: b :: as, _ => by
    rw [List.map_cons, List.flatten_cons, spaced_flatten (b :: as) (by simp), spaced]
    simp

/-- The reply buffer: as much of the list as fits, without the blank at its end. -/
theorem reply_fits (xs : List Str) : Fits (trimLastChr (strlcpy 505 (xs.map (· ++ [' '])).flatten) ' ') (spaced xs) := by
  by_cases hx : xs = []
  · subst hx
    exact ⟨List.nil_prefix, fun _ => rfl⟩
  rw [spaced_flatten xs hx]
  have e : strlcpy 505 (spaced xs ++ [' ']) = (spaced xs ++ [' ']).take 504 := rfl
  rw [e]
  by_cases hl : (spaced xs).length < 504
  · rw [List.take_of_length_le (by rw [List.length_append, List.length_singleton]; omega)]
    have : trimLastChr (spaced xs ++ [' ']) ' ' = spaced xs := by
      simp [trimLastChr]
    rw [this]
    exact ⟨List.prefix_rfl, fun _ => rfl⟩
  · refine ⟨?_, fun h => absurd h hl⟩
    rw [List.take_append_of_le_length (by omega)]
    have h1 : ∀ y : Str, trimLastChr y ' ' <+: y := fun y => by
      unfold trimLastChr
      split
      · exact List.prefix_rfl
      · split
        · exact List.dropLast_prefix _
        · exact List.prefix_rfl
    exact (h1 _).trans (List.take_prefix _ _)

theorem filterMap_bind {α β γ : Type} (f : α → Option β) (g : β → γ) (xs : List α) :
    xs.filterMap (fun x => (f x).map g) = (xs.filterMap f).map g := by
  rw [List.map_filterMap]

/-- The answer text when nothing in it is taken for a format directive. -/
theorem format_told (hb : Base s) (hr : Received s i l cl req) {cmd : String} {xs : List Str} (hpc : ∀ x ∈ xs, '%' ∉ x) (rnd : Int) :
    ∃ text, Fits text (spaced xs) ∧
      writeAsFormat (s.roll rnd) ((s.roll rnd).cl cl) cmd (trimLastChr (strlcpy 505 (xs.map (· ++ [' '])).flatten) ' ') =
        told (s.roll rnd) i (s.cl cl) [⟨cmd, [(s.cl cl).ID, text]⟩] := by
  obtain ⟨g1, g2, g3, g4⟩ := hr.owner hb
  have hc : (s.cl cl).introducer = (s.cl cl).ref ∨ (s.cl cl).introducer = s.this := hb.cl.loc _ g1 (by rw [g3]; rfl)
  refine ⟨_, reply_fits xs, ?_⟩
  rw [writeAsFormat, if_neg, roll_cl]
  · exact told_write (s := s.roll rnd) hc g3 [] _
  · rw [hasChar_iff]
    intro hm
    have h1 : '%' ∈ spaced xs := (reply_fits xs).1.subset hm
    have h2 : '%' ∈ (xs.map (· ++ [' '])).flatten := by
      cases xs with
      | nil => exact absurd h1 List.not_mem_nil
      | cons a as => rw [spaced_flatten _ (by simp)]; exact List.mem_append_left _ h1
    obtain ⟨y, hy, h3⟩ := List.mem_flatten.1 h2
    obtain ⟨x, hx, rfl⟩ := List.mem_map.1 hy
    rcases List.mem_append.1 h3 with h4 | h4
    · exact hpc x hx h4
    · exact absurd h4 (by decide)

/-- **C72** ISON answers with the names of exactly those users among the names given that are on the network (as many as fit into the line), provided no
such name contains a per cent sign; nothing else happens. -/
theorem C72_ison (h : PoliteRun s) (hr : Received s i l cl req) (his : Is req "ISON") (hu : (s.cl cl).type = .user) (hargs : req.argv ≠ [])
    (hpc : ∀ c ∈ usersNamed s (req.argv.flatMap (fun a => (words a).map trimStr)), '%' ∉ c.ID) (rnd : Int) :
    ∃ text, Fits text (spaced ((usersNamed s (req.argv.flatMap (fun a => (words a).map trimStr))).map Client.ID)) ∧
      Answers s i (step s (.line i rnd l)) [⟨"RPL_ISON_MSG", [(s.cl cl).ID, text]⟩] := by
  have hb := h.reachable.base
  obtain ⟨text, h1, h2⟩ := format_told hb hr (cmd := "RPL_ISON_MSG")
    (xs := (usersNamed s (req.argv.flatMap (fun a => (words a).map trimStr))).map Client.ID)
    (fun x hx => by obtain ⟨c, hc, rfl⟩ := List.mem_map.1 hx; exact hpc c hc) rnd
  refine ⟨text, h1, answers_of hb hr hu rnd ?_⟩
  rw [step_do hr rnd his rfl (by rw [hu]; rfl) (by
    cases hq : req.argv with
    | nil => exact absurd hq hargs
    | cons a as => simp [Command.argcOk, Request.argc, hq])]
  show (ircISON (s.roll rnd) cl req).1 = _
  rw [← h2]
  simp only [ircISON]
  congr 3
  rw [List.map_map, usersNamed, ← filterMap_bind]
  congr 1
  simp only [strtok_words]
  congr 1
  funext n
  rw [roll_search, clientNamed_eq h]
  cases clientNamed s n with
  | none => rfl
  | some c =>
    show (if c.type = .user then some (c.ID ++ [' ']) else none) = _
    by_cases hu : c.type = .user <;> simp [hu]

/-- **C72** USERHOST answers about the first five names, for each user among them, in the form `nick[*]=(+|-)user@host` with the host name the user is known by
(as much as fits into the line), provided none of it contains a per cent sign; nothing else happens. -/
theorem C72_userhost (h : PoliteRun s) (hr : Received s i l cl req) (his : Is req "USERHOST") (hu : (s.cl cl).type = .user) (hargs : req.argv ≠ [])
    (hpc : ∀ c ∈ usersNamed s (req.argv.take 5), '%' ∉ aboutUser s c) (rnd : Int) :
    ∃ text, Fits text (spaced ((usersNamed s (req.argv.take 5)).map (aboutUser s))) ∧
      Answers s i (step s (.line i rnd l)) [⟨"RPL_USERHOST_MSG", [(s.cl cl).ID, text]⟩] := by
  have hb := h.reachable.base
  obtain ⟨text, h1, h2⟩ := format_told hb hr (cmd := "RPL_USERHOST_MSG")
    (xs := (usersNamed s (req.argv.take 5)).map (aboutUser s))
    (fun x hx => by obtain ⟨c, hc, rfl⟩ := List.mem_map.1 hx; exact hpc c hc) rnd
  refine ⟨text, h1, answers_of hb hr hu rnd ?_⟩
  rw [step_do hr rnd his rfl (by rw [hu]; rfl) (by
    cases hq : req.argv with
    | nil => exact absurd hq hargs
    | cons a as => simp [Command.argcOk, Request.argc, hq])]
  show (ircUSERHOST (s.roll rnd) cl req).1 = _
  rw [← h2]
  simp only [ircUSERHOST]
  congr 3
  rw [List.map_map, usersNamed, ← filterMap_bind]
  congr 1
  congr 1
  funext n
  rw [roll_search, clientNamed_eq h]
  cases clientNamed s n with
  | none => rfl
  | some c =>
    show (if c.type = .user then some (userhostEntry (s.roll rnd) c) else none) = _
    have e : userhostEntry (s.roll rnd) c = aboutUser s c ++ [' '] := by
      simp only [userhostEntry, aboutUser, clMode_dec, decide_eq_true_eq]
      rw [show displayedHost (s.roll rnd) c = displayedHost s c from rfl, displayedHost_public]
    by_cases hu : c.type = .user <;> simp [hu, e]

/-- Names of users of this server never contain a per cent sign. -/
theorem C72_local_names (h : PoliteRun s) (hc : c ∈ s.clients) (hu : c.type = .user) (hl : c.conn.isSome = true) : '%' ∉ c.ID := by
  have hv := (C14_nicks_valid h hc hl (by rw [hu]; decide) (by rw [hu]; decide)).2 hu
  rw [Client.ID, if_neg (by simpa using hv.nonempty)]
  intro hm
  have := hv.chars _ hm
  revert this
  unfold NickChar
  decide

theorem Sample.online_facts :
    recv Sample.s5 5 "ISON bob :zed nobody ALICE".toList = some (3, ⟨none, "ISON".toList, ["bob".toList, "zed nobody ALICE".toList]⟩) ∧
    recv Sample.s5 5 "USERHOST bob zed".toList = some (3, ⟨none, "USERHOST".toList, ["bob".toList, "zed".toList]⟩) ∧
    (Sample.s5.cl 3).type = .user ∧
    (∀ c ∈ usersNamed Sample.s5 (["bob".toList, "zed nobody ALICE".toList].flatMap (fun a => (words a).map trimStr)), '%' ∉ c.ID) ∧
    (usersNamed Sample.s5 (["bob".toList, "zed nobody ALICE".toList].flatMap (fun a => (words a).map trimStr))).map Client.ID =
      ["bob".toList, "zed".toList, "alice".toList] ∧
    (∀ c ∈ usersNamed Sample.s5 (["bob".toList, "zed".toList].take 5), '%' ∉ aboutUser Sample.s5 c) ∧
    ((usersNamed Sample.s5 (["bob".toList, "zed".toList].take 5)).map (aboutUser Sample.s5)).length = 2 := by decide +kernel

example : ∃ req, PoliteRun Sample.s5 ∧ Received Sample.s5 5 "ISON bob :zed nobody ALICE".toList 3 req ∧ Is req "ISON" ∧ (Sample.s5.cl 3).type = .user ∧ req.argv ≠ [] ∧
    (∀ c ∈ usersNamed Sample.s5 (req.argv.flatMap (fun a => (words a).map trimStr)), '%' ∉ c.ID) ∧
    spaced ((usersNamed Sample.s5 (req.argv.flatMap (fun a => (words a).map trimStr))).map Client.ID) = "bob zed alice".toList := by
  obtain ⟨f1, f2, f3, f4, f5, f6, f7⟩ := Sample.online_facts
  exact ⟨_, polite_s5, recv_sound f1, by simp only [Is]; decide, f3, by simp, f4, by rw [f5]; decide⟩

example : ∃ req, PoliteRun Sample.s5 ∧ Received Sample.s5 5 "USERHOST bob zed".toList 3 req ∧ Is req "USERHOST" ∧ (Sample.s5.cl 3).type = .user ∧ req.argv ≠ [] ∧
    (∀ c ∈ usersNamed Sample.s5 (req.argv.take 5), '%' ∉ aboutUser Sample.s5 c) ∧ ((usersNamed Sample.s5 (req.argv.take 5)).map (aboutUser Sample.s5)).length = 2 := by
  obtain ⟨f1, f2, f3, f4, f5, f6, f7⟩ := Sample.online_facts
  exact ⟨_, polite_s5, recv_sound f2, by simp only [Is]; decide, f3, by simp, f6, f7⟩

/-- A peer has introduced a user whose name contains a per cent sign. -/
def Sample.s5p : Srv := Sample.lines Sample.s5 7 [":peer.example.net NICK %n 1 zed host.example 1 + :Zed Z"]

theorem Sample.fine_s5p : FineRun Sample.s5p := Sample.fine_lines Sample.fine_s5 7 _ (by decide +kernel)

theorem ison_percent (s : Srv) (rnd : Int) (h : hasChar (trimLastChr (strlcpy 505 ((["%n".toList].flatMap (fun a => (strtok a [' ']).map trimStr)).filterMap
    (fun n => (clientSearch s n).bind (fun c => if c.type = .user then some (c.ID ++ [' ']) else none))).flatten) ' ') '%' = true) :
    (ircISON (s.roll rnd) 3 ⟨none, "ISON".toList, ["%n".toList]⟩).1.fault = true := by
  have e : (ircISON (s.roll rnd) 3 ⟨none, "ISON".toList, ["%n".toList]⟩).1 = (s.roll rnd).crash := if_pos h
  rw [e]
  rfl

/-- **C72** With a per cent sign the text is taken for a format: a reachable state (all peers following the protocol) and a line of a user that lead into undefined behaviour. -/
theorem C72_violated_by_percent : ∃ s, PoliteRun s ∧ s.fault = false ∧ ∃ i l cl req, Received s i l cl req ∧ Is req "ISON" ∧ (s.cl cl).type = .user ∧
    ∀ rnd, (step s (.line i rnd l)).fault = true := by
  have hp : PoliteRun Sample.s5p := Sample.fine_s5p.mono (fun _ h => h.1) (fun _ _ h => h.1)
  have hf : recv Sample.s5p 5 "ISON %n".toList = some (3, ⟨none, "ISON".toList, ["%n".toList]⟩) ∧ Sample.s5p.fault = false ∧ (Sample.s5p.cl 3).type = .user ∧
      hasChar (trimLastChr (strlcpy 505 ((["%n".toList].flatMap (fun a => (strtok a [' ']).map trimStr)).filterMap (fun n => (clientSearch Sample.s5p n).bind
        (fun c => if c.type = .user then some (c.ID ++ [' ']) else none))).flatten) ' ') '%' = true := by decide +kernel
  obtain ⟨f1, f2, f3, f4⟩ := hf
  have hr := recv_sound f1
  have his : Is (⟨none, "ISON".toList, ["%n".toList]⟩ : Request) "ISON" := by simp only [Is]; decide
  refine ⟨_, hp, f2, 5, _, 3, _, hr, his, f3, fun rnd => ?_⟩
  rw [step_do hr rnd his rfl (by rw [f3]; rfl) rfl]
  exact ison_percent Sample.s5p rnd f4

end Ngircd
