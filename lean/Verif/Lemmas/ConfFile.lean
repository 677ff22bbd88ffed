import Verif.Spec.ConfFile
import Verif.Props.Str

/-!
# Lemmas about reading configuration files
-/

set_option linter.unusedSimpArgs false

namespace Ngircd
open Spec

/-! ## Lines -/

theorem blank_eq : blank = isTrimWs := by
  funext c; simp [blank, isTrimWs, beq_iff_eq]; rfl

theorem trim_eq (l : Str) : trim l = trimStr l := by
  rw [trimStr_eq, trim, blank_eq]

theorem trim_nl (l : Str) : trim (l ++ ['\n']) = trim l := by
  rw [trim_eq, trim_eq, C42_trim]
  obtain ⟨⟨a, b, e, ha, hb⟩, h1, h2⟩ := trimStr_trimmed l
  refine ⟨⟨a, b ++ ['\n'], ?_, ha, ?_⟩, h1, h2⟩
  · rw [← List.append_assoc, ← e]
  · intro c hc
    rcases List.mem_append.1 hc with h | h
    · exact hb c h
    · rw [List.mem_singleton.1 h, ← isTrimWs_iff]; decide

theorem textLines_cases (file : Str) :
    ('\n' ∉ file ∧ textLines file = [file]) ∨
    ∃ l rest, '\n' ∉ l ∧ file = l ++ '\n' :: rest ∧ textLines file = l :: textLines rest := by
  induction file with
  | nil => exact .inl ⟨by simp, rfl⟩
  | cons c cs ih =>
    by_cases hc : c = '\n'
    · subst hc
      exact .inr ⟨[], cs, by simp, rfl, by simp [textLines]⟩
    · rcases ih with ⟨h1, h2⟩ | ⟨l, rest, h1, h2, h3⟩
      · refine .inl ⟨?_, by simp [textLines, hc, h2]⟩
        intro h; rcases List.mem_cons.1 h with h | h
        · exact hc h.symm
        · exact h1 h
      · refine .inr ⟨c :: l, rest, ?_, by rw [h2]; rfl, by simp [textLines, hc, h3]⟩
        intro h; rcases List.mem_cons.1 h with h | h
        · exact hc h.symm
        · exact h1 h

theorem takeLine_all {n : Nat} {l : Str} (h : '\n' ∉ l) (hl : l.length ≤ n) : takeLine n l = l := by
  induction l generalizing n with
  | nil => cases n <;> rfl
  | cons c cs ih =>
    cases n with
    | zero => simp at hl
    | succ n =>
      rw [List.mem_cons, not_or] at h
      rw [takeLine, if_neg (fun e => h.1 e.symm), ih h.2 (Nat.le_of_succ_le_succ hl)]

theorem takeLine_nl {n : Nat} {l : Str} (r : Str) (h : '\n' ∉ l) (hl : l.length < n) :
    takeLine n (l ++ '\n' :: r) = l ++ ['\n'] := by
  induction l generalizing n with
  | nil => cases n with
    | zero => simp at hl
    | succ n => simp [takeLine]
  | cons c cs ih =>
    cases n with
    | zero => simp at hl
    | succ n =>
      rw [List.mem_cons, not_or] at h
      rw [List.cons_append, takeLine, if_neg (fun e => h.1 e.symm), ih h.2 (Nat.lt_of_succ_lt_succ hl)]
      rfl

theorem cut_nul {l : Str} (h : '\x00' ∉ l) : cutAt l '\x00' = l := by
  unfold cutAt
  induction l with
  | nil => rfl
  | cons c cs ih =>
    rw [List.mem_cons, not_or] at h
    rw [List.takeWhile_cons, if_pos (by simpa using fun e => h.1 e.symm), ih h.2]

theorem trim_length (l : Str) : (trim l).length ≤ l.length := by
  have h1 : ∀ (p : Char → Bool) (l : Str), (l.dropWhile p).length ≤ l.length :=
    fun p l => (List.dropWhile_sublist p).length_le
  rw [trim, List.length_reverse]
  exact Nat.le_trans (h1 _ _) (by rw [List.length_reverse]; exact h1 _ _)

/-- The lines `fgets` returns say what the lines of the file say, and are not too long. -/
theorem fileLines_eq (fuel : Nat) (file : Str) (hr : Readable file) (hf : file.length ≤ fuel) :
    fileItems (fileLines fuel file) = fileItems (textLines file) ∧
    ∀ l ∈ fileLines fuel file, (trim l).length < LINE_LEN - 1 := by
  induction fuel generalizing file with
  | zero =>
    have : file = [] := List.length_eq_zero_iff.1 (Nat.le_zero.1 hf)
    subst this
    exact ⟨by decide, by intro l hl; cases hl⟩
  | succ fuel ih =>
    by_cases he : file = []
    · subst he; exact ⟨by rfl, by intro l hl; simp [fileLines] at hl⟩
    have hne : file.isEmpty = false := by cases file with
      | nil => exact absurd rfl he
      | cons => rfl
    rcases textLines_cases file with ⟨h1, h2⟩ | ⟨l, rest, h1, h2, h3⟩
    · have hl : file.length < 1023 := hr.2 file (by rw [h2]; simp)
      have ht : takeLine (LINE_LEN - 1) file = file := takeLine_all h1 (Nat.le_of_lt hl)
      have hz : fileLines fuel [] = [] := by cases fuel <;> rfl
      have e : fileLines (fuel + 1) file = [file] := by
        rw [fileLines, hne, ht, cut_nul hr.1, List.drop_length, hz]; rfl
      rw [e, h2]
      refine ⟨rfl, fun l hl' => ?_⟩
      rw [List.mem_singleton.1 hl']
      exact Nat.lt_of_le_of_lt (trim_length _) hl
    · have hl : l.length < 1023 := hr.2 l (by rw [h3]; simp)
      have ht : takeLine (LINE_LEN - 1) file = l ++ ['\n'] := by rw [h2]; exact takeLine_nl rest h1 hl
      have hnl : '\x00' ∉ l ++ ['\n'] := by
        intro h
        rcases List.mem_append.1 h with h | h
        · exact hr.1 (by rw [h2]; exact List.mem_append_left _ h)
        · exact absurd (List.mem_singleton.1 h) (by decide)
      have hd : file.drop (l ++ ['\n']).length = rest := by
        rw [h2, show l ++ '\n' :: rest = (l ++ ['\n']) ++ rest by simp, List.drop_left]
      have e : fileLines (fuel + 1) file = (l ++ ['\n']) :: fileLines fuel rest := by
        rw [fileLines, hne, ht, cut_nul hnl, hd]; rfl
      have hrest : Readable rest := by
        refine ⟨fun h => hr.1 (by rw [h2]; exact List.mem_append_right _ (List.mem_cons_of_mem _ h)), fun l' hl' => hr.2 l' ?_⟩
        rw [h3]; exact List.mem_cons_of_mem _ hl'
      obtain ⟨i1, i2⟩ := ih rest hrest (by
        have := congrArg List.length h2
        simp only [List.length_append, List.length_cons] at this
        omega)
      rw [e, h3]
      refine ⟨?_, fun l' hl' => ?_⟩
      · unfold fileItems at i1 ⊢
        rw [List.filterMap_cons, List.filterMap_cons, trim_nl, i1]
      · rcases List.mem_cons.1 hl' with h | h
        · rw [h, trim_nl]; exact Nat.lt_of_le_of_lt (trim_length _) hl
        · exact i2 l' h

/-- What the reader does with a header or an assignment. -/
def itemStep (st : Place × Cfg) : Item → Place × Cfg
  | .header h => match varOf sections h with
    | some k => (.inside k, openSection k st.2)
    | none => (.unknown, st.2)
  | .assign n v => match st.1 with
    | .inside k => (st.1, handleVar k n v st.2)
    | _ => st

theorem strchr_eq (l : Str) (x : Char) :
    strchr l x = if x ∈ l then some (l.dropWhile (fun c => c ≠ x)) else none := by
  induction l with
  | nil => rfl
  | cons c cs ih =>
    by_cases h : c = x
    · subst h; simp [strchr]
    · have h' : ¬ x = c := fun e => h e.symm
      have e : (c :: cs).dropWhile (fun c => decide (c ≠ x)) = cs.dropWhile (fun c => decide (c ≠ x)) := by
        rw [List.dropWhile_cons, if_pos (by simpa using h)]
      simp only [e, strchr, beq_iff_eq, if_neg h, ih, List.mem_cons, h', false_or]

theorem cutAt_eq (l : Str) (x : Char) : cutAt l x = l.takeWhile (fun c => c ≠ x) := by
  unfold cutAt; congr 1; funext c; cases h : c == x <;> simp_all

theorem confLine_eq (st : Place × Cfg) (l : Str) (h : (trim l).length < LINE_LEN - 1) :
    confLine st l = match meaning (trim l) with
      | some i => itemStep st i
      | none => st := by
  unfold confLine
  simp only [← trim_eq]
  generalize trim l = t at *
  by_cases h1 : t = [] ∨ t.head? = some ';' ∨ t.head? = some '#'
  · have h1' : t.head? = some ';' ∨ t.head? = some '#' ∨ t = [] := by
      rcases h1 with h | h | h
      · exact .inr (.inr h)
      · exact .inl h
      · exact .inr (.inl h)
    rw [if_pos h1']
    have hm : meaning t = none := if_pos h1
    rw [hm]
  · have h1' : ¬ (t.head? = some ';' ∨ t.head? = some '#' ∨ t = []) := by
      intro h'; apply h1
      rcases h' with h | h | h
      · exact .inr (.inl h)
      · exact .inr (.inr h)
      · exact .inl h
    rw [if_neg h1', if_neg (Nat.not_le.2 h)]
    by_cases h2 : t.head? = some '[' ∧ t.getLast? = some ']'
    · have hm : meaning t = some (.header t) := (if_neg h1).trans (if_pos h2)
      rw [if_pos h2, hm]
      rfl
    · rw [if_neg h2]
      by_cases h3 : '=' ∈ t
      · have hm : meaning t = some (.assign (trim (t.takeWhile (fun c => c ≠ '='))) (trim ((t.dropWhile (fun c => c ≠ '=')).drop 1))) :=
          (if_neg h1).trans ((if_neg h2).trans (if_pos h3))
        rw [hm, strchr_eq, if_pos h3, cutAt_eq]
        obtain ⟨p, c⟩ := st
        cases p <;> simp [itemStep]
      · have hm : meaning t = none := (if_neg h1).trans ((if_neg h2).trans (if_neg h3))
        rw [hm, strchr_eq, if_neg h3]
        split <;> rfl

theorem fold_lines (ls : List Str) (st : Place × Cfg) (h : ∀ l ∈ ls, (trim l).length < LINE_LEN - 1) :
    ls.foldl confLine st = (fileItems ls).foldl itemStep st := by
  induction ls generalizing st with
  | nil => rfl
  | cons l ls ih =>
    have hl := h l (List.mem_cons_self ..)
    have ht := fun l' hl' => h l' (List.mem_cons_of_mem _ hl')
    have e := confLine_eq st l hl
    cases hm : meaning (trim l) with
    | none =>
      rw [hm] at e
      have e2 : fileItems (l :: ls) = fileItems ls := by simp [fileItems, List.filterMap_cons, hm]
      rw [e2, List.foldl_cons, e, ih _ ht]
    | some i =>
      rw [hm] at e
      have e2 : fileItems (l :: ls) = i :: fileItems ls := by simp [fileItems, List.filterMap_cons, hm]
      rw [e2, List.foldl_cons, List.foldl_cons, e, ih _ ht]

/-! ## Blocks -/

/-- The reader on the assignments of a block. -/
def inBlock (k : Section) (c : Cfg) (as : List Assign) : Cfg :=
  as.foldl (fun c a => handleVar k a.1 a.2 c) c

/-- The reader on a block. -/
def blockStep (c : Cfg) (b : Str × List Assign) : Cfg :=
  match varOf sections b.1 with
  | some k => inBlock k (openSection k c) b.2
  | none => c

/-- The reader on assignments, depending on the place. -/
def atPlace (p : Place) (c : Cfg) (as : List Assign) : Cfg :=
  match p with
  | .inside k => inBlock k c as
  | _ => c

theorem fold_items (is : List Item) (p : Place) (c : Cfg) :
    (is.foldl itemStep (p, c)).2 = (blocks is).foldl blockStep (atPlace p c (leading is)) := by
  induction is generalizing p c with
  | nil => cases p <;> rfl
  | cons i is ih =>
    cases i with
    | header h =>
      rw [List.foldl_cons, blocks, List.foldl_cons]
      have e : atPlace p c (leading (.header h :: is)) = c := by cases p <;> rfl
      rw [e]
      unfold blockStep
      simp only [itemStep]
      cases hs : varOf sections h with
      | none => simp only; rw [ih]; rfl
      | some k => simp only; rw [ih]; rfl
    | assign n v =>
      rw [List.foldl_cons, blocks]
      cases p with
      | outside => exact ih _ _
      | unknown => exact ih _ _
      | inside k => exact ih _ _

theorem readFile_eq (c : Cfg) (file : Str) (h : Readable file) :
    readFile c file = (blocks (fileItems (textLines file))).foldl blockStep c := by
  obtain ⟨h1, h2⟩ := fileLines_eq file.length file h (Nat.le_refl _)
  unfold readFile
  rw [fold_lines _ _ h2, h1, fold_items]
  rfl

theorem readFiles_eq (c : Cfg) (files : List Str) (h : ∀ f ∈ files, Readable f) :
    files.foldl readFile c = (fileBlocks files).foldl blockStep c := by
  induction files generalizing c with
  | nil => rfl
  | cons f fs ih =>
    rw [List.foldl_cons, ih _ (fun g hg => h g (List.mem_cons_of_mem _ hg)), readFile_eq _ _ (h f (List.mem_cons_self ..))]
    simp [fileBlocks, List.flatMap_cons, List.foldl_append]

/-! ## Variables -/

/-- No two names of a table are the same. -/
def TabOk {β : Type} (tab : List (String × β)) : Prop :=
  (tab.map (fun e => lowerStr e.1.toList)).Nodup ∧ (tab.map Prod.snd).Nodup

instance {β : Type} [DecidableEq β] (tab : List (String × β)) : Decidable (TabOk tab) :=
  inferInstanceAs (Decidable (_ ∧ _))

theorem varOf_iff {β : Type} {tab : List (String × β)} (h : TabOk tab) {n : String} {v : β}
    (hm : (n, v) ∈ tab) (x : Str) : varOf tab x = some v ↔ SameCase x n.toList := by
  obtain ⟨h1, h2⟩ := h
  unfold varOf
  induction tab with
  | nil => cases hm
  | cons e tab ih =>
    rw [List.map_cons, List.nodup_cons] at h1 h2
    rw [List.find?_cons]
    cases he : caseEq x e.1.toList with
    | true =>
      simp only [Option.map_some, Option.some.injEq]
      rcases List.mem_cons.1 hm with h | h
      · subst h
        exact ⟨fun _ => (caseEq_same _ _).1 he, fun _ => rfl⟩
      · refine ⟨fun e' => absurd (List.mem_map_of_mem (f := Prod.snd) h) (by rw [← e']; exact h2.1), fun hs => ?_⟩
        have hx := (caseEq_same _ _).2 hs
        unfold caseEq at hx he
        rw [beq_iff_eq] at hx he
        exact absurd (List.mem_map_of_mem (f := fun e : String × β => lowerStr e.1.toList) h) (by
          simp only; rw [← hx, he]; exact h1.1)
    | false =>
      simp only
      rcases List.mem_cons.1 hm with h | h
      · subst h
        refine ⟨fun hf => ?_, fun hs => ?_⟩
        · cases hff : tab.find? (fun e => caseEq x e.1.toList) with
          | none => rw [hff] at hf; cases hf
          | some y =>
            rw [hff] at hf
            simp only [Option.map_some, Option.some.injEq] at hf
            exact absurd (List.mem_map_of_mem (f := Prod.snd) (List.mem_of_find?_eq_some hff)) (by rw [hf]; exact h2.1)
        · rw [(caseEq_same _ _).2 hs] at he; cases he
      · exact ih h h1.2 h2.2

/-- What the handler of a section does with one assignment. -/
def applyVar {β G : Type} (tab : List (String × β)) (set : β → Str → G → G) (g : G) (a : Assign) : G :=
  match varOf tab a.1 with
  | none => g
  | some v => set v a.2 g

theorem values_fold {β G α : Type} {tab : List (String × β)} {set : β → Str → G → G} (ht : TabOk tab)
    {n : String} {v : β} (hm : (n, v) ∈ tab) {π : G → α} {φ : α → Str → α}
    (hset : ∀ a g, π (set v a g) = φ (π g) a) (hkeep : ∀ w a g, w ≠ v → π (set w a g) = π g)
    (as : List Assign) (g : G) :
    π (as.foldl (applyVar tab set) g) = (values as n).foldl φ (π g) := by
  induction as generalizing g with
  | nil => rfl
  | cons a as ih =>
    rw [List.foldl_cons, ih]
    have hi := varOf_iff ht hm a.1
    by_cases hs : SameCase a.1 n.toList
    · have e : applyVar tab set g a = set v a.2 g := by unfold applyVar; rw [hi.2 hs]
      have e2 : values (a :: as) n = a.2 :: values as n := by simp [values, hs]
      rw [e, e2, hset]; rfl
    · have e2 : values (a :: as) n = values as n := by simp [values, hs]
      rw [e2]
      congr 1
      unfold applyVar
      cases hv : varOf tab a.1 with
      | none => rfl
      | some w => exact hkeep w _ _ (fun e => hs (hi.1 (by rw [hv, e])))

theorem foldl_last {α : Type} (f : Str → α) (vs : List Str) (d : α) :
    vs.foldl (fun _ v => f v) d = match vs.getLast? with
      | some v => f v
      | none => d := by
  cases h : vs.getLast? with
  | none => rw [List.getLast?_eq_none_iff.1 h]; rfl
  | some v =>
    obtain ⟨us, e⟩ := List.getLast?_eq_some_iff.1 h
    rw [e, List.foldl_append]; rfl

theorem set_last {β G α : Type} {tab : List (String × β)} {set : β → Str → G → G} (ht : TabOk tab)
    {n : String} {v : β} (hm : (n, v) ∈ tab) (π : G → α) {f : Str → α}
    (hset : ∀ a g, π (set v a g) = f a) (hkeep : ∀ w a g, w ≠ v → π (set w a g) = π g)
    (as : List Assign) (g : G) :
    π (as.foldl (applyVar tab set) g) = setting as n (π g) f := by
  rw [values_fold (φ := fun _ v => f v) ht hm hset hkeep, foldl_last]; rfl

/-- The first value stays. -/
theorem fold_first (vs : List Str) (d : Option Str) :
    vs.foldl (fun x v => if x.isSome then x else some v) d = d.or vs.head? := by
  induction vs generalizing d with
  | nil => cases d <;> rfl
  | cons v vs ih =>
    rw [List.foldl_cons, ih]
    cases d <;> rfl

/-- The last acceptable value stays. -/
theorem fold_accept {α : Type} (p : α → Bool) (vs : List α) (d : α) :
    vs.foldl (fun x v => if p v then v else x) d = ((vs.filter p).getLast?).getD d := by
  induction vs generalizing d with
  | nil => rfl
  | cons v vs ih =>
    rw [List.foldl_cons, ih]
    cases hp : p v with
    | false => rw [List.filter_cons_of_neg (by simp [hp])]; rfl
    | true =>
      rw [List.filter_cons_of_pos hp, if_pos rfl, List.getLast?_cons]
      rfl

end Ngircd
