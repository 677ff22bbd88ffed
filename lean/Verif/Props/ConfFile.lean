import Verif.Lemmas.ConfVars

/-!
# C84: the configuration file means what it says

`readConfig` models reading the configuration file (and the files in the include directory) at start
and at REHASH; `Spec/ConfFile` gives the meaning of a file line by line.
-/

set_option linter.unusedSimpArgs false

namespace Ngircd
open Spec

/-- The reader on all files. -/
theorem configured (c : Cfg) (hc : c.newServer.name = []) (hg : c.glob = {}) (hl : c.lim = {}) (ho : c.opt = {})
    (hs : c.ssl = {}) (hop : c.opers = []) (files : List Str) (h : ∀ f ∈ files, Readable f) :
    ConfiguredBy (fileBlocks files) c.passive c.table c.chans (files.foldl readFile c).flush := by
  rw [readFiles_eq c files h]
  generalize fileBlocks files = bs
  refine ⟨?_, ?_, ?_, ?_, ?_, ?_, ?_⟩
  · rw [flush_glob, glob_fold, hg]; exact global_is _
  · rw [flush_lim, lim_fold, hl]; exact limit_is _
  · rw [flush_opt, opt_fold, ho]; exact option_is _
  · rw [flush_ssl, ssl_fold, hs]; exact ssl_is _
  · rw [flush_opers, opers_fold, hop, List.nil_append]; exact each_map oper_is _
  · refine ⟨_, ?_, each_map channel_is _⟩
    rw [flush_chans, chans_fold]
  · refine ⟨_, ?_, each_map (server_is c.passive) _⟩
    rw [(servers_fold bs c (.inl hc)).2, flush_table, if_pos hc]
    rfl

/-- What remains of an entry of the table when the configuration is read again. -/
def Spec.keptEntry (passive : Bool) (x : ServerCfg) : ServerCfg :=
  if x.conn = .none then { disabled := passive } else { x with once := true }

/-- No two entries have the same connection. -/
def Spec.OwnConns (t : List ServerCfg) : Prop :=
  ∀ (i j : Nat) (x y : ServerCfg), t[i]? = some x → t[j]? = some y → x.conn ≠ .none → x.conn = y.conn → i = j

theorem clean_table (passive : Bool) (t : List ServerCfg) (h : Spec.OwnConns t) :
    (List.range t.length).foldl (cleanSlot { disabled := passive }) t = t.map (Spec.keptEntry passive) := by
  have step : ∀ n, n ≤ t.length → (List.range n).foldl (cleanSlot { disabled := passive }) t =
      (t.take n).map (Spec.keptEntry passive) ++ t.drop n := by
    intro n
    induction n with
    | zero => intro _; simp
    | succ n ih =>
      intro hn
      rw [List.range_succ, List.foldl_append, ih (Nat.le_of_succ_le hn)]
      obtain ⟨x, hx⟩ : ∃ x, t[n]? = some x := ⟨t[n], List.getElem?_eq_getElem hn⟩
      have hd : t.drop n = x :: t.drop (n + 1) := by
        rw [List.getElem?_eq_some_iff] at hx
        obtain ⟨hlt, e⟩ := hx
        rw [← e]; exact (List.drop_eq_getElem_cons hlt)
      have htk : t.take (n + 1) = t.take n ++ [x] := by
        rw [List.take_succ, hx]; rfl
      have hlen : ((t.take n).map (Spec.keptEntry passive)).length = n := by
        rw [List.length_map, List.length_take, Nat.min_eq_left (Nat.le_of_succ_le hn)]
      rw [hd, htk, List.map_append]
      show cleanSlot _ _ n = _
      unfold cleanSlot
      have hget : ((t.take n).map (Spec.keptEntry passive) ++ x :: t.drop (n + 1))[n]? = some x := by
        rw [List.getElem?_append_right (by rw [hlen]; exact Nat.le_refl _), hlen, Nat.sub_self]; rfl
      have hset : ∀ y, ((t.take n).map (Spec.keptEntry passive) ++ x :: t.drop (n + 1)).set n y =
          (t.take n).map (Spec.keptEntry passive) ++ [y] ++ t.drop (n + 1) := by
        intro y
        rw [List.set_append_right _ _ (by rw [hlen]; exact Nat.le_refl _), hlen, Nat.sub_self]; simp
      rw [hget]
      simp only
      by_cases hc : x.conn = .none
      · rw [if_pos hc, hset]
        simp [Spec.keptEntry, hc]
      · rw [if_neg hc]
        have hk : Spec.keptEntry passive x = { x with once := true } := if_neg hc
        rw [List.map_cons, List.map_nil, hk]
        cases ho : x.once with
        | false => simp only [Bool.false_eq_true, if_false]; rw [hset]
        | true =>
          simp only [if_true]
          have hxx : { x with once := true } = x := by cases x; simp_all
          rw [hxx, List.append_assoc, List.singleton_append]
          have : ∀ m (hm : m < ((t.take n).map (Spec.keptEntry passive) ++ x :: t.drop (n + 1)).length),
              m ≠ n → (((t.take n).map (Spec.keptEntry passive) ++ x :: t.drop (n + 1))[m]).conn ≠ x.conn := by
            intro m hm hne
            by_cases hlt : m < n
            · have hm' : m < ((t.take n).map (Spec.keptEntry passive)).length := by rw [hlen]; exact hlt
              rw [List.getElem_append_left hm', List.getElem_map]
              intro e
              unfold Spec.keptEntry at e
              split at e
              · exact hc e.symm
              · rw [List.getElem_take] at e
                have := h n m x t[m] hx (List.getElem?_eq_getElem _) hc e.symm
                omega
            · have hgt : n < m := by omega
              rw [List.getElem_append_right (by rw [hlen]; omega)]
              intro e
              have hm2 : ∃ y, t[m]? = some y ∧ y.conn = x.conn := by
                refine ⟨_, ?_, e⟩
                rw [← List.getElem?_eq_getElem, ← hd, List.getElem?_drop, hlen]
                congr 1
                omega
              obtain ⟨y, hy1, hy2⟩ := hm2
              have := h n m x y hx hy1 hc hy2.symm
              omega
          apply List.ext_getElem (by simp)
          intro m hm1 hm2
          rw [List.getElem_mapIdx]
          by_cases hne : m = n
          · rw [if_neg (fun h => h.1 hne)]
          · rw [if_neg (fun h => this m hm2 hne h.2)]
  have := step t.length (Nat.le_refl _)
  rw [this]; simp

/-- The files read at start configure the server as they say; servers beyond the 64th are
ignored. -/
theorem C84_start (old : Cfg) (files : List Str) (h : ∀ f ∈ files, Readable f) :
    ConfiguredBy (fileBlocks files) old.passive (List.replicate 64 { disabled := old.passive }) old.chans
      (readConfig true old files) := by
  have ht : (List.range (List.replicate 64 old.noServer).length).foldl (cleanSlot old.noServer) (List.replicate 64 old.noServer) =
      List.replicate 64 { disabled := old.passive } := by
    refine (clean_table old.passive _ ?_).trans ?_
    · intro i j x y hx _ hc
      exact absurd (by rw [(List.mem_replicate.1 (List.mem_of_getElem? hx)).2]; rfl) hc
    · rw [List.map_replicate]; rfl
  have := configured { chans := old.chans, table := List.replicate 64 { disabled := old.passive }, newServer := old.noServer, passive := old.passive }
    rfl rfl rfl rfl rfl rfl files h
  unfold readConfig
  simp only [if_true]
  rw [ht]
  exact this

/-- When the configuration is read again, entries of servers being connected are kept (to be removed
with the connection), and all the others are those of the files. -/
theorem C84_rehash (old : Cfg) (files : List Str) (h : ∀ f ∈ files, Readable f) (ho : Spec.OwnConns old.table) :
    ConfiguredBy (fileBlocks files) old.passive (old.table.map (Spec.keptEntry old.passive)) old.chans
      (readConfig false old files) := by
  have ht := clean_table old.passive old.table ho
  have := configured { chans := old.chans, table := old.table.map (Spec.keptEntry old.passive), newServer := old.noServer, passive := old.passive }
    rfl rfl rfl rfl rfl rfl files h
  unfold readConfig
  simp only [Bool.false_eq_true, if_false]
  have ht' : (List.range old.table.length).foldl (cleanSlot old.noServer) old.table = _ := ht
  rw [ht']
  exact this

/-- After reading the files at start, the servers in the table are the first 64 named server
blocks. -/
theorem C84_servers (old : Cfg) (files : List Str) (h : ∀ f ∈ files, Readable f) :
    ∃ new, Each (ServerIs old.passive) (blocksNamed (fileBlocks files) "[SERVER]") new ∧
      (readConfig true old files).table.filter (fun x => x.name ≠ []) = (new.filter (fun x => x.name ≠ [])).take 64 := by
  obtain ⟨new, h1, h2⟩ := (C84_start old files h).servers
  refine ⟨new, h2, ?_⟩
  rw [h1]
  have : ∀ (n : Nat) (bs : List ServerCfg), (∀ b ∈ bs, b.name ≠ []) →
      (fill (List.replicate n { disabled := old.passive }) bs).filter (fun x => x.name ≠ []) = bs.take n := by
    intro n
    induction n with
    | zero => intro bs _; cases bs <;> rfl
    | succ n ih =>
      intro bs hb
      rw [List.replicate_succ]
      cases bs with
      | nil =>
        rw [fill, List.take_nil, List.filter_eq_nil_iff]
        intro x hx
        rw [← List.replicate_succ] at hx
        rw [(List.mem_replicate.1 hx).2]
        simp
      | cons b bs =>
        rw [fill, if_pos rfl, List.filter_cons_of_pos (by simpa using hb b (List.mem_cons_self ..)),
          ih bs (fun x hx => hb x (List.mem_cons_of_mem _ hx)), List.take_succ_cons]
  exact this 64 _ (fun b hb => by simpa using (List.mem_filter.1 hb).2)

/-- Lines as a text. -/
def Spec.unlines (ls : List Str) : Str := ls.flatMap (fun l => l ++ ['\n'])

theorem textLines_unlines (ls : List Str) (h : ∀ l ∈ ls, '\n' ∉ l) : textLines (Spec.unlines ls) = ls ++ [[]] := by
  induction ls with
  | nil => rfl
  | cons l ls ih =>
    have hl := h l (List.mem_cons_self ..)
    have e : Spec.unlines (l :: ls) = l ++ '\n' :: Spec.unlines ls := by simp [Spec.unlines]
    rw [e, List.cons_append, ← ih (fun x hx => h x (List.mem_cons_of_mem _ hx))]
    generalize Spec.unlines ls = r
    clear e h ih
    induction l with
    | nil => simp [textLines]
    | cons c cs ih' =>
      rw [List.mem_cons, not_or] at hl
      rw [List.cons_append, textLines, if_neg (fun e => hl.1 e.symm), ih' hl.2]

/-- Empty lines, comments and white space around lines can be added and removed freely. -/
theorem C84_layout (starting : Bool) (old : Cfg) (xs ys : List Str) (hx : ∀ l ∈ xs, '\n' ∉ l) (hy : ∀ l ∈ ys, '\n' ∉ l)
    (rx : Readable (unlines xs)) (ry : Readable (unlines ys))
    (he : (xs.map trim).filter (fun l => l ≠ [] ∧ l.head? ≠ some ';' ∧ l.head? ≠ some '#') =
      (ys.map trim).filter (fun l => l ≠ [] ∧ l.head? ≠ some ';' ∧ l.head? ≠ some '#')) :
    readConfig starting old [unlines xs] = readConfig starting old [unlines ys] := by
  have key : ∀ ls : List Str, fileItems ls =
      ((ls.map trim).filter (fun l => l ≠ [] ∧ l.head? ≠ some ';' ∧ l.head? ≠ some '#')).filterMap meaning := by
    intro ls
    induction ls with
    | nil => rfl
    | cons l ls ih =>
      rw [List.map_cons]
      by_cases hl : trim l ≠ [] ∧ (trim l).head? ≠ some ';' ∧ (trim l).head? ≠ some '#'
      · rw [List.filter_cons_of_pos (by simpa using hl), List.filterMap_cons, ← ih]
        rfl
      · rw [List.filter_cons_of_neg (by simpa using hl), ← ih]
        have hm : meaning (trim l) = none := by
          refine if_pos ?_
          by_cases h1 : trim l = []
          · exact .inl h1
          · by_cases h2 : (trim l).head? = some ';'
            · exact .inr (.inl h2)
            · by_cases h3 : (trim l).head? = some '#'
              · exact .inr (.inr h3)
              · exact absurd ⟨h1, h2, h3⟩ hl
        unfold fileItems
        rw [List.filterMap_cons, hm]
  have ei : fileItems (textLines (unlines xs)) = fileItems (textLines (unlines ys)) := by
    rw [textLines_unlines xs hx, textLines_unlines ys hy]
    have : ∀ ls : List Str, fileItems (ls ++ [[]]) = fileItems ls := by
      intro ls; simp [fileItems, List.filterMap_append]; rfl
    rw [this, this, key, key, he]
  unfold readConfig
  simp only [List.foldl_cons, List.foldl_nil]
  rw [readFile_eq _ _ rx, readFile_eq _ _ ry, ei]

/-- The end of a comment of more than 1022 characters is taken for a line of its own: here a
password is set in a file which sets none. -/
theorem C84_violated_by_long_comment :
    ∃ file : Str, '\x00' ∉ file ∧ fileBlocks [file] = [("[GLOBAL]".toList, [])] ∧
      (readConfig true {} [file]).glob.pwd = "p".toList :=
  ⟨"[GLOBAL]\n#".toList ++ List.replicate 1022 'x' ++ "Password=p\n".toList, by decide +kernel, by decide +kernel, by decide +kernel⟩

/-- A configuration file. -/
def Sample.confText : Str :=
  "; comment\n[Global]\n Name = irc.example.net\nPorts = 6667, 6668,x\n[limits]\nMAXJOINS = 5\nMaxNickLength = 200\n[Server]\nName = peer.example.net\nPassive = yes\nPort = 7000\n[Server]\n[OPERATOR]\nName = root\nMask = a\nMask = b\n[Foo]\nName = x\n[Channel]\nName = help\nModes = +nt\nModes = +k x".toList

instance (f : Str) : Decidable (Readable f) := inferInstanceAs (Decidable (_ ∧ _))

theorem Sample.confText_facts : Readable Sample.confText ∧
    (readConfig true {} [Sample.confText]).glob.name = "irc.example.net".toList ∧
    (readConfig true {} [Sample.confText]).glob.ports = [6667, 6668] ∧
    (readConfig true {} [Sample.confText]).lim.maxJoins = 5 ∧
    (readConfig true {} [Sample.confText]).lim.maxNickLength = 32 ∧
    ((readConfig true {} [Sample.confText]).table.filter (fun x => x.name ≠ [])).map (fun x => (x.name, x.port, x.disabled)) =
      [("peer.example.net".toList, 7000, true)] ∧
    (readConfig true {} [Sample.confText]).opers = [{ name := "root".toList, mask := some "a".toList }] ∧
    (readConfig true {} [Sample.confText]).chans.map (fun x => (x.name, x.modes)) =
      [("#help".toList, ["+nt".toList, "+k x".toList])] := by decide +kernel

example : ∃ files, (∀ f ∈ files, Readable f) ∧
    ConfiguredBy (fileBlocks files) false (List.replicate 64 {}) [] (readConfig true {} files) ∧
    (readConfig true {} files).lim.maxJoins = 5 :=
  have hr : ∀ f ∈ [Sample.confText], Readable f := fun f hf => by
    rw [List.mem_singleton.1 hf]; exact Sample.confText_facts.1
  ⟨[Sample.confText], hr, C84_start {} _ hr, Sample.confText_facts.2.2.2.1⟩

/-- A running server with one link, whose configuration is read again. -/
def Sample.running : Cfg :=
  { table := { name := "peer.example.net".toList, conn := .up 7 } :: List.replicate 63 {} }

example : ∃ old files, (∀ f ∈ files, Readable f) ∧ Spec.OwnConns old.table ∧
    ((readConfig false old files).table.map (fun x => (x.name, x.once))).take 2 =
      [("peer.example.net".toList, true), ("peer.example.net".toList, false)] := by
  refine ⟨Sample.running, [Sample.confText], fun f hf => by
    rw [List.mem_singleton.1 hf]; exact Sample.confText_facts.1, ?_, by decide +kernel⟩
  intro i j x y hx hy hc he
  have hz : ∀ (i : Nat) (x : ServerCfg), Sample.running.table[i]? = some x → x.conn ≠ .none → i = 0 := by
    intro i x hx hc
    cases i with
    | zero => rfl
    | succ n =>
      have hx' : (List.replicate 63 ({} : ServerCfg))[n]? = some x := hx
      exact absurd (by rw [(List.mem_replicate.1 (List.mem_of_getElem? hx')).2]) hc
  rw [hz i x hx hc, hz j y hy (he ▸ hc)]

example : ∃ xs ys : List Str, xs ≠ ys ∧ Readable (unlines xs) ∧ Readable (unlines ys) ∧
    (xs.map trim).filter (fun l => l ≠ [] ∧ l.head? ≠ some ';' ∧ l.head? ≠ some '#') =
      (ys.map trim).filter (fun l => l ≠ [] ∧ l.head? ≠ some ';' ∧ l.head? ≠ some '#') :=
  ⟨["[Global]".toList, " Name = a.b ".toList], ["[Global]".toList, "# x".toList, [], "Name = a.b".toList],
    by decide +kernel, by decide +kernel, by decide +kernel, by decide +kernel⟩

end Ngircd
