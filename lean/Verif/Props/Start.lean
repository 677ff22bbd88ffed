import Verif.Model.Start
import Verif.Spec.Start

/-!
# C96: the privileges the server gives up when it starts

`startServer` is `NGIRCd_Init` (src/ngircd/ngircd.c) with the configuration that was read; it answers with
the process the server goes on as.  The property quantifies over every system (which IDs are valid, who
"nobody" is, which directories can be entered, which system calls fail), every configuration and every
process the server is started as.
-/

namespace Ngircd
open Ngircd.Spec

/-! ## How the start is composed -/

theorem start_some {s : System} {c : StartConf} {p q : Proc} (h : startServer s c p = some q) :
    ∃ p1 u g p2 p3, initRoot s c p = some p1 ∧ initIds s c = some (u, g) ∧ initGroup s g p1 = some p2 ∧
      initUser s u p2 = some p3 ∧ (c.noDaemon = false → s.failFork = false) ∧ q = initDirs s c p3 := by
  unfold startServer at h
  split at h
  · cases h
  cases h1 : initRoot s c p with
  | none => simp [h1] at h
  | some p1 =>
    cases h2 : initIds s c with
    | none => simp [h1, h2] at h
    | some ug =>
      obtain ⟨u, g⟩ := ug
      cases h3 : initGroup s g p1 with
      | none => simp [h1, h2, h3] at h
      | some p2 =>
        cases h4 : initUser s u p2 with
        | none => simp [h1, h2, h3, h4] at h
        | some p3 =>
          simp only [h1, h2, h3, h4, Option.bind_some] at h
          split at h
          · cases h
          · rename_i hf
            cases h
            refine ⟨p1, u, g, p2, p3, rfl, rfl, h3, h4, ?_, rfl⟩
            intro hn
            simpa [hn] using hf

/-- Entering a directory changes no ID. -/
theorem chdir_ids {s : System} {p q : Proc} {x : Path} (h : p.chdir s x = some q) :
    q.uid = p.uid ∧ q.gid = p.gid ∧ q.groups = p.groups ∧ q.root = p.root := by
  unfold Proc.chdir at h
  split at h
  · cases h; exact ⟨rfl, rfl, rfl, rfl⟩
  · cases h

theorem chdirD_ids (s : System) (p : Proc) (x : Path) :
    ((p.chdir s x).getD p).uid = p.uid ∧ ((p.chdir s x).getD p).gid = p.gid ∧
      ((p.chdir s x).getD p).groups = p.groups ∧ ((p.chdir s x).getD p).root = p.root := by
  cases h : p.chdir s x with
  | none => exact ⟨rfl, rfl, rfl, rfl⟩
  | some q => exact chdir_ids h

theorem initDirs_ids (s : System) (c : StartConf) (p : Proc) :
    (initDirs s c p).uid = p.uid ∧ (initDirs s c p).gid = p.gid ∧
      (initDirs s c p).groups = p.groups ∧ (initDirs s c p).root = p.root := by
  unfold initDirs
  split
  · exact ⟨rfl, rfl, rfl, rfl⟩
  · have h1 := chdirD_ids s p ⟨true, []⟩
    simp only
    split
    · exact h1
    · split
      · rename_i h _
        have h2 := chdirD_ids s ((p.chdir s ⟨true, []⟩).getD p) h
        exact ⟨h2.1.trans h1.1, h2.2.1.trans h1.2.1, h2.2.2.1.trans h1.2.2.1, h2.2.2.2.trans h1.2.2.2⟩
      · exact h1

theorem initRoot_ids {s : System} {c : StartConf} {p q : Proc} (h : initRoot s c p = some q) :
    q.uid = p.uid ∧ q.gid = p.gid ∧ q.groups = p.groups := by
  unfold initRoot at h
  split at h
  · cases h; exact ⟨rfl, rfl, rfl⟩
  · rename_i x _
    cases h1 : p.chdir s x with
    | none => simp [h1] at h
    | some p1 =>
      have := chdir_ids h1
      simp only [h1, Option.bind_some] at h
      unfold Proc.chroot at h
      split at h
      · cases h; exact ⟨this.1, this.2.1, this.2.2.1⟩
      · cases h

/-- The groups are changed by one step, and nothing else. -/
theorem initGroup_uid {s : System} {g : Nat} {p q : Proc} (h : initGroup s g p = some q) :
    q.uid = p.uid ∧ q.root = p.root ∧ q.cwd = p.cwd := by
  unfold initGroup at h
  split at h
  · cases h; exact ⟨rfl, rfl, rfl⟩
  · simp only at h
    split at h
    · cases h
    · split at h
      · cases h
      · split at h <;> cases h <;> exact ⟨rfl, rfl, rfl⟩

theorem initUser_rest {s : System} {u : Nat} {p q : Proc} (h : initUser s u p = some q) :
    q.gid = p.gid ∧ q.groups = p.groups ∧ q.root = p.root ∧ q.cwd = p.cwd := by
  unfold initUser at h
  split at h
  · cases h; exact ⟨rfl, rfl, rfl, rfl⟩
  · simp only at h
    split at h
    · cases h
    · cases h; exact ⟨rfl, rfl, rfl, rfl⟩

/-- Which IDs are asked for. -/
theorem initIds_wanted {s : System} {c : StartConf} {u g : Nat} (h : initIds s c = some (u, g)) :
    wantedUser s c = some u ∧ wantedGroup s c = some g ∧ u ≠ 0 := by
  unfold initIds at h
  unfold wantedUser wantedGroup
  split at h
  · rename_i hz
    unfold nobodyId at h
    cases hn : s.nobody with
    | none => simp [hn] at h
    | some x =>
      obtain ⟨a, b⟩ := x
      simp only [hn] at h
      split at h
      · cases h
      · rename_i h0
        cases h
        simp only [hz, if_true, Option.map_some]
        exact ⟨trivial, trivial, fun e => h0 (.inl e)⟩
  · rename_i hz
    cases h
    simp only [hz, if_false]
    exact ⟨trivial, trivial, hz⟩

/-! ## A process of root -/

/-- C96: when the server is started by `root`, and the user the configuration asks for is a valid user of
the system, then the server — if it comes up at all — runs as this user and can never become `root` again.
This holds with and without `ChrootDir`, in the foreground and as a daemon. -/
theorem C96_uid (s : System) (c : StartConf) (p q : Proc) (hp : StartedByRoot p)
    (hv : ∀ u, wantedUser s c = some u → s.validUid u = true) (h : startServer s c p = some q) :
    ∃ u, wantedUser s c = some u ∧ RunsAs q u ∧ NotRoot q := by
  obtain ⟨p1, u, g, p2, p3, h1, h2, h3, h4, _, rfl⟩ := start_some h
  obtain ⟨hw, _, hu⟩ := initIds_wanted h2
  have hv := hv u hw
  have e2 : p2.uid = p.uid := (initGroup_uid h3).1.trans (initRoot_ids h1).1
  have h4' : p3.uid = Ids.all u := by
    unfold initUser at h4
    rw [e2, hp.1, hp.2.1, if_neg (fun e => hu e.symm)] at h4
    unfold setId at h4
    simp only [hv] at h4
    cases hf : s.failUid
    · simp [hf] at h4
      rw [← h4]
    · simp [hf] at h4
  have e := (initDirs_ids s c p3).1
  refine ⟨u, hw, ?_, ?_⟩
  · unfold RunsAs; rw [e, h4']; exact ⟨rfl, rfl, rfl⟩
  · unfold NotRoot; rw [e, h4']; exact ⟨hu, hu, hu⟩

/-- C96, the part about groups: when the configuration asks for a valid group which is not the one the
process already has, then the server — if it comes up — is in this group only.  Without the condition the
claim is false, see `C96_violated_by_group`. -/
theorem C96_gid_partial (s : System) (c : StartConf) (p q : Proc) (hp : StartedByRoot p)
    (hv : ∀ g, wantedGroup s c = some g → s.validGid g = true ∧ g ≠ p.gid.real)
    (h : startServer s c p = some q) :
    ∃ g, wantedGroup s c = some g ∧ RunsInGroup q g := by
  obtain ⟨p1, u, g, p2, p3, h1, h2, h3, h4, _, rfl⟩ := start_some h
  obtain ⟨_, hw, _⟩ := initIds_wanted h2
  obtain ⟨hv, hne⟩ := hv g hw
  have e1 := initRoot_ids h1
  have h3' : p2.gid = Ids.all g ∧ p2.groups = [] := by
    have hz : p1.uid.effective = 0 := by rw [e1.1]; exact hp.2.1
    have hg' : ¬ p1.gid.real = g := by rw [e1.2.1]; exact fun e => hne e.symm
    unfold initGroup at h3
    rw [if_neg hg'] at h3
    unfold setId at h3
    cases hf : s.failGid <;> cases hg : s.failGroups <;> simp [hf, hg, hv, hz] at h3
    rw [← h3]; exact ⟨rfl, rfl⟩
  have e := initDirs_ids s c p3
  have e4 := initUser_rest h4
  refine ⟨g, hw, ?_⟩
  unfold RunsInGroup
  rw [e.2.1, e.2.2.1, e4.1, e4.2.1, h3'.1, h3'.2]
  exact ⟨rfl, rfl, rfl, rfl⟩

/-! ## A process of another user -/

theorem setId_among {valid fail : Bool} {i : Ids} {n : Nat} :
    AmongIds (setId false valid fail i n).1 i := by
  have hr : AmongIds i i := ⟨.inl rfl, .inr (.inl rfl), .inr (.inr rfl)⟩
  unfold setId
  split
  · exact hr
  split
  · exact hr
  split
  · rename_i h; cases h
  split
  · rename_i h
    exact ⟨.inl rfl, h.elim .inl (fun e => .inr (.inr e)), .inr (.inr rfl)⟩
  · exact hr

/-- C96: a server which is not started with the rights of `root` gets no new user or group ID: whatever it
runs as was among the IDs of the process before; so it never becomes `root`. -/
theorem C96_unprivileged (s : System) (c : StartConf) (p q : Proc) (hp : NotRoot p)
    (h : startServer s c p = some q) :
    AmongIds q.uid p.uid ∧ AmongIds q.gid p.gid ∧ q.groups = p.groups ∧ NotRoot q := by
  obtain ⟨p1, u, g, p2, p3, h1, h2, h3, h4, _, rfl⟩ := start_some h
  have hr : ∀ i, AmongIds i i := fun i => ⟨.inl rfl, .inr (.inl rfl), .inr (.inr rfl)⟩
  have e1 := initRoot_ids h1
  have e := initDirs_ids s c p3
  have e4 := initUser_rest h4
  have e3 := initGroup_uid h3
  have g3 : AmongIds p2.gid p.gid ∧ p2.groups = p.groups := by
    unfold initGroup at h3
    split at h3
    · cases h3; rw [e1.2.1, e1.2.2]; exact ⟨hr _, rfl⟩
    · simp only at h3
      split at h3
      · cases h3
      · split at h3
        · cases h3
        · have hz : ¬ p1.uid.effective = 0 := by rw [e1.1]; exact hp.2.1
          rw [if_neg hz] at h3
          cases h3
          simp only [hz, decide_false, e1.2.1, e1.2.2]
          exact ⟨setId_among, trivial⟩
  have u4 : AmongIds p3.uid p.uid := by
    have eu : p2.uid = p.uid := e3.1.trans e1.1
    unfold initUser at h4
    split at h4
    · cases h4; rw [eu]; exact hr _
    · simp only at h4
      split at h4
      · cases h4
      · cases h4
        simp only [eu, decide_eq_false hp.2.1]
        exact setId_among
  refine ⟨by rw [e.1]; exact u4, by rw [e.2.1, e4.1]; exact g3.1, by rw [e.2.2.1, e4.2.1]; exact g3.2, ?_⟩
  unfold NotRoot
  rw [e.1]
  obtain ⟨a, b, d⟩ := u4
  obtain ⟨x, y, z⟩ := hp
  exact ⟨by rcases a with a | a | a <;> rw [a] <;> assumption,
    by rcases b with a | a | a <;> rw [a] <;> assumption,
    by rcases d with a | a | a <;> rw [a] <;> assumption⟩

/-! ## The directories -/

/-- C96: with an absolute `ChrootDir` the server comes up only with this directory as its root directory,
and with its working directory inside: the foreground server in `ChrootDir` itself. -/
theorem C96_chroot (s : System) (c : StartConf) (p q : Proc) (x : Path) (hx : c.chroot = some x)
    (ha : x.absolute = true) (h : startServer s c p = some q) :
    q.root = p.root ++ x.parts ∧ Inside q ∧ p.uid.effective = 0 := by
  obtain ⟨p1, u, g, p2, p3, h1, h2, h3, h4, _, rfl⟩ := start_some h
  have r1 : p1.root = p.root ++ x.parts ∧ p1.cwd = p.root ++ x.parts ∧ p.uid.effective = 0 := by
    unfold initRoot at h1
    simp only [hx] at h1
    unfold Proc.chdir Proc.chroot at h1
    split at h1
    · simp only [Option.bind_some, Proc.place, ha, if_true] at h1
      split at h1
      · rename_i hh
        cases h1
        exact ⟨rfl, rfl, hh.1⟩
      · cases h1
    · cases h1
  have e3 := initGroup_uid h3
  have e4 := initUser_rest h4
  have e := initDirs_ids s c p3
  have rr : p3.root = p.root ++ x.parts := by rw [e4.2.2.1, e3.2.1, r1.1]
  have rc : p3.cwd = p.root ++ x.parts := by rw [e4.2.2.2, e3.2.2, r1.2.1]
  refine ⟨by rw [e.2.2.2, rr], ?_, r1.2.2⟩
  unfold Inside
  rw [e.2.2.2]
  refine ⟨[], ?_⟩
  unfold initDirs
  split
  · rw [rr, rc, List.append_nil]
  · simp only [hx, Option.isSome_some, if_true]
    unfold Proc.chdir
    split
    · simp [Proc.place]
    · rw [Option.getD_none, rr, rc, List.append_nil]

/-- C96: a `ChrootDir` which is relative is safe as a daemon as long as "/" can be entered. -/
theorem C96_chroot_daemon (s : System) (c : StartConf) (p q : Proc) (hx : c.chroot.isSome = true)
    (hn : c.noDaemon = false) (hd : ∀ d, s.dir d = true) (h : startServer s c p = some q) :
    q.cwd = q.root := by
  obtain ⟨p1, u, g, p2, p3, h1, h2, h3, h4, _, rfl⟩ := start_some h
  unfold initDirs
  simp [hn, hx, Proc.chdir, hd, Proc.place]

/-! ## Concrete cases -/

/-- A system with the users 0, 99 (nobody) and 100, and the groups 0, 98 and 100. -/
def Sample.system : System where
  validUid := fun u => u == 0 || u == 99 || u == 100
  validGid := fun u => u == 0 || u == 98 || u == 100
  nobody := some (99, 98)
  ssl := true
  dir := fun _ => true
  home := fun u => if u = 100 then some ⟨true, ["home".toList]⟩ else none
  failUid := false
  failGid := false
  failGroups := false
  failFork := false

/-- A process of `root`, with supplementary groups. -/
def Sample.rootProc : Proc := ⟨Ids.all 0, Ids.all 0, [0, 4, 27], [], ["root".toList]⟩

/-- Starts of this process. -/
theorem Sample.start_facts :
    startServer Sample.system ⟨0, 0, none, false⟩ Sample.rootProc
      = some ⟨Ids.all 99, Ids.all 98, [], [], []⟩ ∧
    startServer Sample.system ⟨100, 100, some ⟨true, ["jail".toList]⟩, true⟩ Sample.rootProc
      = some ⟨Ids.all 100, Ids.all 100, [], ["jail".toList], ["jail".toList]⟩ ∧
    startServer Sample.system ⟨100, 100, none, false⟩ Sample.rootProc
      = some ⟨Ids.all 100, Ids.all 100, [], [], ["home".toList]⟩ ∧
    startServer Sample.system ⟨100, 100, none, true⟩ ⟨⟨7, 8, 100⟩, ⟨7, 8, 9⟩, [7], [], []⟩
      = some ⟨⟨7, 100, 100⟩, ⟨7, 8, 9⟩, [7], [], []⟩ ∧
    startServer Sample.system ⟨100, 100, some ⟨true, ["jail".toList]⟩, true⟩ ⟨Ids.all 7, Ids.all 7, [], [], []⟩
      = none ∧
    startServer Sample.system ⟨100, 100, some ⟨false, ["jail".toList]⟩, false⟩ Sample.rootProc
      = some ⟨Ids.all 100, Ids.all 100, [], ["root".toList, "jail".toList, "jail".toList],
          ["root".toList, "jail".toList, "jail".toList]⟩ := by
  decide

/-- C96_uid and C96_gid_partial meet: started by root, nothing configured: the server runs as "nobody". -/
example : ∃ u, wantedUser Sample.system ⟨0, 0, none, false⟩ = some u ∧
    RunsAs ⟨Ids.all 99, Ids.all 98, [], [], []⟩ u ∧ NotRoot ⟨Ids.all 99, Ids.all 98, [], [], []⟩ :=
  C96_uid Sample.system _ Sample.rootProc _ (by decide) (by intro u h; cases h; rfl) Sample.start_facts.1

example : ∃ g, wantedGroup Sample.system ⟨0, 0, none, false⟩ = some g ∧
    RunsInGroup ⟨Ids.all 99, Ids.all 98, [], [], []⟩ g :=
  C96_gid_partial Sample.system _ Sample.rootProc _ (by decide)
    (by intro u h; cases h; exact ⟨rfl, by decide⟩) Sample.start_facts.1

/-- C96_chroot and C96_unprivileged. -/
example : Inside ⟨Ids.all 100, Ids.all 100, [], ["jail".toList], ["jail".toList]⟩ :=
  (C96_chroot Sample.system _ Sample.rootProc _ _ rfl rfl Sample.start_facts.2.1).2.1

example : NotRoot ⟨⟨7, 100, 100⟩, ⟨7, 8, 9⟩, [7], [], []⟩ :=
  (C96_unprivileged Sample.system _ _ _ (by decide) Sample.start_facts.2.2.2.1).2.2.2

example : ["root".toList, "jail".toList, "jail".toList] = ["root".toList, "jail".toList, "jail".toList] :=
  C96_chroot_daemon Sample.system ⟨100, 100, some ⟨false, ["jail".toList]⟩, false⟩ Sample.rootProc _
    rfl rfl (fun _ => rfl) Sample.start_facts.2.2.2.2.2

/-! ## Where the claim fails -/

/-- C96 does not hold for groups: started by `root` with `ServerUID` but without `ServerGID`, the server
drops the user ID but keeps the group `root` and all supplementary groups of `root`. -/
theorem C96_violated_by_group :
    ∃ (s : System) (c : StartConf) (p q : Proc), StartedByRoot p ∧ c.uid ≠ 0 ∧ s.validUid c.uid = true ∧
      startServer s c p = some q ∧ q.gid = Ids.all 0 ∧ q.groups = p.groups ∧ q.groups = [0, 4, 27] :=
  ⟨Sample.system, ⟨100, 0, none, true⟩, Sample.rootProc, ⟨Ids.all 100, Ids.all 0, [0, 4, 27], [], ["root".toList]⟩,
    by decide⟩

/-- C96: a `ServerUID` which is not valid (not mapped in the user namespace) is tolerated: the server goes
on as `root`. -/
theorem C96_violated_by_namespace :
    ∃ (s : System) (c : StartConf) (p q : Proc), StartedByRoot p ∧ c.uid ≠ 0 ∧
      startServer s c p = some q ∧ q.uid = Ids.all 0 :=
  ⟨Sample.system, ⟨5000, 100, none, true⟩, Sample.rootProc, ⟨Ids.all 0, Ids.all 100, [], [], ["root".toList]⟩,
    by decide⟩

/-- C96: only the real user ID is compared: started set-user-ID `root` by the very user `ServerUID`, the
server keeps the effective user ID of `root`. -/
theorem C96_violated_by_setuid_file :
    ∃ (s : System) (c : StartConf) (p q : Proc), p.uid = ⟨100, 0, 0⟩ ∧ c.uid = 100 ∧ s.validUid c.uid = true ∧
      startServer s c p = some q ∧ q.uid.effective = 0 :=
  ⟨Sample.system, ⟨100, 100, none, true⟩, ⟨⟨100, 0, 0⟩, Ids.all 100, [], [], []⟩,
    ⟨⟨100, 0, 0⟩, Ids.all 100, [], [], []⟩, by decide⟩

/-- C96: a relative `ChrootDir` is followed twice, by `chdir()` and then by `chroot()`: in the foreground
the server runs with its working directory outside of its root directory. -/
theorem C96_violated_by_relative_chroot :
    ∃ (s : System) (c : StartConf) (p q : Proc), StartedByRoot p ∧ c.chroot.isSome = true ∧
      startServer s c p = some q ∧ ¬ Inside q := by
  refine ⟨Sample.system, ⟨100, 100, some ⟨false, ["jail".toList]⟩, true⟩, Sample.rootProc,
    ⟨Ids.all 100, Ids.all 100, [], ["root".toList, "jail".toList, "jail".toList], ["root".toList, "jail".toList]⟩,
    by decide, by decide, by decide, ?_⟩
  rintro ⟨r, hr⟩
  have := congrArg List.length hr
  simp at this

end Ngircd
