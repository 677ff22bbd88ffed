import Verif.Lemmas.Output
import Verif.Props.Lists
import Verif.Spec.Sample

/-!
# C11: commands run only for the connection types they allow
-/

namespace Ngircd
open Spec

/-- The commands an unregistered connection can run. -/
def Spec.unregisteredCommands : List String :=
  ["CAP", "ERROR", "NICK", "NOTICE", "PASS", "PONG", "QUIT", "SERVER", "SERVICE", "USER",
   "WEBIRC", "GET", "POST"]

/-- The commands that are for server links only. -/
def Spec.serverCommands : List String := ["CHANINFO", "METADATA", "NJOIN", "SVSNICK"]

/-- The commands server links cannot use: for users only. -/
def Spec.userCommands : List String :=
  ["AWAY", "DIE", "DISCONNECT", "HELP", "ISON", "OPER", "REHASH", "RESTART", "USERHOST", "WHO"]

theorem findCommand_mem {n : Str} {c : Command} (h : findCommand n = some c) :
    c ∈ myCommands ∧ SameCase n c.name.toList :=
  ⟨List.mem_of_find?_eq_some h, (caseEq_same _ _).1 (by simpa using List.find?_some h)⟩

theorem table_forall {P : String → CmdTypes → Prop} [∀ n t, Decidable (P n t)]
    (h : (myCommands.map (fun c => (c.name, c.types))).all (fun p => decide (P p.1 p.2)) = true) :
    ∀ c ∈ myCommands, P c.name c.types := by
  intro c hc
  have := List.all_eq_true.1 h (c.name, c.types) (List.mem_map.2 ⟨c, hc, rfl⟩)
  simpa using this

theorem table_unregistered :
    ∀ c ∈ myCommands, c.types = .any ∨ c.types = .unknown → c.name ∈ unregisteredCommands :=
  table_forall (P := fun n t => t = .any ∨ t = .unknown → n ∈ unregisteredCommands)
    (by decide +kernel)

theorem table_server : ∀ c ∈ myCommands, c.name ∈ serverCommands → c.types = .server :=
  table_forall (P := fun n t => n ∈ serverCommands → t = .server) (by decide +kernel)

theorem table_user : ∀ c ∈ myCommands, c.name ∈ userCommands → c.types = .user :=
  table_forall (P := fun n t => n ∈ userCommands → t = .user) (by decide +kernel)

/-- **C11** (the general rule).  A request naming a command of the table is handed to its
handler only if the type of the connection is allowed and the number of arguments is within
the bounds; otherwise nothing happens except that an error is sent. -/
theorem C11_guarded (s : Srv) (cl : Nat) (req : Request) (cmd : Command) :
    runCommand s cl req cmd = cmd.run s cl req ∧ cmd.types.allows (s.cl cl).type = true ∧
        cmd.min ≤ req.argv.length ∧ (∀ m, cmd.max = some m → req.argv.length ≤ m) ∨
      OnlyOutput s (runCommand s cl req cmd).1 ∧ (runCommand s cl req cmd).2 = true := by
  have hw : ∀ r : HRes, (∃ m, r = (writeErr s (s.cl cl) m, true)) →
      OnlyOutput s r.1 ∧ r.2 = true := by
    rintro r ⟨m, rfl⟩; exact ⟨oo_writeErr _ _ _, rfl⟩
  generalize hr : runCommand s cl req cmd = r
  simp only [runCommand] at hr
  split at hr
  · right
    split at hr
    · exact hw _ ⟨_, hr.symm⟩
    · exact hw _ ⟨_, hr.symm⟩
  · rename_i h
    split at hr
    · right
      exact hw _ ⟨_, hr.symm⟩
    · rename_i ha
      left
      simp only [Bool.not_eq_true', Bool.not_eq_false] at h ha
      simp only [Command.argcOk, Request.argc, Bool.and_eq_true] at ha
      refine ⟨hr.symm, h, of_decide_eq_true ha.1, ?_⟩
      intro m hm
      have := ha.2
      rw [hm] at this
      exact of_decide_eq_true this

/-- **C11** (unregistered connections).  A connection that is neither a registered user nor
a server link (nor a link being set up, whose status codes are evaluated) changes nothing by
any command other than the thirteen listed: whatever else it sends, the state stays as it is
and the connection stays open. -/
theorem C11_unregistered (s : Srv) (cl : Nat) (req : Request)
    (hu : (s.cl cl).type ≠ .user) (hs : (s.cl cl).type ≠ .server)
    (hn : (s.cl cl).type ≠ .unknownServer)
    (hc : ∀ n ∈ unregisteredCommands, ¬ SameCase req.command n.toList) :
    OnlyOutput s (handleRequest s cl req).1 ∧ (handleRequest s cl req).2 = true := by
  unfold handleRequest
  simp only [hs, hn, decide_false, Bool.or_self, Bool.false_and, Bool.false_eq_true, if_false]
  cases hf : findCommand req.command with
  | none =>
    simp only
    split
    · exact ⟨.refl s, rfl⟩
    · exact ⟨oo_writeErr _ _ _, rfl⟩
  | some cmd =>
    obtain ⟨hm, hsc⟩ := findCommand_mem hf
    simp only
    rcases C11_guarded s cl req cmd with ⟨_, ha, _⟩ | h
    · exfalso
      have : cmd.types = .any ∨ cmd.types = .unknown := by
        cases ht : cmd.types <;> simp_all [CmdTypes.allows]
      exact hc _ (table_unregistered cmd hm this) hsc
    · exact h

/-- **C11** (users).  A user cannot run the commands of the server protocol. -/
theorem C11_user (s : Srv) (cl : Nat) (req : Request) (hu : (s.cl cl).type = .user)
    (n : String) (hn : n ∈ serverCommands) (hc : SameCase req.command n.toList) :
    OnlyOutput s (handleRequest s cl req).1 ∧ (handleRequest s cl req).2 = true := by
  unfold handleRequest
  simp only [hu, reduceCtorEq, decide_false, Bool.or_self, Bool.false_and, Bool.false_eq_true,
    if_false]
  cases hf : findCommand req.command with
  | none =>
    simp only [isRegistered]
    exact ⟨oo_writeErr _ _ _, rfl⟩
  | some cmd =>
    obtain ⟨hm, hsc⟩ := findCommand_mem hf
    simp only
    rcases C11_guarded s cl req cmd with ⟨_, ha, _⟩ | h
    · exfalso
      have hcs : caseEq n.toList cmd.name.toList = true := by
        have h1 := (caseEq_same _ _).2 hsc
        have h2 := (caseEq_same _ _).2 hc
        rw [← caseEq_eq_of h2]; exact h1
      have hall := table_forall (P := fun m t => ∀ n ∈ serverCommands,
        caseEq n.toList m.toList = true → t = .server) (by decide +kernel) cmd hm n hn hcs
      rw [hall, hu] at ha
      exact absurd ha (by decide)
    · exact h

/-- **C11** (server links).  A server link cannot run the commands that are for users only. -/
theorem C11_server (s : Srv) (cl : Nat) (req : Request) (hu : (s.cl cl).type = .server)
    (hl : req.command.length ≠ 3 ∨ atoi req.command ≤ 1)
    (n : String) (hn : n ∈ userCommands) (hc : SameCase req.command n.toList) :
    OnlyOutput s (handleRequest s cl req).1 ∧ (handleRequest s cl req).2 = true := by
  unfold handleRequest
  have hnum : ¬ ((((s.cl cl).type = .server || (s.cl cl).type = .unknownServer) &&
      req.command.length = 3 && decide (atoi req.command > 1)) = true) := by
    intro h
    simp only [Bool.and_eq_true, decide_eq_true_eq] at h
    rcases hl with h' | h'
    · exact h' h.1.2
    · omega
  rw [if_neg hnum]
  cases hf : findCommand req.command with
  | none =>
    simp only [isRegistered, hu]
    exact ⟨.refl s, rfl⟩
  | some cmd =>
    obtain ⟨hm, hsc⟩ := findCommand_mem hf
    simp only
    rcases C11_guarded s cl req cmd with ⟨_, ha, _⟩ | h
    · exfalso
      have hcs : caseEq n.toList cmd.name.toList = true := by
        have h1 := (caseEq_same _ _).2 hsc
        have h2 := (caseEq_same _ _).2 hc
        rw [← caseEq_eq_of h2]; exact h1
      have hall := table_forall (P := fun m t => ∀ n ∈ userCommands,
        caseEq n.toList m.toList = true → t = .user) (by decide +kernel) cmd hm n hn hcs
      rw [hall, hu] at ha
      exact absurd ha (by decide)
    · exact h

/-- The hypotheses are met by a connection just accepted that tries to join a channel. -/
example : (Sample.s1.cl 3).type = .unknown ∧
    (∀ n ∈ unregisteredCommands, ¬ SameCase "JOIN".toList n.toList) ∧
    OnlyOutput Sample.s1 (handleRequest Sample.s1 3 ⟨none, "JOIN".toList, ["#c".toList]⟩).1 := by
  have h1 : (Sample.s1.cl 3).type = .unknown := by decide +kernel
  have h2 : ∀ n ∈ unregisteredCommands, ¬ SameCase "JOIN".toList n.toList := by decide +kernel
  exact ⟨h1, h2, (C11_unregistered Sample.s1 3 ⟨none, "JOIN".toList, ["#c".toList]⟩
    (by rw [h1]; decide) (by rw [h1]; decide) (by rw [h1]; decide) h2).1⟩

/-- For a registered user the same command does something. -/
example : ¬ OnlyOutput Sample.s3 (handleRequest Sample.s3 3 ⟨none, "JOIN".toList, ["#c".toList]⟩).1 := by
  intro h
  have := h.cl2
  exact absurd this (by decide +kernel)

/-- A user sending a command of the server protocol. -/
example : (Sample.s3.cl 3).type = .user ∧ "NJOIN" ∈ serverCommands ∧
    SameCase "njoin".toList "NJOIN".toList := by decide +kernel

/-- A server link sending OPER. -/
example : (Sample.s5.cl 6).type = .server ∧ "OPER" ∈ userCommands ∧
    SameCase "OPER".toList "OPER".toList ∧ "OPER".toList.length ≠ 3 := by decide +kernel

end Ngircd
