import Verif.Model.Str

/-!
# Model of the start of the daemon: `NGIRCd_Init` in src/ngircd/ngircd.c

The process is modelled with its user and group IDs and its directories; the system calls behave as on
Linux: `setuid()` and `setgid()` of a process with effective user ID 0 change all three IDs, those of
others only the effective one, to one of the other two.  `setgroups()` needs the effective user ID 0.
An ID can be invalid (not mapped in the user namespace).  Failures for other reasons, the user database,
and whether directories exist, are parameters.  Not modelled: SSL, the PID file, the log messages.
-/

namespace Ngircd

/-- A path: its components, and whether it begins at the root directory. -/
structure Path where
  absolute : Bool
  parts : List Str
  deriving DecidableEq, Repr

/-- The three IDs of a process. -/
structure Ids where
  real : Nat
  effective : Nat
  saved : Nat
  deriving DecidableEq, Repr

/-- All three IDs the same. -/
def Ids.all (n : Nat) : Ids := ⟨n, n, n⟩

/-- A process: its IDs, and the real places of its root and working directories. -/
structure Proc where
  uid : Ids
  gid : Ids
  groups : List Nat
  root : List Str
  cwd : List Str
  deriving DecidableEq, Repr

/-- The configuration of the start, conf.h: `Conf_UID`, `Conf_GID`, `Conf_Chroot` (`none`: empty), and
whether the server runs in the foreground. -/
structure StartConf where
  uid : Nat
  gid : Nat
  chroot : Option Path
  noDaemon : Bool
  deriving DecidableEq, Repr

/-- The system. -/
structure System where
  /-- the IDs that are valid -/
  validUid : Nat → Bool
  validGid : Nat → Bool
  /-- user and group ID of "nobody" -/
  nobody : Option (Nat × Nat)
  /-- whether the library for SSL can be initialised -/
  ssl : Bool
  /-- whether `chdir()` to a place succeeds, and `chroot()` -/
  dir : List Str → Bool
  /-- the home directory of a user -/
  home : Nat → Option Path
  /-- failures of `setuid()`, `setgid()`, `setgroups()` and `fork()` for other reasons -/
  failUid : Bool
  failGid : Bool
  failGroups : Bool
  failFork : Bool

/-- What a system call reports. -/
inductive Errno
  | ok
  | eperm
  | einval
  | other
  deriving DecidableEq, Repr

/-- `setuid()` on Linux, and `setgid()`: `priv` tells whether the process is privileged. -/
def setId (priv valid fail : Bool) (i : Ids) (n : Nat) : Ids × Errno :=
  if !valid then (i, .einval)
  else if fail then (i, .other)
  else if priv then (Ids.all n, .ok)
  else if n = i.real ∨ n = i.saved then ({ i with effective := n }, .ok)
  else (i, .eperm)

/-- The place a path means to a process. -/
def Proc.place (p : Proc) (x : Path) : List Str := if x.absolute then p.root ++ x.parts else p.cwd ++ x.parts

/-- `chdir()`. -/
def Proc.chdir (s : System) (p : Proc) (x : Path) : Option Proc :=
  if s.dir (p.place x) then some { p with cwd := p.place x } else none

/-- `chroot()`. -/
def Proc.chroot (s : System) (p : Proc) (x : Path) : Option Proc :=
  if p.uid.effective = 0 ∧ s.dir (p.place x) then some { p with root := p.place x } else none

/-- `NGIRCd_getNobodyID`, ngircd.c:573-603. -/
def nobodyId (s : System) : Option (Nat × Nat) :=
  match s.nobody with
  | none => none
  | some (u, g) => if u = 0 ∨ g = 0 then none else some (u, g)

/-- "Change root", ngircd.c:681-701. -/
def initRoot (s : System) (c : StartConf) (p : Proc) : Option Proc :=
  match c.chroot with
  | none => some p
  | some x => (p.chdir s x).bind (fun p => p.chroot s x)

/-- "Check user ID", ngircd.c:704-715: the IDs to use. -/
def initIds (s : System) (c : StartConf) : Option (Nat × Nat) := if c.uid = 0 then nobodyId s else some (c.uid, c.gid)

/-- "Change group ID", ngircd.c:718-740. -/
def initGroup (s : System) (g : Nat) (p : Proc) : Option Proc :=
  if p.gid.real = g then some p
  else
    let r := setId (p.uid.effective = 0) (s.validGid g) s.failGid p.gid g
    if r.2 = .other then none
    else
      let p := { p with gid := r.1 }
      if s.failGroups then none
      else some (if p.uid.effective = 0 then { p with groups := [] } else p)

/-- "Change user ID", ngircd.c:744-755. -/
def initUser (s : System) (u : Nat) (p : Proc) : Option Proc :=
  if p.uid.real = u then some p
  else
    let r := setId (p.uid.effective = 0) (s.validUid u) s.failUid p.uid u
    if r.2 = .other then none else some { p with uid := r.1 }

/-- The directories of the daemon, ngircd.c:762-832: failures only leave the process where it is. -/
def initDirs (s : System) (c : StartConf) (p : Proc) : Proc :=
  if c.noDaemon then p
  else
    let p := (p.chdir s ⟨true, []⟩).getD p
    if c.chroot.isSome then p
    else match s.home p.uid.real with
      | some h => (p.chdir s h).getD p
      | none => p

/-- `NGIRCd_Init`, ngircd.c:654-836: the process that goes on (`none`: the server exits). -/
def startServer (s : System) (c : StartConf) (p : Proc) : Option Proc :=
  if !s.ssl then none
  else (initRoot s c p).bind (fun p =>
    (initIds s c).bind (fun (u, g) =>
      (initGroup s g p).bind (fun p =>
        (initUser s u p).bind (fun p =>
          if !c.noDaemon && s.failFork then none else some (initDirs s c p)))))

end Ngircd
