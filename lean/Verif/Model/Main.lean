import Verif.Model.Process

/-!
# src/main.rs: several processes and the lock

Any number of processes, numbered by natural numbers, use one file system.  `Step` is what one of them
can do at an instant, in any interleaving.  What a process does after it has got the lock is a program in
small steps (`Work`), each of which reads and changes the file system.  The lock is that of the external
crate `fslock` (`flock` on an open file): it has at most one holder and is given up when the holder ends,
in whatever way.  Simplification: the lock belongs to the path of the lock file; this is right as long as
nobody removes the file (for `process` see `C33_lock_file_stays`).
-/

namespace KSync

/-- A program in small steps: `act next cont` changes the file system by `next` and goes on with
`cont`, both depending on the file system it finds. -/
inductive Work where
  | done
  | act (next : FS → FS) (cont : FS → Work)

/-- Where a process is in `try_main` (src/main.rs:21-55). -/
inductive Phase where
  /-- before or in `create_dir_all` (main.rs:28-40) -/
  | start
  /-- the state directory exists; before `LockFile::open` (main.rs:42-44) -/
  | made
  /-- before `try_lock` (main.rs:46-48) -/
  | opened
  /-- in `process` (main.rs:24), with what is left to do -/
  | working (w : Work)
  /-- `process` is over and the lock is released (main.rs:22) -/
  | finished
  /-- somebody else held the lock (main.rs:49-52) -/
  | refused
  /-- failed, or killed -/
  | stopped

/-- The file system, the holder of the lock, and the processes. -/
structure Sys where
  fs : FS
  holder : Option Nat
  phase : Nat → Phase

/-- Process `i` goes to phase `p`. -/
def Sys.goes (s : Sys) (i : Nat) (p : Phase) : Sys :=
  { s with phase := fun j => if j = i then p else s.phase j }

/-- The lock after process `i` has ended. -/
def Sys.released (s : Sys) (i : Nat) : Option Nat := if s.holder = some i then none else s.holder

/-- One step of process `i`; `prog i` is what it does when it has the lock. -/
inductive Step (c : Config) (prog : Nat → Work) (i : Nat) : Sys → Sys → Prop
  /-- `create_dir_all` makes one missing directory (main.rs:28-40) -/
  | mkdir {s : Sys} {p : Path} : s.phase i = .start → s.fs.exists? c.stateDir = false →
      p <+: c.stateDir → s.fs.get p = none → s.fs.get p.dropLast = some .dir →
      Step c prog i s { s with fs := s.fs.set p .dir }
  /-- the state directory is there (main.rs:28) -/
  | made {s : Sys} : s.phase i = .start → s.fs.exists? c.stateDir = true →
      Step c prog i s (s.goes i .made)
  /-- `LockFile::open` creates the file (main.rs:43) -/
  | create {s : Sys} {t : Time} : s.phase i = .made → s.fs.get c.stateDir = some .dir →
      s.fs.get c.lockFile = none →
      Step c prog i s ({ s with fs := s.fs.set c.lockFile (.file [] t) }.goes i .opened)
  /-- `LockFile::open` finds the file (main.rs:43) -/
  | open {s : Sys} {b : Bytes} {t : Time} : s.phase i = .made → s.fs.get c.stateDir = some .dir →
      s.fs.get c.lockFile = some (.file b t) → Step c prog i s (s.goes i .opened)
  /-- `try_lock` succeeds (main.rs:46) -/
  | lock {s : Sys} : s.phase i = .opened → s.holder = none →
      Step c prog i s ({ s with holder := some i }.goes i (.working (prog i)))
  /-- `try_lock` reports that the lock is taken (main.rs:46-52) -/
  | refuse {s : Sys} {j : Nat} : s.phase i = .opened → s.holder = some j →
      Step c prog i s (s.goes i .refused)
  /-- one step of `process` (main.rs:24) -/
  | work {s : Sys} {next : FS → FS} {cont : FS → Work} : s.phase i = .working (.act next cont) →
      Step c prog i s ({ s with fs := next s.fs }.goes i (.working (cont s.fs)))
  /-- `process` is over (main.rs:24-25) -/
  | finish {s : Sys} : s.phase i = .working .done →
      Step c prog i s ({ s with holder := s.released i }.goes i .finished)
  /-- an error or a crash, at any time -/
  | stop {s : Sys} : Step c prog i s ({ s with holder := s.released i }.goes i .stopped)

/-- What any number of processes can bring about, starting with `f0`. -/
inductive Exec (c : Config) (prog : Nat → Work) (f0 : FS) : Sys → Prop
  | init : Exec c prog f0 ⟨f0, none, fun _ => .start⟩
  | step {s s' : Sys} {i : Nat} : Exec c prog f0 s → Step c prog i s s' → Exec c prog f0 s'

end KSync
