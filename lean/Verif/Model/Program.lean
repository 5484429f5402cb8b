import Verif.Model.Config
import Verif.Model.Process

/-!
# src/main.rs: one start of the program, from the command line to the exit status

Here the lock is a yes or no from outside; for several processes at once see `Verif/Model/Main.lean`.
Options that cannot be parsed at all (external crate `structopt`) and logging are left out.
-/

namespace KSync

variable [Ext]

/-- `LockFile::open` (external crate `fslock`): opens the file for writing, creates it if it is missing,
leaves its content.  Simplification: there is never a link in this place. -/
def openLock (p : Path) : M Unit := do
  let n ← io
  let fs ← getFs
  if p = [] ∨ fs.get p.dropLast ≠ some .dir then M.throw .io
  else match fs.get p with
    | some (.file _ _) => pure ()
    | some _ => M.throw .io
    | none => do
      let env ← askEnv
      push (fs.set p (.file [] (env.clock n)))

/-- The state directory is created if it does not exist (src/main.rs:28-39). -/
def makeStateDir (c : Config) : M Unit := do
  let fs ← getFs
  if fs.exists? c.stateDir then pure () else createDirAll c.stateDir

/-- `lock` (src/main.rs:27-56).  `taken`: another process holds the lock. -/
def takeLock (c : Config) (taken : Bool) : M Unit := do
  makeStateDir c
  openLock c.lockFile
  let _ ← io
  if taken then M.throw .locked else pure ()

/-- What the outside world decides about one start: up to the lock, and from then on (each part counts its
own ticks). -/
structure Start where
  setUp : Env
  taken : Bool
  work : Env

/-- How a start ended: the exit status, the disk at the end, and the disk at every instant. -/
structure Outcome where
  status : Nat
  disk : FS
  instants : List FS

/-- The exit status: 1 for an error (src/main.rs:11-14); 101 is what the Rust runtime uses for a panic and
134 what a shell reports for a stack overflow. -/
def exitStatus : Except Err Unit → Nat
  | .ok _ => 0
  | .error .panic => 101
  | .error .overflow => 134
  | .error _ => 1

/-- `main`, `configure_and_try_main`, `try_main` (src/main.rs:10-25), `configure` (src/config.rs:212-215). -/
def krillSync (depth : Nat) (r : RawConfig) (s : Start) (fs : FS) : Outcome :=
  match (postConfigure r s.setUp (World.start fs)).1 with
  | .error e => ⟨exitStatus (.error e), fs, [fs]⟩
  | .ok c =>
    match takeLock c s.taken s.setUp (World.start fs) with
    | (.error e, w) => ⟨exitStatus (.error e), w.cur, w.crashPoints⟩
    | (.ok _, w) =>
      match process depth c s.work (World.start w.cur) with
      | (res, w') => ⟨exitStatus res, w'.cur, w'.crashPoints ++ w.crashPoints⟩

end KSync
