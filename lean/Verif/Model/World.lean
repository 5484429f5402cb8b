import Verif.Model.FS

/-!
# The runtime: effects, failures, crash points

krill-sync is a sequential program that reads the clock, talks HTTP, runs scripts and
changes the file system.  Each such interaction is one *tick*.  What the outside world
answers at a tick is given by an `Env` of arbitrary functions of the tick number, so a
statement `∀ env` ranges over all responses, all I/O failures and all clock readings.

The file system after *every* single change is recorded (`World.past`), so that a crash
(power loss, SIGKILL) at any point leaves exactly one of the recorded file systems
behind.  Assumption (trusted base): changes reach the disk in program order.
-/

namespace KSync

/-- Reasons for `anyhow::Error`.  Only the distinction between `Ok` and `Err` (exit
status 1, src/main.rs:11-14) is observable; the tags make statements readable. -/
inductive Err where
  | io                -- the operating system reported an error
  | noParent          -- URI has no parent (config.rs:260, rrdp.rs:310, 602, 652)
  | badSource         -- src/config.rs:281
  | http              -- src/fetch.rs:123, 132, 138, 144
  | hashMismatch      -- src/fetch.rs:166
  | unmapped          -- src/fetch.rs:255, src/rrdp.rs:664
  | parse             -- XML or JSON could not be parsed
  | noData            -- src/fetch.rs:36, 55
  | gaps              -- src/rrdp.rs:107
  | serialBefore      -- src/rrdp.rs:133
  | invalid           -- src/rrdp.rs:226
  | notSeen           -- src/rrdp.rs:236
  | scripts           -- src/process.rs:96
  | noSnapshot        -- src/rrdp.rs:460
  | missing           -- src/file_ops.rs:52
  | repo              -- validator.rs:641
  | delta             -- validator.rs:667-733
  | tal               -- tal.rs:38, 49, 70, 76, 79, validator.rs:100
  | locked            -- src/main.rs:49
  | panic             -- a Rust panic in an external function
  | overflow          -- the recursion at validator.rs:458 exhausts the stack
deriving DecidableEq, Repr

/-- An HTTP GET as sent at src/fetch.rs:108-123. -/
structure Req where
  uri : Str
  /-- `danger_accept_invalid_certs` / `_hostnames` -/
  insecure : Bool
  /-- `If-None-Match` -/
  etag : Option Str
deriving DecidableEq, Repr

/-- The `ETag` response header: absent, readable, or not valid text (fetch.rs:127-135). -/
inductive EtagHdr where
  | absent
  | valid (s : Str)
  | invalid
deriving DecidableEq, Repr

/-- Outcome of a GET (fetch.rs:121-149). -/
inductive HttpResp where
  | fail
  | ok (etag : EtagHdr) (body : Option Bytes)
  | notModified
  | other (code : Nat)
deriving DecidableEq, Repr

/-- Everything the outside world decides. -/
structure Env where
  /-- does the system call at this tick fail? -/
  fault : Nat → Bool
  /-- if a write at this tick fails, how many bytes were written before -/
  torn : Nat → Nat
  /-- wall clock in seconds -/
  clock : Nat → Time
  /-- order in which `remove_dir_all` visits entries (highest first) -/
  prio : Nat → Path → Nat
  http : Nat → Req → HttpResp
  /-- pre-validation script: `none` cannot be started, else success? -/
  script : Nat → Path → Option Bool

structure World where
  /-- the file system now -/
  cur : FS
  /-- every earlier file system of this run, newest first -/
  past : List FS
  /-- number of interactions so far -/
  tick : Nat
  /-- HTTP requests sent, newest first -/
  reqs : List Req
  /-- scripts executed, newest first -/
  ran : List Path
  /-- targets of `std::fs::copy` calls, newest first -/
  copied : List Path
  /-- waiting times in seconds, each with the crash points up to then, newest first -/
  slept : List (Nat × List FS)

/-- Every file system a crash during the run can leave behind. -/
def World.crashPoints (w : World) : List FS := w.cur :: w.past

/-- State of a freshly started process. -/
def World.start (fs : FS) : World := ⟨fs, [], 0, [], [], [], []⟩

/-- Effectful computations returning `anyhow::Result`. -/
structure M (α : Type) where
  run : Env → World → Except Err α × World

instance : CoeFun (M α) (fun _ => Env → World → Except Err α × World) := ⟨M.run⟩

namespace M

def pure (a : α) : M α := ⟨fun _ w => (.ok a, w)⟩

def bind (m : M α) (f : α → M β) : M β := ⟨fun env w =>
  match m env w with
  | (.ok a, w') => f a env w'
  | (.error e, w') => (.error e, w')⟩

instance : Monad M where
  pure := M.pure
  bind := M.bind

/-- `return Err(..)` -/
def throw (e : Err) : M α := ⟨fun _ w => (.error e, w)⟩

/-- Turn an error into a value, as in `if let Ok(..)`, `.is_err()`, `let _ = ..`. -/
def attempt (m : M α) : M (Except Err α) := ⟨fun env w =>
  match m env w with
  | (r, w') => (.ok r, w')⟩

/-- `Option::ok_or` followed by `?`. -/
def orThrow (e : Err) : Option α → M α
  | some a => M.pure a
  | none => throw e

/-- Lift a pure `Result` with `?`. -/
def lift : Except Err α → M α
  | .ok a => M.pure a
  | .error e => throw e

/-- Run an action for each element, stopping at the first error (`for .. { ..?; }`). -/
def forEach : List α → (α → M Unit) → M Unit
  | [], _ => M.pure ()
  | a :: as, f => M.bind (f a) (fun _ => forEach as f)

end M

/-! ## Primitive interactions -/

/-- The current file system (reading metadata; not a tick of its own). -/
def getFs : M FS := ⟨fun _ w => (.ok w.cur, w)⟩

/-- Access to what the outside world answers. -/
def askEnv : M Env := ⟨fun env w => (.ok env, w)⟩

/-- Record an HTTP request, a script run, a copy. -/
def logReq (r : Req) : M Unit := ⟨fun _ w => (.ok (), { w with reqs := r :: w.reqs })⟩
def logRan (p : Path) : M Unit := ⟨fun _ w => (.ok (), { w with ran := p :: w.ran })⟩
def logCopy (p : Path) : M Unit := ⟨fun _ w => (.ok (), { w with copied := p :: w.copied })⟩

/-- `std::thread::sleep`: time passes, nothing else happens. -/
def sleep (seconds : Nat) : M Unit := ⟨fun _ w =>
  (.ok (), { w with tick := w.tick + 1, slept := (seconds, w.crashPoints) :: w.slept })⟩

/-- One durable change of the file system. -/
def push (fs : FS) : M Unit := ⟨fun _ w =>
  (.ok (), { w with cur := fs, past := w.cur :: w.past })⟩

def pushAll : List FS → M Unit
  | [] => M.pure ()
  | f :: fs => M.bind (push f) (fun _ => pushAll fs)

/-- A system call happens: its tick number, or an I/O error. -/
def io : M Nat := ⟨fun env w =>
  if env.fault w.tick then (.error .io, { w with tick := w.tick + 1 })
  else (.ok w.tick, { w with tick := w.tick + 1 })⟩

/-- A read of an oracle that cannot itself fail. -/
def tick : M Nat := ⟨fun _ w => (.ok w.tick, { w with tick := w.tick + 1 })⟩

/-- `Time::now()` (src/util.rs:16-19). -/
def now : M Time := do
  let n ← tick
  let env ← askEnv
  pure (env.clock n)

/-- `Time::seconds_ago` (src/util.rs:21-25). -/
def secondsAgo (s : Int) : M Time := do
  let t ← now
  pure (t - s)

/-- `request_builder.send()` (src/fetch.rs:121-123). -/
def httpGet (r : Req) : M HttpResp := do
  let n ← tick
  let env ← askEnv
  logReq r
  pure (env.http n r)

/-- `Command::new(script).output()` (src/process.rs:72).  Simplification: the script
itself does not change the directories krill-sync manages. -/
def runScript (p : Path) : M Bool := do
  let n ← tick
  let env ← askEnv
  match env.script n p with
  | none => M.throw .io
  | some b => do
    logRan p
    pure b

/-! ### File system calls -/

/-- One step of `create_dir_all`. -/
def mkdir1 (p : Path) : M Unit := do
  let fs ← getFs
  match fs.get p with
  | some .dir => pure ()
  | some _ => M.throw .io
  | none => do
    let _ ← io
    if fs.get p.dropLast = some .dir then push (fs.set p .dir) else M.throw .io

/-- The ancestors of `p`, from the root down to `p` itself. -/
def prefixes (p : Path) : List Path := (List.range (p.length + 1)).map p.take

/-- `std::fs::create_dir_all`: create each missing ancestor, then the directory. -/
def createDirAll (p : Path) : M Unit :=
  M.forEach (prefixes p) mkdir1

/-- `std::fs::File::create`: truncate or create. -/
def fileCreate (p : Path) : M Unit := do
  let n ← io
  let fs ← getFs
  if p = [] ∨ fs.get p.dropLast ≠ some .dir then M.throw .io
  else match fs.get p with
    | some .dir => M.throw .io
    | some (.link _) => M.throw .io   -- simplification: never happens on our paths
    | _ => do
      let env ← askEnv
      push (fs.set p (.file [] (env.clock n)))

/-- The file systems passed through while the first `k` bytes of `b` are written. -/
def writeStates (fs : FS) (p : Path) (b : Bytes) (t : Time) (k : Nat) : List FS :=
  (List.range (k + 1)).map (fun i => fs.set p (.file (b.take i) t))

/-- `write_all`: appends the bytes; each prefix is a crash point; on a fault only a
prefix has been written. -/
def writeAll (p : Path) (b : Bytes) : M Unit := do
  let n ← tick
  let env ← askEnv
  let fs ← getFs
  if env.fault n then do
    pushAll (writeStates fs p b (env.clock n) (min (env.torn n) b.length))
    M.throw .io
  else pushAll (writeStates fs p b (env.clock n) b.length)

/-- `File::open` + `read_to_end` (src/file_ops.rs:97-103). -/
def readFile (p : Path) : M Bytes := do
  let _ ← io
  let fs ← getFs
  match fs.resolve p with
  | some (.file b _) => pure b
  | _ => M.throw .io

/-- `std::fs::remove_file` (does not follow links). -/
def removeFile (p : Path) : M Unit := do
  let _ ← io
  let fs ← getFs
  match fs.get p with
  | some (.file _ _) => push (fs.del p)
  | some (.link _) => push (fs.del p)
  | _ => M.throw .io

/-- `std::fs::remove_dir`: fails on a non-empty directory. -/
def removeDir (p : Path) : M Unit := do
  let _ ← io
  let fs ← getFs
  if p ≠ [] ∧ fs.get p = some .dir ∧ fs.hasChild p = false then push (fs.del p)
  else M.throw .io

/-- `std::fs::rename`.  A directory may replace only nothing or an empty directory. -/
def rename (src dst : Path) : M Unit := do
  let _ ← io
  let fs ← getFs
  if src = [] ∨ dst = [] ∨ fs.get dst.dropLast ≠ some .dir then M.throw .io
  else match fs.get src with
    | none => M.throw .io
    | some .dir =>
      if src <+: dst ∨ dst <+: src then M.throw .io
      else match fs.get dst with
        | none => push (fs.moveTree src dst)
        | some .dir =>
          if fs.hasChild dst then M.throw .io else push (fs.moveTree src dst)
        | _ => M.throw .io
    | some n =>
      match fs.get dst with
      | some .dir => M.throw .io
      | _ => if src = dst then pure () else push ((fs.del src).set dst n)

/-- `std::fs::copy`: read, truncate the target, write. -/
def copyFile (src dst : Path) : M Unit := do
  logCopy dst
  let b ← readFile src
  fileCreate dst
  writeAll dst b

/-- `std::os::unix::fs::symlink(target, link)`. -/
def symlink (target : Name) (p : Path) : M Unit := do
  let _ ← io
  let fs ← getFs
  if p = [] ∨ fs.get p.dropLast ≠ some .dir then M.throw .io
  else match fs.get p with
    | some _ => M.throw .io
    | none => push (fs.set p (.link target))

/-- `filetime::set_file_mtime`. -/
def setMtime (p : Path) (t : Time) : M Unit := do
  let _ ← io
  let fs ← getFs
  match fs.get p with
  | some (.file b _) => push (fs.set p (.file b t))
  | _ => M.throw .io

/-- Remove one entry during `remove_dir_all`; a directory must be empty by then. -/
def unlink1 (p : Path) : M Unit := do
  let _ ← io
  let fs ← getFs
  if fs.hasChild p then M.throw .io else push (fs.del p)

/-- `std::fs::remove_dir_all`: entries are unlinked one by one in an order chosen by
the environment.  An order that is not children first ends with an error (real
executions only use children-first orders, so every real execution is covered); a fault
or a crash leaves part of the tree. -/
def removeDirAll (p : Path) : M Unit := do
  let fs ← getFs
  if p ≠ [] ∧ fs.get p = some .dir then do
    let n ← tick
    let env ← askEnv
    M.forEach (sortBy (env.prio n) (fs.tree p)).reverse unlink1
  else M.throw .io

end KSync
