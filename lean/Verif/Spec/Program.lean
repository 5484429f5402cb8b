import Verif.Model.Program
import Verif.Spec.Lock
import Verif.Spec.Configure
import Verif.Spec.Restart
import Verif.Spec.Withhold

/-! # Vocabulary for whole programs (property C76) -/

namespace KSync

variable [Ext]

/-- The directories for RRDP and rsync are not given on the command line, the notification URI is
`base ++ name`, and with these options the program gets the configuration `c`. -/
structure StandardOptions (r : RawConfig) (c : Config) (base name : Str) : Prop where
  accepted : ∃ env w, (postConfigure r env w).1 = .ok c
  rrdpDir : r.rrdpDir = "/var/lib/krill-sync/rrdp".toList
  rsyncDir : r.rsyncDir = "/var/lib/krill-sync/rsync".toList
  uri : InDirectory r.rest.notificationUri base name
  plain : PlainName name

/-- The disk before the program is installed: there may be a state directory, but nothing is in it
(a lock file aside), and nothing is in the way. -/
structure NewDisk (c : Config) (fs : FS) : Prop where
  wf : fs.WF
  empty : EmptyButLock c fs
  above : ∀ q, q <+: c.stateDir → fs.get q = none ∨ fs.get q = some .dir
  lock : fs.get c.lockFile = none ∨ ∃ b t, fs.get c.lockFile = some (.file b t)

/-- The start does not find the lock taken, and `ok` holds on the disk on which its run can begin: the
state directory and the lock file are there, and nothing else has changed. -/
def Start.Gets (s : Start) (depth : Nat) (r : RawConfig) (c : Config) (f : FS)
    (ok : FS → Prop) : Prop :=
  s.taken = false ∧
  ∀ f1 ∈ (krillSync depth r s f).instants, SetUp c f f1 → LockThere c f1 → ok f1

/-- There is no reason to withhold the update: there are no TALs, or nothing for which C72 lets the
pre-validation refuse it; and no script objects, or, if this does not count, all can be started. -/
def Unopposed (depth : Nat) (c : Config) (base : Str) (env : Env) (f : FS) : Prop :=
  (c.talFiles = [] ∨ ∀ s0 w1 st w2, loadState c env (World.start f) = (.ok s0, w1) →
    s0.updateStaged c env w1 = (.ok (some st), w2) → ¬ Refusable depth c base env f w2.cur) ∧
  ∀ tick, ∀ q ∈ c.scripts, env.script tick q = some true ∨
    (c.talRejectInvalid = false ∧ env.script tick q ≠ none)

/-- What can be on disk after the program has been started any number of times, always with the options
`r`, from the disk `f0`.  Each start may end anywhere: its options may be refused, it may find the lock
taken, fail, complete, or be killed.  `ok` is what is assumed of the runs; `ι` keeps track of what may
change. -/
inductive Installation {ι : Type} (r : RawConfig) (c : Config) (f0 : FS)
    (ok : ι → ι → Nat → Env → FS → Prop) : ι → FS → Prop
  | new {i : ι} : Installation r c f0 ok i f0
  | start {i j : ι} {depth : Nat} {s : Start} {f g : FS} : Installation r c f0 ok i f →
      (s.taken = true ∧ j = i ∨ s.Gets depth r c f (ok i j depth s.work)) →
      g ∈ (krillSync depth r s f).instants → Installation r c f0 ok j g

end KSync
