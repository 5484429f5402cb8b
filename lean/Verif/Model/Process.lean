import Verif.Model.Rsync

/-! # src/process.rs and src/main.rs -/

namespace KSync

variable [Ext]

/-- Running the scripts (src/process.rs:71-94): all are run; did any fail? -/
def runScripts : List Path → M Bool
  | [] => pure false
  | p :: ps => do
    let ok ← runScript p
    let rest ← runScripts ps
    pure (!ok || rest)

/-- src/process.rs:67-99. -/
def scriptGate (c : Config) : M Unit :=
  if c.scripts = [] then pure ()
  else do
    let issues ← runScripts c.scripts
    if issues && c.talRejectInvalid then M.throw .scripts else pure ()

/-- src/process.rs:17-21. -/
def loadState (c : Config) : M RrdpState := do
  let fs ← getFs
  if fs.exists? c.rrdpStatePath then RrdpState.recover c.rrdpStatePath
  else M.lift (RrdpState.create c)

/-- src/process.rs:101-149: everything after the pre-validation. -/
def publish (c : Config) (s : RrdpState) (st : StagedChanges) : M Unit := do
  let s' ← s.apply st c
  (if c.rsyncEnabled then updateRsync s' c else pure ())
  s'.writeNotification c.rrdpNotifyDelay
  s'.persist c.rrdpStatePath

/-- `process` (src/process.rs:9-150).  `depth` is the stack available to the validator. -/
def process (depth : Nat) (c : Config) : M Unit := do
  let s ← loadState c
  let staged ← s.updateStaged c
  match staged with
  | none => pure ()
  | some st => do
    let s' ← s.preValidate depth c
    scriptGate c
    publish c s' st

end KSync
