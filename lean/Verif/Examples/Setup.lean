import Verif.Model.Instance

/-!
# A concrete world

Used by the `example`s next to the theorems (to show that the hypotheses can be met) and
by the counterexamples.  SHA-256 is the identity here, and all encodings are those of
`Verif/Model/Instance.lean`.
-/

namespace KSync.Demo

open KSync.Inst

scoped instance instExt : Ext := Inst.ext

instance [DecidableEq α] [DecidableEq ε] : DecidableEq (Except ε α)
  | .ok a, .ok b => if h : a = b then isTrue (by rw [h]) else isFalse (fun h' => h (by cases h'; rfl))
  | .error a, .error b =>
    if h : a = b then isTrue (by rw [h]) else isFalse (fun h' => h (by cases h'; rfl))
  | .ok _, .error _ => isFalse (fun h => by cases h)
  | .error _, .ok _ => isFalse (fun h => by cases h)

/-- rsync on, links, no TALs, cleanup after 10 seconds. -/
def conf : Config where
  stateDir := ["s".toList]
  rrdpDir := ["r".toList]
  rsyncDir := ["y".toList]
  rrdpNotifyDelay := 30
  rrdpMaxDeltas := none
  rsyncUseSymlinks := true
  rsyncDisable := false
  rsyncIncludeHost := false
  cleanupAfter := 10
  insecure := false
  notificationUri := "https://h/n".toList
  sourceUriBase := none
  fetchMap := none
  talFiles := []
  scripts := []
  talRejectInvalid := false
  offlineValidation := false

def uri (s : String) : Str := "https://h/".toList ++ s.toList

/-- Snapshot content with one object. -/
def snap (k : UInt8) : Bytes :=
  toBytes [((⟨"h".toList, "m".toList, "a.cer".toList⟩ : RsyncUri), ([k] : Bytes))]

/-- Version `k` of session 1: snapshot `s<k>`, one delta `d<k>`. -/
def notif1 : Notif := ⟨1, 1, uri "s1", snap 1, []⟩
def notif2 : Notif := ⟨1, 2, uri "s2", snap 2, [⟨2, uri "d2", [2]⟩]⟩
def notif3 : Notif := ⟨1, 3, uri "s3", snap 3, [⟨2, uri "d2", [2]⟩, ⟨3, uri "d3", [3]⟩]⟩
/-- Another session. -/
def notifB : Notif := ⟨2, 1, uri "b1", snap 9, []⟩

def files : List (Str × Bytes) :=
  [(uri "s1", snap 1), (uri "s2", snap 2), (uri "s3", snap 3), (uri "b1", snap 9),
   (uri "d2", [2]), (uri "d3", [3])]

/-- A failure-free environment at time `t` whose server offers `n`. -/
def envAt (t : Time) (n : Notif) : Env where
  fault := fun _ => false
  torn := fun _ => 0
  clock := fun _ => t
  prio := fun _ p => p.length
  http := fun _ r =>
    if r.uri = uri "n" then .ok .absent (some (toBytes n))
    else match files.lookup r.uri with
      | some b => .ok .absent (some b)
      | none => .other 404
  script := fun _ _ => some true

/-- An empty disk. -/
def fs0 : FS := ⟨[]⟩

/-- The disk after a complete run. -/
def after (c : Config) (env : Env) (fs : FS) : FS := (process 5 c env (World.start fs)).2.cur

/-- The disk after one run (version 1 published). -/
def fs1 : FS := after conf (envAt 0 notif1) fs0
/-- ... and after a second one (version 2). -/
def fs2 : FS := after conf (envAt 1 notif2) fs1

end KSync.Demo
