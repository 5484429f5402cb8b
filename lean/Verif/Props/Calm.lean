import Verif.Lemmas.NoPanic
import Verif.Props.Gates

/-! # Panics (property C59) -/

namespace KSync

/-- **C59.** Whatever the server answers, whatever is on the disk (any state files, any
permissions and faults), whatever the clock says and however a run is configured, neither reading the
configuration nor the run itself ends with a panic.  The one exception is a limit of zero deltas, if the
library function that applies the limit panics then.  (The code has two places that would panic: the
`unreachable!` at src/fetch.rs:300 and the `unwrap` at src/rrdp.rs:607.)  Running out of stack in the
validator is the subject of C42; log messages, which show times (src/util.rs:34), are not modelled. -/
theorem C59_no_panic [Ext] (depth : Nat) (c : Config) (r : RawConfig) (env : Env) (w : World) :
    (postConfigure r env w).1 ≠ .error .panic ∧
    (¬ (c.rrdpMaxDeltas = some 0 ∧ Ext.zeroLimit = .panic) →
      (process depth c env w).1 ≠ .error .panic) :=
  ⟨postConfigure_calm r env w,
    fun h => process_calm depth (fun h0 hz => h ⟨h0, hz⟩) env w⟩

section
open Demo
set_option maxRecDepth 100000

/-- Runs that end in different ways: a publication; a snapshot that cannot be parsed; a notification URI
without parent; a state file that is no state. -/
example :
    (process 5 conf (envAt 1 notif1) (World.start fs0)).1 = .ok () ∧
    (process 5 conf junkEnv (World.start fs1)).1 = .error .parse ∧
    (process 5 { conf with notificationUri := "https://h".toList } (envAt 1 notif1)
      (World.start fs0)).1 = .error .noParent ∧
    (process 5 conf (envAt 1 notif1)
      (World.start (fs1.set conf.rrdpStatePath (.file [2] 0)))).1 = .error .parse ∧
    ¬ (conf.rrdpMaxDeltas = some 0 ∧ Ext.zeroLimit = .panic) := by decide +kernel

/-- The exception is needed: a limit of zero deltas, with a library function that panics then. -/
example : Ext.zeroLimit = .panic ∧
    (process 5 { conf with rrdpMaxDeltas := some 0 } (envAt 1 notif2) (World.start fs1)).1 =
      .error .panic := by decide +kernel

end

end KSync
