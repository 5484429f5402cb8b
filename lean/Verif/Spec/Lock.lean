import Verif.Model.Main
import Verif.Spec.History

/-! # Vocabulary for concurrent processes -/

namespace KSync

/-- `w`, run alone from `f`, gets to `f'` with `w'` still to be done. -/
inductive Alone (w : Work) (f : FS) : Work → FS → Prop
  | refl : Alone w f w f
  | step {next : FS → FS} {cont : FS → Work} {g : FS} : Alone w f (.act next cont) g →
      Alone w f (cont g) (next g)

/-- The programs of the processes in the list (the last one first), run one after the other and each
alone, lead from `f` to `f'`.  With each process is given what was left of its program when it was
stopped. -/
inductive Serial (prog : Nat → Work) (f : FS) : List (Nat × Work) → FS → Prop
  | nil : Serial prog f [] f
  | cons {l : List (Nat × Work)} {i : Nat} {w : Work} {g g' : FS} : Serial prog f l g →
      Alone (prog i) g w g' → Serial prog f ((i, w) :: l) g'

/-- Nothing is changed but that missing directories on the way to the state directory and the lock file
are created. -/
structure SetUp (c : Config) (f f' : FS) : Prop where
  wf : f.WF → f'.WF
  only : ∀ q, f'.get q = f.get q ∨ (f.get q = none ∧
    ((q <+: c.stateDir ∧ f'.get q = some .dir) ∨ (q = c.lockFile ∧ ∃ t, f'.get q = some (.file [] t))))

/-- The state directory and the lock file exist. -/
def LockThere (c : Config) (f : FS) : Prop :=
  f.get c.stateDir = some .dir ∧ ∃ b t, f.get c.lockFile = some (.file b t)

/-- A program in small steps that does what the model of a run does: wherever it gets, running alone, is
the beginning or one of the instants of the run. -/
def Implements [Ext] (depth : Nat) (c : Config) (env : Env) (w : Work) : Prop :=
  ∀ f w' f', Alone w f w' f' →
    f' = f ∨ f' ∈ (process depth c env (World.start f)).2.crashPoints

end KSync
