import Verif.Spec.Ledger

/-!
# What is in the staging area

Used to state C63.
-/

namespace KSync

variable [Ext]

/-- `q` is where a file is staged that a notification names which the source may give out during the
run. -/
def StagedFor (c : Config) (base : Str) (env : Env) (fs : FS) (q : Path) : Prop :=
  ∃ etag n, Offers c env fs etag n ∧ ∃ r ∈ n.refs, ∃ rel, r.1 = base ++ rel ∧ q = c.stagingDir ++ comps rel

/-- Every file in the staging area is the staged notification or one of `A`. -/
def Swept (c : Config) (name : Str) (A : Path → Prop) (fs : FS) : Prop :=
  ∀ q, c.stagingDir <+: q → fs.leaf q ≠ none → q = c.stagingDir ++ [name] ∨ A q

/-- Histories in which we note down (in the first index) what runs that did not end well may have left
in the staging area. -/
inductive Workspace (c : Config) (base name : Str) : (Path → Prop) → FS → Prop
  | start {f : FS} : Unused c name f → (∀ q, c.stagingDir <+: q → f.leaf q = none) →
      Workspace c base name (fun _ => False) f
  /-- a run that ends well, whether there was something to do or not -/
  | done {A : Path → Prop} {depth : Nat} {env : Env} {f : FS} {w : World} :
      Workspace c base name A f → SoundSource c base name env f →
      process depth c env (World.start f) = (.ok (), w) → Workspace c base name A w.cur
  /-- a run that fails or is cut off anywhere -/
  | cut {A : Path → Prop} {depth : Nat} {env : Env} {f f' : FS} :
      Workspace c base name A f → SoundSource c base name env f →
      f' ∈ (process depth c env (World.start f)).2.crashPoints →
      Workspace c base name (fun q => A q ∨ StagedFor c base env f q) f'

end KSync
