import Verif.Spec.Ledger

/-!
# Empty directories

Used to state C64.
-/

namespace KSync

variable [Ext]

/-- Below `d`, every directory that is not one of `A` has something in it. -/
def NoEmptyDirs (d : Path) (A : Path → Prop) (fs : FS) : Prop :=
  ∀ q, d <+: q → q ≠ d → fs.get q = some .dir → (∃ n, fs.get (q ++ [n]) ≠ none) ∨ A q

/-- `p` is the place of a file which a run from `fs` may publish or remove. -/
def Handled (c : Config) (base name : Str) (env : Env) (fs : FS) (p : Path) : Prop :=
  Attempted c base env fs p ∨ p = c.notifPath name ∨ p = c.rrdpDir ++ [name ++ ".tmp".toList] ∨
  ∃ s, InUse c base name fs s ∧ (s.Refers c p ∨ ∃ d ∈ s.deprecated, d.path = p)

/-- Histories in which we note down (in the first index) which directories may have been left empty
by runs that were cut off, or in which a file operation failed. -/
inductive Tended (c : Config) (base name : Str) : (Path → Prop) → FS → Prop
  | start {f : FS} : Unused c name f → NoEmptyDirs c.rrdpDir (fun _ => False) f →
      Tended c base name (fun _ => False) f
  /-- a run that ends well, in which no file operation fails -/
  | done {A : Path → Prop} {depth : Nat} {env : Env} {f : FS} {w : World} :
      Tended c base name A f → SoundSource c base name env f → NoFaults env →
      process depth c env (World.start f) = (.ok (), w) → Tended c base name A w.cur
  /-- a run that fails, or is cut off, before it changes the RRDP directory or the state -/
  | idle {A : Path → Prop} {depth : Nat} {env : Env} {f f' : FS} :
      Tended c base name A f → SoundSource c base name env f →
      f' ∈ (process depth c env (World.start f)).2.crashPoints →
      (∀ q, c.rrdpDir <+: q → f'.get q = f.get q) →
      f'.leaf c.rrdpStatePath = f.leaf c.rrdpStatePath → Tended c base name A f'
  /-- a run that fails or is cut off anywhere: directories on the way to (or in the place of) a file
  it handles may be left empty -/
  | cut {A : Path → Prop} {depth : Nat} {env : Env} {f f' : FS} :
      Tended c base name A f → SoundSource c base name env f →
      f' ∈ (process depth c env (World.start f)).2.crashPoints →
      Tended c base name (fun q => A q ∨ ∃ p, Handled c base name env f p ∧ (q <+: p ∨ p <+: q)) f'

end KSync
