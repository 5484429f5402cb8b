import Verif.Spec.History

/-!
# What is known about the files in the RRDP directory

Used to state C62.
-/

namespace KSync

variable [Ext]

/-- Every file in the RRDP directory is the notification file, or a file of the version in the
state, or scheduled for removal in the state, or one of `A`. -/
def Accounted (c : Config) (base name : Str) (A : Path → Prop) (fs : FS) : Prop :=
  ∀ s, InUse c base name fs s → ∀ q, c.rrdpDir <+: q → fs.leaf q ≠ none →
    q = c.notifPath name ∨ s.Refers c q ∨ (∃ d ∈ s.deprecated, d.path = q) ∨ A q

/-- `q` is where a file is published that a notification names which the source may give out
during the run. -/
def Attempted (c : Config) (base : Str) (env : Env) (fs : FS) (q : Path) : Prop :=
  ∃ etag n, Offers c env fs etag n ∧ ∃ r ∈ n.refs, ∃ rel, r.1 = base ++ rel ∧ q = c.pubPath rel

/-- The source names its files sensibly, never names two different files for the same place, and
does not answer 'not modified' to an unconditional request. -/
structure SoundSource (c : Config) (base name : Str) (env : Env) (fs : FS) : Prop where
  good : GoodSource c base name env fs
  no304 : No304 env
  oneHash : ∀ etag n, Offers c env fs etag n → OneHashPerPath base n

/-- Nothing was published yet. -/
structure Unused (c : Config) (name : Str) (fs : FS) : Prop where
  pristine : Pristine c name fs
  empty : ∀ q, c.rrdpDir <+: q → fs.leaf q = none

/-- Histories in which we note down (in the first index) what may have been left behind by runs
that were cut off. -/
inductive Ledger (c : Config) (base name : Str) : (Path → Prop) → FS → Prop
  | start {f : FS} : Unused c name f → Ledger c base name (fun _ => False) f
  /-- a run that ends well, whether there was something to do or not -/
  | done {A : Path → Prop} {depth : Nat} {env : Env} {f : FS} {w : World} :
      Ledger c base name A f → SoundSource c base name env f →
      process depth c env (World.start f) = (.ok (), w) → Ledger c base name A w.cur
  /-- a run that fails, or is cut off, before it changes the RRDP directory or the state -/
  | idle {A : Path → Prop} {depth : Nat} {env : Env} {f f' : FS} :
      Ledger c base name A f → SoundSource c base name env f →
      f' ∈ (process depth c env (World.start f)).2.crashPoints →
      (∀ q, c.rrdpDir <+: q → f'.leaf q = f.leaf q) →
      f'.leaf c.rrdpStatePath = f.leaf c.rrdpStatePath → Ledger c base name A f'
  /-- a run that fails or is cut off anywhere -/
  | cut {A : Path → Prop} {depth : Nat} {env : Env} {f f' : FS} :
      Ledger c base name A f → SoundSource c base name env f →
      f' ∈ (process depth c env (World.start f)).2.crashPoints →
      Ledger c base name (fun q => A q ∨ q = c.rrdpDir ++ [name ++ ".tmp".toList] ∨
        Attempted c base env f q) f'

end KSync
