import Verif.Spec.Ledger
import Verif.Spec.RsyncLedger

/-!
# Histories with the times at which the runs took place

Used to state C77.
-/

namespace KSync

variable [Ext]

/-- What a run which is cut off may leave behind: temporary files, and files of the version it was to
publish. -/
def Litter (c : Config) (base name : Str) (env : Env) (f : FS) (q : Path) : Prop :=
  q = c.rrdpDir ++ [name ++ ".tmp".toList] ∨ Attempted c base env f q ∨
  q = c.rsyncDir ++ ["current.tmp".toList] ∨ ∃ n, Announces c base name env f n ∧ n.rev.path c <+: q

/-- Histories of runs in which the clock only shows times in `P`.  We note down (in the first index) what may
have been left behind by runs that were cut off. -/
inductive Dated (c : Config) (base name : Str) (P : Time → Prop) : (Path → Prop) → FS → Prop
  | start {f : FS} : Unused c name f → RsyncUnused c f → Dated c base name P (fun _ => False) f
  /-- a run that ends well, whether there was something to do or not -/
  | done {A : Path → Prop} {depth : Nat} {env : Env} {f : FS} {w : World} :
      Dated c base name P A f → (∀ k, P (env.clock k)) → SoundSource c base name env f →
      process depth c env (World.start f) = (.ok (), w) → Dated c base name P A w.cur
  /-- a run that fails, or is cut off, before it changes what is published or recorded -/
  | idle {A : Path → Prop} {depth : Nat} {env : Env} {f f' : FS} :
      Dated c base name P A f → (∀ k, P (env.clock k)) → SoundSource c base name env f →
      f' ∈ (process depth c env (World.start f)).2.crashPoints →
      (∀ q, c.rrdpDir <+: q ∨ q = c.rrdpStatePath ∨ c.rsyncDir <+: q ∨ q = c.rsyncStatePath →
        f'.leaf q = f.leaf q) → Dated c base name P A f'
  /-- a run that fails or is cut off anywhere -/
  | cut {A : Path → Prop} {depth : Nat} {env : Env} {f f' : FS} :
      Dated c base name P A f → (∀ k, P (env.clock k)) → SoundSource c base name env f →
      f' ∈ (process depth c env (World.start f)).2.crashPoints →
      Dated c base name P (fun q => A q ∨ Litter c base name env f q) f'

end KSync
