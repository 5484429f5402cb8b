import Verif.Spec.History
import Verif.Spec.RunValidation

/-! # Runs that are an hour apart -/

namespace KSync

variable [Ext]

/-- A run during which the source goes on from version `p.2` to version `p'.2`, tells the truth about what
it contains (`content`), and lists its deltas up to its serial; it starts an hour or more after the time
`p.1` and is over by `p'.1`. -/
structure HourlyRun (content : Uuid → Nat → Objects) (age : Uuid → Nat) (c : Config) (base name : Str)
    (p p' : Time × Version) (depth : Nat) (env : Env) (fs : FS) : Prop where
  forward : ForwardRun age c base name p.2 p'.2 depth env fs
  truthful : ∀ etag n, Offers c env fs etag n → Truthful content n ∧ ReachesSerial n
  spaced : ∀ k, p.1 + 3600 ≤ env.clock k ∧ env.clock k ≤ p'.1

end KSync
