import Verif.Spec.Options

/-!
# Vocabulary for several installations on one disk

Used to state C81.
-/

namespace KSync

variable [Ext]

/-- No place of the one installation is in, or contains, a place of the other. -/
def Separate (a b : Config) : Prop := ∀ x ∈ a.roots, ∀ y ∈ b.roots, Apart x y

/-- What can be on disk after some number of runs of several installations, one run at a time, each with
options of its own.  In between anything may happen that leaves each of the installations alone, as in
`BetweenRuns`. -/
inductive Shared {κ ι : Type} [DecidableEq κ] (cs : κ → Config) (start : κ → ι → FS → Prop)
    (ok : κ → Config → ι → ι → Nat → Env → FS → Prop) : (κ → ι) → FS → Prop
  | start {i : κ → ι} {f : FS} : (∀ k, start k (i k) f) → Shared cs start ok i f
  | run {k : κ} {c' : Config} {i : κ → ι} {j : ι} {depth : Nat} {env : Env} {f f' : FS} :
      Shared cs start ok i f → SameInstallation (cs k) c' → ok k c' (i k) j depth env f →
      f' ∈ (process depth c' env (World.start f)).2.crashPoints →
      Shared cs start ok (fun l => if l = k then j else i l) f'
  | meanwhile {i : κ → ι} {f f' : FS} : Shared cs start ok i f → (∀ k, BetweenRuns (cs k) f f') →
      Shared cs start ok i f'

end KSync
