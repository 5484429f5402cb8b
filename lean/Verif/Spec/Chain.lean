import Verif.Spec.Shared
import Verif.Spec.Mirror

/-!
# Vocabulary for mirrors of mirrors

Used to state C82.
-/

namespace KSync

variable [Ext]

/-- The stricter of two limits for the number of deltas. -/
def minLimit : Option Nat → Option Nat → Option Nat
  | none, m => m
  | m, none => m
  | some a, some b => some (min a b)

/-- With `--source-uri-base`, the installation gets its files from the RRDP directory of the other, which is
for the same notification URI. -/
def ReadsFrom (c p : Config) (base : Str) : Prop := c.fetchMap = some ⟨base, .file p.rrdpDir⟩

/-- Installations for one notification URI in separate places of a disk.  Those with a parent get their files
from the RRDP directory of the parent, and nobody is below itself.  `lim` is, for each of them, the smallest of
the maxima (none of them 0) for the deltas on the way to the source. -/
structure MirrorTree {κ : Type} (cs : κ → Config) (parent : κ → Option κ) (lim : κ → Option Nat)
    (base name : Str) : Prop where
  layout : ∀ k, Layout (cs k) base name
  separate : ∀ k l, k ≠ l → Separate (cs k) (cs l)
  reads : ∀ k p, parent k = some p → ReadsFrom (cs k) (cs p) base
  noCycle : ∃ rank : κ → Nat, ∀ k p, parent k = some p → rank p < rank k
  positive : ∀ k, (cs k).rrdpMaxDeltas ≠ some 0
  top : ∀ k, parent k = none → lim k = (cs k).rrdpMaxDeltas
  below : ∀ k p, parent k = some p → lim k = minLimit (lim p) (cs k).rrdpMaxDeltas

/-- `r` is the installation, on the way from `k` to the source, that gets its files from the source. -/
inductive RootOf {κ : Type} (parent : κ → Option κ) : κ → κ → Prop
  | here {k : κ} : parent k = none → RootOf parent k k
  | up {k p r : κ} : parent k = some p → RootOf parent p r → RootOf parent k r

/-- Runs of installations that get their files from a source or, if they have a parent, from the RRDP
directory of the parent. -/
structure TreeRun {κ : Type} (σ : Nat → Notif) (cs : κ → Config) (parent : κ → Option κ) (base name : Str)
    (k : κ) (c' : Config) (i j : Nat) (depth : Nat) (env : Env) (fs : FS) : Prop where
  same : c' = cs k
  root : parent k = none → FollowingRun σ (cs k) base name i j depth env fs

end KSync
