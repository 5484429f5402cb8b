import Verif.Spec.Chain
import Verif.Spec.Timeline

/-!
# Vocabulary for mirrors that get their files from each other over the network

Used to state C89.
-/

namespace KSync

variable [Ext]

/-- Installations, each on a disk of its own.  Those with a parent get their files from the parent, and nobody
is below itself.  `lim` is, for each of them, the smallest of the maxima (none of them 0) for the deltas on the
way to the source. -/
structure MirrorNet {κ : Type} (cs : κ → Config) (parent : κ → Option κ) (lim : κ → Option Nat)
    (base name : Str) : Prop where
  layout : ∀ k, Layout (cs k) base name
  noCycle : ∃ rank : κ → Nat, ∀ k p, parent k = some p → rank p < rank k
  positive : ∀ k, (cs k).rrdpMaxDeltas ≠ some 0
  top : ∀ k, parent k = none → lim k = (cs k).rrdpMaxDeltas
  below : ∀ k p, parent k = some p → lim k = minLimit (lim p) (cs k).rrdpMaxDeltas

/-- The same function, but for one argument. -/
def put {κ : Type} [DecidableEq κ] {α : Type} (h : κ → α) (k : κ) (a : α) : κ → α :=
  fun l => if l = k then a else h l

/-- A run of one of the installations of a network.  `i` is how far the source has got for those that get their
files from it, `h` all instants of each of the disks up to now (the latest first), and `last k` how many instants
there were at the parent of `k` before the one that `k` has read last.

Runs go as in `Timeline`: they may be cut off anywhere.  What an installation with a parent is offered in a run
is the notification file that was in place at some instant at the parent, which may be in the middle of a run of
the parent and may be long past, but is not before the one that was read last. -/
inductive NetStep {κ : Type} [DecidableEq κ] (σ : Nat → Notif) (cs : κ → Config) (parent : κ → Option κ)
    (base name : Str) (i : κ → Nat) (h : κ → List FS) (last : κ → Nat) :
    (κ → Nat) → (κ → List FS) → (κ → Nat) → Prop
  | fromSource {k : κ} {j depth : Nat} {env : Env} {f g : FS} {l unreached rest : List FS} :
      parent k = none → h k = f :: l → FollowingRun σ (cs k) base name (i k) j depth env f →
      (process depth (cs k) env (World.start f)).2.crashPoints = unreached ++ g :: rest →
      NetStep σ cs parent base name i h last (put i k j) (put h k (g :: (rest ++ l))) last
  | fromParent {k p : κ} {depth : Nat} {env : Env} {f g x : FS} {l unreached rest newer older : List FS} :
      parent k = some p → h k = f :: l → h p = newer ++ x :: older → last k ≤ older.length →
      (∀ etag n, Offers (cs k) env f etag n → Published (cs p) name x n) →
      (process depth (cs k) env (World.start f)).2.crashPoints = unreached ++ g :: rest →
      NetStep σ cs parent base name i h last i (put h k (g :: (rest ++ l))) (put last k older.length)

/-- The life of a network. -/
inductive Network {κ : Type} [DecidableEq κ] (σ : Nat → Notif) (cs : κ → Config) (parent : κ → Option κ)
    (base name : Str) : (κ → Nat) → (κ → List FS) → (κ → Nat) → Prop
  | start {d : κ → FS} : (∀ k, Pristine (cs k) name (d k)) →
      Network σ cs parent base name (fun _ => 0) (fun k => [d k]) (fun _ => 0)
  | step {i i' : κ → Nat} {h h' : κ → List FS} {last last' : κ → Nat} :
      Network σ cs parent base name i h last → NetStep σ cs parent base name i h last i' h' last' →
      Network σ cs parent base name i' h' last'

end KSync
