import Verif.Spec.Network
import Verif.Spec.Polling

/-!
# Vocabulary for relying parties that use the mirrors of a network

Used to state C90.
-/

namespace KSync

variable [Ext]

/-- A relying party asks an installation of a network again and again, while the life of the network goes on.
Each time it processes the notification that is in place at some instant (those in the middle of runs included),
with whatever it receives for the files of it; this instant is not before the one at which it has asked last.
It may turn from an installation to the one that this gets its files from, and then asks there at instants not
before the one that the former has read last.

`k` is the installation that it asks now, `pos` is how many instants there were at that installation before the
one from which on it asks, and `ps` is what it has had, the latest first. -/
inductive Visiting {κ : Type} [DecidableEq κ] (σ : Nat → Notif) (cs : κ → Config) (parent : κ → Option κ)
    (base name : Str) : (κ → Nat) → (κ → List FS) → (κ → Nat) → κ → Nat → List Party → Prop
  | start {i : κ → Nat} {h : κ → List FS} {last : κ → Nat} {k : κ} :
      Network σ cs parent base name i h last → Visiting σ cs parent base name i h last k 0 []
  | goes {i i' : κ → Nat} {h h' : κ → List FS} {last last' : κ → Nat} {k : κ} {pos : Nat} {ps : List Party} :
      Visiting σ cs parent base name i h last k pos ps → NetStep σ cs parent base name i h last i' h' last' →
      Visiting σ cs parent base name i' h' last' k pos ps
  | poll {i : κ → Nat} {h : κ → List FS} {last : κ → Nat} {k : κ} {pos : Nat} {ps : List Party} {f : FS}
      {newer older : List FS} {n : Notif} {get : Str → Option Bytes} {q : Party} :
      Visiting σ cs parent base name i h last k pos ps → h k = newer ++ f :: older → pos ≤ older.length →
      Published (cs k) name f n → Party.Gets get n ps.head? q →
      Visiting σ cs parent base name i h last k older.length (q :: ps)
  | up {i : κ → Nat} {h : κ → List FS} {last : κ → Nat} {k p : κ} {pos : Nat} {ps : List Party} :
      Visiting σ cs parent base name i h last k pos ps → parent k = some p →
      Visiting σ cs parent base name i h last p (last k) ps

end KSync
