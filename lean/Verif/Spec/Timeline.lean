import Verif.Spec.Fallback

/-!
# Vocabulary for the order of the instants in the life of an installation

Used to state C88.  `History` lists what can be on disk at some instant, and goes on from there as if the
run had been cut off at that instant.  Here all instants are kept, so that two instants of the same run can
be compared.
-/

namespace KSync

variable [Ext]

/-- All instants in the life of an installation up to now, the latest first.  A run goes through the file
systems in `crashPoints` (latest first); it may be cut off at any of them, or come to its end. -/
inductive Timeline {ι : Type} (c : Config) (start : ι → FS → Prop)
    (ok : ι → ι → Nat → Env → FS → Prop) : ι → List FS → Prop
  | start {i : ι} {f : FS} : start i f → Timeline c start ok i [f]
  | run {i j : ι} {depth : Nat} {env : Env} {f g : FS} {l unreached rest : List FS} :
      Timeline c start ok i (f :: l) → ok i j depth env f →
      (process depth c env (World.start f)).2.crashPoints = unreached ++ g :: rest →
      Timeline c start ok j (g :: (rest ++ l))

/-- The instants in the life of an installation that starts with nothing. -/
def ForwardTimeline (age : Uuid → Nat) (c : Config) (base name : Str) :
    Version × (Notif → Prop) → List FS → Prop :=
  Timeline c (fun _ f => Unused c name f ∧ RsyncUnused c f) (AnnouncedRun age c base name)

/-- `P` holds of any two instants, the earlier one first (`l` has the latest first). -/
def AnyTwo (P : FS → FS → Prop) (l : List FS) : Prop :=
  l.Pairwise (fun later earlier => P earlier later)

end KSync
