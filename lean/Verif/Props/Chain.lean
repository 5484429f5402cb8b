import Verif.Lemmas.Chain
import Verif.Props.Mirror
import Verif.Props.Shared

/-!
# Mirrors of mirrors (property C82)

`MirrorTree`, `TreeRun`, `RootOf` are in Verif/Spec/Chain.lean.
-/

set_option linter.unusedVariables false

namespace KSync

/-- **C82.** At any time at any of the installations, however their runs are interleaved and wherever they
were interrupted: the notification file is absent, or it is, byte for byte, a notification that the source
has had, with the deltas from the latest down, as many as all those on the way to the source allow. -/
theorem C82_exact [Ext] {κ : Type} [DecidableEq κ] (σ : Nat → Notif) (cs : κ → Config)
    (parent : κ → Option κ) (lim : κ → Option Nat) (base name : Str) (i : κ → Nat) (f : FS)
    (ht : MirrorTree cs parent lim base name) (ho : ∀ host, CleanObjects host) (hσ : FollowsRfc σ)
    (hg : ∀ m, Gapless (σ m).deltas) (hn : ∀ m, GoodNotif base name (σ m))
    (h : Shared cs (fun k _ => Pristine (cs k) name) (TreeRun σ cs parent base name) i f) (k : κ) :
    f.leaf ((cs k).notifPath name) = none ∨ ∃ m ds t, (∀ r, RootOf parent k r → m ≤ i r) ∧
      IsLimit (lim k) (σ m).deltas ds ∧ f.leaf ((cs k).notifPath name) =
        some (.file (Ext.writeNotif { σ m with deltas := ds.reverse }) t) := by
  have hT := ht.tree hσ hg hn
  obtain ⟨idx, e, hinv⟩ := h.tree hT ho
  refine (hinv.each k).notif.imp id ?_
  rintro ⟨n, t, h1, m, h2, h3⟩
  obtain ⟨ds, a1, a2⟩ := mirrored_spec (hT.posLim k) (hg m)
  refine ⟨m, ds, t, fun r hr => ?_, a1, ?_⟩
  · rw [← e r hr.isRoot]
    exact Nat.le_trans h2 (hinv.root hT hr)
  · rw [h1, hT.mirrors h3, a2]

/-- **C82, never ahead.** An installation never publishes a later version than the one it gets its files
from. -/
theorem C82_never_ahead [Ext] {κ : Type} [DecidableEq κ] (σ : Nat → Notif) (cs : κ → Config)
    (parent : κ → Option κ) (lim : κ → Option Nat) (base name : Str) (i : κ → Nat) (f : FS)
    (ht : MirrorTree cs parent lim base name) (ho : ∀ host, CleanObjects host) (hσ : FollowsRfc σ)
    (hg : ∀ m, Gapless (σ m).deltas) (hn : ∀ m, GoodNotif base name (σ m))
    (h : Shared cs (fun k _ => Pristine (cs k) name) (TreeRun σ cs parent base name) i f) (k p : κ)
    (hp : parent k = some p) (n n' : Notif) (hk : Published (cs k) name f n) (hk' : Published (cs p) name f n')
    (hs : n.session = n'.session) : n.serial ≤ n'.serial := by
  have hT := ht.tree hσ hg hn
  obtain ⟨idx, e, hinv⟩ := h.tree hT ho
  obtain ⟨t, hk⟩ := hk
  obtain ⟨t', hk'⟩ := hk'
  rcases (hinv.each k).notif with h1 | ⟨n1, t1, h1, m, h2, h3⟩
  · rw [hk] at h1; cases h1
  rcases hinv.shown k p hp with a1 | ⟨m', b1, b2, t2, a1⟩
  · rw [hk'] at a1; cases a1
  rw [hk] at h1
  rw [hk'] at a1
  injection h1 with h1
  injection h1 with h1 _
  injection a1 with a1
  injection a1 with a1 _
  obtain rfl := writeNotif_inj h1
  obtain rfl := writeNotif_inj a1
  rw [hT.mirrors h3] at hs ⊢
  obtain ⟨_, _, e1⟩ := mirrored_spec (hT.posLim k) (hg m)
  obtain ⟨_, _, e2⟩ := mirrored_spec (hT.posLim p) (hg m')
  rw [e1, e2] at hs ⊢
  exact hσ.forward m m' (Nat.le_trans h2 b1) hs

/-- **C82, catching up.** When a run of an installation completes, and has changed anything, then what it
publishes is what the installation it gets its files from had published, with the deltas from the latest
down, as many as the maximum allows. -/
theorem C82_catches_up [Ext] {κ : Type} [DecidableEq κ] (σ : Nat → Notif) (cs : κ → Config)
    (parent : κ → Option κ) (lim : κ → Option Nat) (base name : Str) (i : κ → Nat) (f : FS)
    (ht : MirrorTree cs parent lim base name) (ho : ∀ host, CleanObjects host) (hσ : FollowsRfc σ)
    (hg : ∀ m, Gapless (σ m).deltas) (hn : ∀ m, GoodNotif base name (σ m))
    (h : Shared cs (fun k _ => Pristine (cs k) name) (TreeRun σ cs parent base name) i f) (k p : κ)
    (hp : parent k = some p) (n : Notif) (hpub : Published (cs p) name f n) (depth : Nat) (env : Env) (w' : World)
    (hok : process depth (cs k) env (World.start f) = (.ok (), w')) (hch : w'.crashPoints ≠ [f]) :
    ∃ n', Mirrors (cs k) n n' ∧ Published (cs k) name w'.cur n' := by
  have hT := ht.tree hσ hg hn
  obtain ⟨idx, e, hinv⟩ := h.tree hT ho
  obtain ⟨t, hpub⟩ := hpub
  obtain ⟨n', t', h1, h2⟩ := hinv.done hT ho hp hpub hok hch
  exact ⟨n', h1, t', h2⟩

section
open Demo
set_option maxRecDepth 100000

namespace Demo

/-- The second installation gets its files from the first. -/
def above : Bool → Option Bool
  | false => none
  | true => some false

def limTwo : Bool → Option Nat
  | false => none
  | true => some 1

theorem treeTwo : MirrorTree two above limTwo base name where
  layout := layoutTwo
  separate := separateTwo
  reads
    | true, false, _ => rfl
    | true, true, h => nomatch h
    | false, _, h => nomatch h
  noCycle := ⟨fun k => if k then 1 else 0, fun k p => by cases k <;> cases p <;> decide⟩
  positive
    | false => nofun
    | true => (by decide : (some 1 : Option Nat) ≠ some 0)
  top
    | false, _ => rfl
    | true, h => nomatch h
  below
    | true, false, _ => rfl
    | true, true, h => nomatch h
    | false, _, h => nomatch h

theorem gapless3 : ∀ m, Gapless (threeVersions m).deltas
  | 0 => ⟨[], .refl _, fun i h => absurd h (Nat.not_lt_zero _)⟩
  | 1 => ⟨notif2.deltas, .refl _, fun i h => absurd (Nat.lt_of_succ_lt_succ h) (Nat.not_lt_zero _)⟩
  | _ + 2 => ⟨notif3.deltas, .refl _, fun i h => match i, h with
    | 0, _ => rfl
    | i + 1, h => absurd (Nat.lt_of_succ_lt_succ (Nat.lt_of_succ_lt_succ h)) (Nat.not_lt_zero _)⟩

theorem good3 : ∀ m, GoodNotif base name (threeVersions m)
  | 0 => goodNotif_of_check (by decide)
  | 1 => goodNotif_of_check (by decide)
  | _ + 2 => goodNotif_of_check (n := notif3) (by decide)

/-- The first has seen version 1 and then version 3, the second has run after each. -/
def fsT1 : FS := after conf (envAt 0 notif1) fs0
def fsT2 : FS := after confDown (envAt 1 notifB) fsT1
def fsT3 : FS := after conf (envAt 2 notif3) fsT2
def fsT4 : FS := after confDown (envAt 3 notifB) fsT3

/-- The first has got to version 3 of the source. -/
def got : Bool → Nat
  | false => 2
  | true => 0

theorem treeRuns : Shared two (fun k _ => Pristine (two k) name) (TreeRun threeVersions two above base name)
    got fsT3 := by
  have h1 := Shared.run (k := false) (c' := conf) (j := 0) (depth := 5) (env := envAt 0 notif1) (f' := fsT1)
    (Shared.start (cs := two) (start := fun k _ => Pristine (two k) name)
      (ok := TreeRun threeVersions two above base name) (i := fun _ => 0) (f := fs0) pristineTwo)
    sameConf ⟨rfl, fun _ => ⟨goodSource (by decide), by decide, fun _ _ h => ⟨0, by decide, by decide, offers h⟩⟩⟩
    List.mem_cons_self
  have h2 := Shared.run (k := true) (c' := confDown) (j := 0) (depth := 5) (env := envAt 1 notifB) (f' := fsT2)
    h1 ⟨rfl, rfl, rfl, rfl⟩ ⟨rfl, nofun⟩ List.mem_cons_self
  have h3 := Shared.run (k := false) (c' := conf) (j := 2) (depth := 5) (env := envAt 2 notif3) (f' := fsT3)
    h2 sameConf
    ⟨rfl, fun _ => ⟨goodSource (by decide), by decide, fun _ _ h => ⟨2, by decide, by decide, offers h⟩⟩⟩
    List.mem_cons_self
  have e : (fun l => if l = false then 2 else if l = true then 0 else if l = false then 0 else 0 : Bool → Nat) =
      got := by
    funext l
    cases l <;> rfl
  rw [← e]
  exact h3

end Demo

example := C82_exact threeVersions two above limTwo base name got fsT3 treeTwo cleanObjects followsRfc3
  gapless3 good3 treeRuns

/-- The second is behind. -/
example := C82_never_ahead threeVersions two above limTwo base name got fsT3 treeTwo cleanObjects followsRfc3
  gapless3 good3 treeRuns true false rfl notif1 { notif3 with deltas := notif3.deltas.reverse }
  ⟨1, by decide +kernel⟩ ⟨2, by decide +kernel⟩ rfl

/-- Its next run completes. -/
example := C82_catches_up threeVersions two above limTwo base name got fsT3 treeTwo cleanObjects followsRfc3
  gapless3 good3 treeRuns true false rfl { notif3 with deltas := notif3.deltas.reverse } ⟨2, by decide +kernel⟩
  5 (envAt 3 notifB) (process 5 confDown (envAt 3 notifB) (World.start fsT3)).2
  (Prod.ext (by decide +kernel : (process 5 confDown (envAt 3 notifB) (World.start fsT3)).1 = .ok ()) rfl)
  (by
    intro h
    have : fsT4 = fsT3 := (List.cons.inj h).1
    have h3 : fsT3.file? (confDown.notifPath name) = some (Ext.writeNotif notif1) := by decide +kernel
    have h4 : fsT4.file? (confDown.notifPath name) ≠ some (Ext.writeNotif notif1) := by decide +kernel
    exact h4 (this ▸ h3))

/-- And it lists one delta then. -/
example : fsT4.file? (confDown.notifPath name) =
    some (Ext.writeNotif { notif3 with deltas := [⟨3, uri "d3", [3]⟩] }) := by decide +kernel

end

end KSync
