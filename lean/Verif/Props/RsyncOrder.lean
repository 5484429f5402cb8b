import Verif.Lemmas.RsyncOrder
import Verif.Props.Fallback

/-!
# Clients that use rsync again and again (property C87)

`ForwardLifetime`, `Later` are defined in `Verif/Spec/Fallback.lean`.
-/

set_option linter.unusedVariables false

namespace KSync

/-- **C87**, with links: whatever `current` leads to is the directory of a version that the source has
announced; and at any later time it is that of a version that is not older.  Runs may fail or be cut off at any
step in between. -/
theorem C87_never_back_with_links [Ext] (age : Uuid → Nat) (c : Config) (base name : Str)
    (i j : Version × (Notif → Prop)) (f g : FS) (t : Name) (hl : Layout c base name)
    (ho : CleanObjects c.rsyncIncludeHost) (he : c.rsyncEnabled = true) (hm : c.rsyncUseSymlinks = true)
    (h : ForwardLifetime age c base name i f) (ht : f.link? c.rsyncCurrent = some t)
    (h' : Later age c base name i f j g) :
    ∃ m, i.2 m ∧ t = m.rev.dirName ∧ ∃ m', j.2 m' ∧ g.link? c.rsyncCurrent = some m'.rev.dirName ∧
      (m.version age).le (m'.version age) ∧ (m'.session = m.session → m.serial ≤ m'.serial) := by
  obtain ⟨m, a1, a2, a3⟩ := (h.linkBelow hl ho he hm).below t ht
  obtain ⟨m', b1, b2, b3⟩ := Later.link h h' hl ho he hm a1 a3 (a2 ▸ ht)
  refine ⟨m, a1, a2, m', b1, b2, b3, fun hs => ?_⟩
  unfold Version.le Notif.version at b3
  rw [hs] at b3
  simp only at b3
  omega

/-- **C87**, with `--rsync-dir-force-moves`: if there are any files in `current`, then all objects of some version
that the source has announced are there; and at any later time there are no files (while one directory makes
place for another), or all objects of a version that is not older are there. -/
theorem C87_never_back_with_moves [Ext] (age : Uuid → Nat) (c : Config) (base name : Str)
    (i : Version × (Notif → Prop)) (f : FS) (q : Path) (hl : Layout c base name)
    (ho : CleanObjects c.rsyncIncludeHost) (he : c.rsyncEnabled = true) (hm : c.rsyncUseSymlinks = false)
    (h : ForwardLifetime age c base name i f) (hq : f.leaf (c.rsyncCurrent ++ q) ≠ none) :
    ∃ m b, i.2 m ∧ Serves c f c.rsyncCurrent m b ∧ ∀ j g, Later age c base name i f j g →
      (∀ q, g.leaf (c.rsyncCurrent ++ q) = none) ∨
      ∃ m' b', j.2 m' ∧ Serves c g c.rsyncCurrent m' b' ∧ (m.version age).le (m'.version age) ∧
        (m'.session = m.session → m.serial ≤ m'.serial) := by
  rcases (h.moveAhead hl ho he hm).ahead.served with h1 | ⟨m, b, ⟨a1, a2, _⟩, a3⟩
  · exact absurd (h1 q) hq
  refine ⟨m, b, a1, a3, fun j g h' => ?_⟩
  refine (Later.moved h h' hl ho he hm a1 a2 a3).served.imp id ?_
  rintro ⟨m', b', ⟨c1, c2⟩, c3⟩
  refine ⟨m', b', c1, c3, c2, fun hs => ?_⟩
  unfold Version.le Notif.version at c2
  rw [hs] at c2
  simp only at c2
  omega

section
open Demo
set_option maxRecDepth 100000

example := C87_never_back_with_links BitVec.toNat conf base name v1 v2 fs1 fs2 _ layout (cleanObjects _) rfl rfl
  forwardLifetime1 (by decide +kernel : fs1.link? conf.rsyncCurrent = some notif1.rev.dirName) later2

example : fs2.link? conf.rsyncCurrent = some notif2.rev.dirName ∧ notif1.serial < notif2.serial := by
  decide +kernel

example := C87_never_back_with_moves BitVec.toNat confM base name v1 fsM ["a.cer".toList] layoutM
  (cleanObjects _) rfl rfl forwardLifetimeM (by decide +kernel)

/-- And there are later times. -/
example : Later BitVec.toNat confM base name v1 fsM v2 (after confM (envAt 1 notif2) fsM) :=
  History.run (env := envAt 1 notif2) (depth := 5) (History.start ⟨rfl, rfl⟩) announcedRunM2 List.mem_cons_self

/-- **C87, back to RRDP.** From rsync to RRDP a client can go back: when a run is cut off between the two, the
rsync directory is ahead of the notification. -/
theorem C87_refuted_from_rsync_to_rrdp :
    ∃ i f m n, ForwardLifetime BitVec.toNat conf base name i f ∧
      f.link? conf.rsyncCurrent = some (Notif.rev m).dirName ∧ Published conf name f n ∧
      n.session = m.session ∧ n.serial < m.serial :=
  ⟨v2, fsHalf, notif2, notif1, Later.lifetime forwardLifetime1 laterHalf, by decide +kernel,
    ⟨0, by decide +kernel⟩, rfl, by decide⟩

end

end KSync
