import Verif.Lemmas.Fallback
import Verif.Props.History
import Verif.Props.RsyncMoves
import Verif.Props.RsyncLedger

/-!
# Clients that turn from RRDP to rsync (property C78)

`ForwardLifetime`, `Later`, `TimelyLater`, `Published` are defined in `Verif/Spec/Fallback.lean`.
-/

set_option linter.unusedVariables false

namespace KSync

/-- **C78**, with links: if a client has seen the notification `n`, then at that instant and at every
later one `current` is the directory of a version that the source has announced and that is not older
than `n`. Runs may fail or be cut off at any step in between. -/
theorem C78_not_older_with_links [Ext] (age : Uuid → Nat) (c : Config) (base name : Str)
    (i j : Version × (Notif → Prop)) (f g : FS) (n : Notif) (hl : Layout c base name)
    (ho : CleanObjects c.rsyncIncludeHost) (he : c.rsyncEnabled = true) (hm : c.rsyncUseSymlinks = true)
    (h : ForwardLifetime age c base name i f) (hn : Published c name f n)
    (h' : Later age c base name i f j g) :
    ∃ m, j.2 m ∧ (n.version age).le (m.version age) ∧ (m.session = n.session → n.serial ≤ m.serial) ∧
      g.link? c.rsyncCurrent = some m.rev.dirName ∧ servedDir c g = m.rev.path c := by
  obtain ⟨t, hn⟩ := hn
  obtain ⟨n', t', h1, h2, _⟩ := C47_version_never_back age c base name i.1 j.1 f g n t hl (fun _ => ho)
    (History.mono Prod.fst (fun _ _ h => h.1.pristine) (fun _ _ _ _ _ h => h.forward) h)
    (History.mono Prod.fst (fun _ _ h => ⟨by rw [h.1], h.2⟩) (fun _ _ _ _ _ h => h.forward) h') hn
  obtain ⟨m, g1, g2, g3, _⟩ := ((Later.lifetime h h').linkAhead hl ho he hm).ahead n' t' h1
  have h3 := Version.le_trans h2 g3
  refine ⟨m, g1, h3, fun hs => ?_, g2, servedDir_link g2⟩
  unfold Version.le Notif.version at h3
  rw [hs] at h3
  simp only at h3
  omega

/-- **C78**, with `--rsync-dir-force-moves`: then `current` has no files at all (which happens while one
directory makes place for another, see C23 and C54), or it has all objects of the snapshot of a version
that the source has announced and that is not older than `n`. -/
theorem C78_not_older_with_moves [Ext] (age : Uuid → Nat) (c : Config) (base name : Str)
    (i j : Version × (Notif → Prop)) (f g : FS) (n : Notif) (hl : Layout c base name)
    (ho : CleanObjects c.rsyncIncludeHost) (he : c.rsyncEnabled = true) (hm : c.rsyncUseSymlinks = false)
    (h : ForwardLifetime age c base name i f) (hn : Published c name f n)
    (h' : Later age c base name i f j g) :
    (∀ q, g.leaf (c.rsyncCurrent ++ q) = none) ∨
    ∃ m b, j.2 m ∧ (n.version age).le (m.version age) ∧ (m.session = n.session → n.serial ≤ m.serial) ∧
      Serves c g (servedDir c g) m b := by
  obtain ⟨t, hn⟩ := hn
  obtain ⟨n', t', h1, h2, _⟩ := C47_version_never_back age c base name i.1 j.1 f g n t hl (fun _ => ho)
    (History.mono Prod.fst (fun _ _ h => h.1.pristine) (fun _ _ _ _ _ h => h.forward) h)
    (History.mono Prod.fst (fun _ _ h => ⟨by rw [h.1], h.2⟩) (fun _ _ _ _ _ h => h.forward) h') hn
  have ha := ((Later.lifetime h h').moveAhead hl ho he hm).ahead
  refine ha.served.imp id ?_
  rintro ⟨m, b, ⟨g1, _, g2⟩, g3⟩
  have h3 := Version.le_trans h2 (g2 n' t' h1)
  refine ⟨m, b, g1, h3, fun hs => ?_, by rw [ha.servedDir]; exact g3⟩
  unfold Version.le Notif.version at h3
  rw [hs] at h3
  simp only at h3
  omega

/-- **C78**, with links and runs that are in time (`TimelyRun`, see `C28_current_kept_partial`): the
directory that clients are served has a file for each object of the snapshot of a version that is not
older than `n`. -/
theorem C78_files_with_links [Ext] (life : SourceLife) (c : Config) (base name : Str)
    (p p' : Progress) (f g : FS) (n : Notif) (hl : Layout c base name)
    (ho : CleanObjects c.rsyncIncludeHost) (he : c.rsyncEnabled = true) (hm : c.rsyncUseSymlinks = true)
    (h : TimelyLifetime life c base name p f) (hn : Published c name f n)
    (h' : TimelyLater life c base name p f p' g) :
    ∃ r b, (n.version life.age).le (r.version life.age) ∧ IsSnapshotOf life r b ∧
      FilesThere g (servedDir c g) c.rsyncIncludeHost (Ext.streamSnapshot b).1 ∧
      (InAccord c g r → HasObjects g (servedDir c g) c.rsyncIncludeHost (Ext.streamSnapshot b).1) := by
  obtain ⟨t, hn⟩ := hn
  obtain ⟨n', t', h1, h2, _⟩ := C47_version_never_back life.age c base name p.version p'.version f g n t hl
    (fun _ => ho)
    (History.mono Progress.version (fun _ _ h => h.pristine) (fun _ _ _ _ _ h => h.good.forward) h)
    (History.mono Progress.version (fun _ _ h => ⟨by rw [h.1], h.2⟩) (fun _ _ _ _ _ h => h.good.forward) h') hn
  have hg : TimelyLifetime life c base name p' g := by
    clear h1 h2
    induction h' with
    | start hs => obtain ⟨rfl, rfl⟩ := hs; exact h
    | run _ h1 h2 ih => exact ih.run h1 h2
  obtain ⟨m, _, g2, g3, _⟩ := (hg.linkAhead hl ho he hm).ahead n' t' h1
  rcases (hg.kept hl ho he hm).serving with k1 | ⟨r, b, k1, k2, k3, k4⟩
  · rw [FS.link?_eq, k1] at g2
    cases g2
  · have : r = m.rev := RsyncRevision.dirName_inj (Option.some.inj (k1.symm.trans g2))
    subst this
    refine ⟨m.rev, b, Version.le_trans h2 g3, k2, ?_, fun ha => ?_⟩
    · rw [servedDir_link k1]; exact k3
    · rw [servedDir_link k1]; exact k4 ha

/-! ## The hypotheses can be met -/

section
open Demo
set_option maxRecDepth 100000

namespace Demo

/-- The source is at the first version, or at the second. -/
def v1 : Version × (Notif → Prop) := ((1, 1), early)
def v2 : Version × (Notif → Prop) := ((1, 2), early)

theorem announcedRun1 : AnnouncedRun BitVec.toNat conf base name ((0, 0), early) v1 5 (envAt 0 notif1) fs0 :=
  ⟨forward1, soundSource (by decide) (by decide), by
    rintro n (h | h)
    · exact h
    · exact Or.inl (announced (c := conf) rfl rfl h)⟩

theorem announcedRun2 : AnnouncedRun BitVec.toNat conf base name v1 v2 5 (envAt 1 notif2) fs1 :=
  ⟨forward2, soundSource (by decide) (by decide), by
    rintro n (h | h)
    · exact h
    · exact Or.inr (announced (c := conf) rfl rfl h)⟩

theorem forwardLifetime1 : ForwardLifetime BitVec.toNat conf base name v1 fs1 :=
  History.run (History.start ⟨unused0, rsyncUnused0⟩) announcedRun1 fs1_crash

theorem published1 : Published conf name fs1 notif1 := ⟨0, by decide +kernel⟩

/-- The second run is cut off before it writes the notification. -/
theorem laterHalf : Later BitVec.toNat conf base name v1 fs1 v2 fsHalf :=
  History.run (History.start ⟨rfl, rfl⟩) announcedRun2 fsHalf_crash

theorem later2 : Later BitVec.toNat conf base name v1 fs1 v2 fs2 :=
  History.run (History.start ⟨rfl, rfl⟩) announcedRun2 fs2_crash

theorem announcedRunM1 :
    AnnouncedRun BitVec.toNat confM base name ((0, 0), early) v1 5 (envAt 0 notif1) fs0 :=
  ⟨⟨goodSourceM (by decide), Or.inl (by decide), fun _ _ h => offersM h ▸ Or.inl (by decide),
    fun _ _ h => offersM h ▸ Or.inr (by decide)⟩, soundSourceM (by decide) (by decide), by
    rintro n (h | h)
    · exact h
    · exact Or.inl (announcesM h)⟩

theorem announcedRunM2 : AnnouncedRun BitVec.toNat confM base name v1 v2 5 (envAt 1 notif2) fsM :=
  ⟨⟨goodSourceM (by decide), Or.inr (by decide), fun _ _ h => offersM h ▸ Or.inr (by decide),
    fun _ _ h => offersM h ▸ Or.inr (by decide)⟩, soundSourceM (by decide) (by decide), by
    rintro n (h | h)
    · exact h
    · exact Or.inr (announcesM h)⟩

theorem forwardLifetimeM : ForwardLifetime BitVec.toNat confM base name v1 fsM :=
  History.run (env := envAt 0 notif1) (depth := 5)
    (History.start ⟨⟨pristineM, unused0.empty⟩, rsyncUnusedM⟩) announcedRunM1 List.mem_cons_self

end Demo

example := C78_not_older_with_links BitVec.toNat conf base name v1 v2 fs1 fsHalf notif1 layout
  (cleanObjects _) rfl rfl forwardLifetime1 published1 laterHalf

example := C78_not_older_with_links BitVec.toNat conf base name v1 v2 fs1 fs2 notif1 layout
  (cleanObjects _) rfl rfl forwardLifetime1 published1 later2

/-- In between the rsync directory is ahead. -/
example : fsHalf.link? conf.rsyncCurrent = some notif2.rev.dirName ∧
    fsHalf.file? (conf.notifPath name) = some (Ext.writeNotif notif1) := by decide +kernel

example := C78_not_older_with_moves BitVec.toNat confM base name v1 v2 fsM
  (after confM (envAt 1 notif2) fsM) notif1 layoutM (cleanObjects _) rfl rfl forwardLifetimeM
  ⟨0, by decide +kernel⟩
  (History.run (env := envAt 1 notif2) (depth := 5) (History.start ⟨rfl, rfl⟩) announcedRunM2
    List.mem_cons_self)

example := C78_files_with_links life conf base name p1 p2 fs1 fsHalf notif1 layout (cleanObjects _) rfl rfl
  timely1 published1 (History.run (History.start ⟨rfl, rfl⟩)
    (timely_of_check goodRun1' (by decide +kernel)) fsHalf_crash)

end

end KSync
