import Verif.Lemmas.RsyncLedger
import Verif.Props.RsyncMoves

/-!
# No directory of an rsync revision is forgotten (property C65)

`RsyncLedger`, `RsyncAccounted` are defined in `Verif/Spec/RsyncLedger.lean`.
-/

set_option linter.unusedVariables false

namespace KSync

/-- **C65.** Take an installation that starts with nothing, with links or with moves, and any number of
runs over a source that names its files sensibly.  `A` collects, for each run that failed or was cut off
after it had begun with the rsync directory, what is in the directory of the revision of that run, and
the temporary link.  Then every other file or link in the rsync directory is in `current` or in the
directory of a revision that the rsync state has as current or old, if the state can be read.  So with
runs that end well, or end before the rsync directory is touched (`A` is empty then), no directory is
ever left behind.

Partial: what an interrupted run has written stays unknown if the source has moved on before the next
run, see `C65_refuted_after_crash`. -/
theorem C65_nothing_forgotten_partial [Ext] (c : Config) (base name : Str) (A : Path → Prop) (f : FS)
    (hl : Layout c base name) (ho : CleanObjects c.rsyncIncludeHost) (he : c.rsyncEnabled = true)
    (h : RsyncLedger c base name A f) : RsyncAccounted c A f :=
  (h.held hl ho he).2

section

open Demo

set_option maxRecDepth 100000

namespace Demo

theorem rsyncUnused0 : RsyncUnused conf fs0 := rsyncUnusedM

theorem rsyncLedger1 : RsyncLedger conf base name (fun _ => False) fs1 :=
  .done (.start unused0 rsyncUnused0) (soundSource (by decide) (by decide)) run1

theorem rsyncLedger2 : RsyncLedger conf base name (fun _ => False) fs2 :=
  .done rsyncLedger1 (soundSource (by decide) (by decide)) run2

theorem rsyncLedgerM : RsyncLedger confM base name (fun _ => False) fsM :=
  .done (depth := 5) (env := envAt 0 notif1) (.start ⟨pristineM, unused0.empty⟩ rsyncUnusedM)
    (soundSourceM (by decide) (by decide)) (Prod.ext (by decide +kernel) rfl)

theorem rsyncLedgerM2 : RsyncLedger confM base name (fun _ => False)
    (after confM (envAt 1 notif2) fsM) :=
  .done (depth := 5) (env := envAt 1 notif2) rsyncLedgerM
    (soundSourceM (by decide) (by decide)) (Prod.ext (by decide +kernel) rfl)

/-- The second run, cut off when the directory of the new revision has been written. -/
def fsWritten : FS := (((process 5 conf (envAt 1 notif2) (World.start fs1)).2.crashPoints.filter
  (fun f => (f.file? (notif2.rev.path conf ++ ["a.cer".toList])) == some [2] &&
    f.link? conf.rsyncCurrent == some notif1.rev.dirName)).head?).getD fs0

theorem fsWritten_crash :
    fsWritten ∈ (process 5 conf (envAt 1 notif2) (World.start fs1)).2.crashPoints := by decide +kernel

/-- The next run, when the source is one version further. -/
def fsOrphan : FS := after conf (envAt 2 notif3) fsWritten

theorem runOrphan : process 5 conf (envAt 2 notif3) (World.start fsWritten) =
    (.ok (), (process 5 conf (envAt 2 notif3) (World.start fsWritten)).2) :=
  Prod.ext (by decide +kernel) rfl

theorem rsyncLedgerOrphan : RsyncLedger conf base name (fun q => False ∨
    q = conf.rsyncDir ++ ["current.tmp".toList] ∨
    ∃ n, Announces conf base name (envAt 1 notif2) fs1 n ∧ n.rev.path conf <+: q) fsOrphan :=
  .done (.cut (depth := 5) rsyncLedger1 (soundSource (by decide) (by decide)) fsWritten_crash)
    (soundSource (by decide) (by decide)) runOrphan

end Demo

/-- After two updates, with links and with moves, there are two revisions. -/
example := C65_nothing_forgotten_partial conf base name _ fs2 layout (cleanObjects _) rfl rsyncLedger2

example := C65_nothing_forgotten_partial confM base name _ _ layoutM (cleanObjects _) rfl rsyncLedgerM2

example : (fs2.file? (notif1.rev.path conf ++ ["a.cer".toList])).isSome ∧
    (fs2.file? (notif2.rev.path conf ++ ["a.cer".toList])).isSome ∧
    ((after confM (envAt 1 notif2) fsM).file? (notif1.rev.path confM ++ ["a.cer".toList])).isSome ∧
    ((after confM (envAt 1 notif2) fsM).file? (confM.rsyncCurrent ++ ["a.cer".toList])).isSome := by
  decide +kernel

example := C65_nothing_forgotten_partial conf base name _ fsOrphan layout (cleanObjects _) rfl
  rsyncLedgerOrphan

/-- A run in which everything fails leaves no trace, so that nothing needs to be noted down. -/
example : RsyncLedger conf base name (fun _ => False) fs1 :=
  .idle (depth := 5) (env := { envAt 1 notif2 with fault := fun _ => true }) rsyncLedger1
    ⟨(soundSource (t := 1) (n := notif2) (by decide) (by decide)).good, no304 1 notif2,
      (soundSource (t := 1) (n := notif2) (by decide) (by decide)).oneHash⟩
    (by decide +kernel) (fun _ _ => rfl)

/-- **C65, refuted.** In general a directory is left behind.  A run is cut off when it has written the
directory of a new revision; before the next run the source moves on.  That run ends well, but the state
it leaves does not mention the revision, so that no run will ever remove it. -/
theorem C65_refuted_after_crash : ∃ (f0 f1 : FS) (env1 env2 : Env) (w : World),
    RsyncLedger conf base name (fun _ => False) f0 ∧ SoundSource conf base name env1 f0 ∧
    f1 ∈ (process 5 conf env1 (World.start f0)).2.crashPoints ∧
    SoundSource conf base name env2 f1 ∧
    process 5 conf env2 (World.start f1) = (.ok (), w) ∧
    ¬ RsyncAccounted conf (fun _ => False) w.cur := by
  refine ⟨fs1, fsWritten, envAt 1 notif2, envAt 2 notif3, _, rsyncLedger1,
    soundSource (by decide) (by decide), fsWritten_crash, soundSource (by decide) (by decide),
    runOrphan, fun h => ?_⟩
  have hx : (fsOrphan.file? conf.rsyncStatePath).bind Ext.decRsync =
      some ⟨some notif3.rev, [⟨2, notif1.rev⟩]⟩ := by decide +kernel
  rw [Option.bind_eq_some_iff] at hx
  obtain ⟨b, h1, h2⟩ := hx
  have hne : notif2.rev ≠ notif1.rev ∧ notif2.rev ≠ notif3.rev := by decide
  rcases h _ (Or.inl ⟨b, h1, h2⟩) (notif2.rev.path conf ++ ["a.cer".toList])
    ((List.prefix_append _ _).trans (List.prefix_append _ _)) (by decide +kernel) with
    h | ⟨r, h | ⟨d, hd, h⟩, hr⟩ | h
  · exact rev_not_current (List.prefix_append _ _) h
  · injection h with h
    exact hne.2 (by rw [h]; exact rev_apart hr (List.prefix_append _ _) |>.symm)
  · rw [List.mem_singleton] at hd
    rw [hd] at h
    exact hne.1 (by rw [show notif1.rev = r from h]; exact rev_apart hr (List.prefix_append _ _) |>.symm)
  · exact h

end

end KSync
