import Verif.Lemmas.Ledger
import Verif.Props.History

/-!
# No published file is forgotten (property C62)
-/

set_option linter.unusedVariables false

namespace KSync

/-- **C62.** Take an installation that starts with nothing, and any number of runs over a source that
names its files sensibly.  `A` collects, for each run that failed or was cut off after it had begun to
publish, the files which the notification of that run names, and the temporary notification file.
Then every file in the RRDP directory other than these is known: it is the notification file, or
belongs to the recorded version, or is scheduled for removal.  So with runs that end well, or end
before they publish anything (`A` is empty then), no file is ever left behind.

Partial: what an interrupted publication has moved stays unknown if the source has moved on before the
next run, see `C62_refuted_after_crash`. -/
theorem C62_nothing_forgotten_partial [Ext] (c : Config) (base name : Str) (A : Path → Prop) (f : FS)
    (hl : Layout c base name) (ho : c.rsyncEnabled = true → CleanObjects c.rsyncIncludeHost)
    (h : Ledger c base name A f) : Accounted c base name A f :=
  (h.booked hl ho).accounted

section

open Demo

set_option maxRecDepth 100000

namespace Demo

theorem soundSource {t : Time} {n : Notif} {fs : FS} (h1 : goodNotifB base name n = true)
    (h2 : listsB n = true) : SoundSource conf base name (envAt t n) fs :=
  ⟨goodSource h1, no304 _ _, fun _ _ h => offers h ▸ (lists_of_check h2).oneHash⟩

theorem run1 : process 5 conf (envAt 0 notif1) (World.start fs0) =
    (.ok (), (process 5 conf (envAt 0 notif1) (World.start fs0)).2) :=
  Prod.ext (by decide +kernel) rfl

theorem unused0 : Unused conf name fs0 := ⟨pristine0, FS.noFiles_of_check (by decide)⟩

theorem ledger1 : Ledger conf base name (fun _ => False) fs1 :=
  .done (.start unused0) (soundSource (by decide) (by decide)) run1

theorem ledger2 : Ledger conf base name (fun _ => False) fs2 :=
  .done ledger1 (soundSource (by decide) (by decide)) run2

/-- The run after the one that was cut off. -/
def fsBeyond : FS := after conf (envAt 2 notif3) fsBetween

theorem runBeyond : process 5 conf (envAt 2 notif3) (World.start fsBetween) =
    (.ok (), (process 5 conf (envAt 2 notif3) (World.start fsBetween)).2) :=
  Prod.ext (by decide +kernel) rfl

theorem ledgerBeyond : Ledger conf base name (fun q => False ∨ q = conf.rrdpDir ++ [name ++ ".tmp".toList] ∨
    Attempted conf base (envAt 1 notif2) fs1 q) fsBeyond :=
  .done (.cut (depth := 5) (f' := fsBetween) ledger1 (soundSource (by decide) (by decide))
    (by decide +kernel)) (soundSource (by decide) (by decide)) runBeyond

end Demo

/-- After two updates there are the notification, the new files and the old snapshot. -/
example := C62_nothing_forgotten_partial conf base name _ fs2 layout (fun _ => cleanObjects _) ledger2

example : fs2.leaf (conf.pubPath "s1".toList) ≠ none ∧ fs2.leaf (conf.pubPath "s2".toList) ≠ none ∧
    fs2.leaf (conf.pubPath "d2".toList) ≠ none := by decide +kernel

example := C62_nothing_forgotten_partial conf base name _ fsBeyond layout (fun _ => cleanObjects _)
  ledgerBeyond

/-- A run in which everything fails leaves no trace, so that nothing needs to be noted down. -/
example : Ledger conf base name (fun _ => False) fs1 :=
  .idle (depth := 5) (env := { envAt 1 notif2 with fault := fun _ => true }) ledger1
    ⟨(soundSource (t := 1) (n := notif2) (by decide) (by decide)).good, no304 1 notif2,
      (soundSource (t := 1) (n := notif2) (by decide) (by decide)).oneHash⟩
    (by decide +kernel) (fun _ _ => rfl) rfl

/-- **C62, refuted.** In general files are left behind.  A run is cut off between writing the
notification and writing the state; before the next run the source moves on.  That run ends well, but
the snapshot published by the one before is neither part of the recorded version nor scheduled for
removal. -/
theorem C62_refuted_after_crash : ∃ (f0 f1 : FS) (env1 env2 : Env) (w : World),
    Ledger conf base name (fun _ => False) f0 ∧ SoundSource conf base name env1 f0 ∧
    f1 ∈ (process 5 conf env1 (World.start f0)).2.crashPoints ∧
    SoundSource conf base name env2 f1 ∧
    process 5 conf env2 (World.start f1) = (.ok (), w) ∧
    ¬ Accounted conf base name (fun _ => False) w.cur := by
  refine ⟨fs1, fsBetween, envAt 1 notif2, envAt 2 notif3, _, ledger1,
    soundSource (by decide) (by decide), by decide +kernel, soundSource (by decide) (by decide),
    runBeyond, fun h => ?_⟩
  have hx : ((fsBeyond.read conf.rrdpStatePath).bind Ext.decState).map (fun s =>
      (s.snapshot.map (fun x => x.relPath), s.deltas.map (fun x => x.relPath),
        s.deprecated.map (fun x => x.path))) =
      some (some "s3".toList, ["d3".toList, "d2".toList], [conf.pubPath "s1".toList]) := by
    decide +kernel
  rw [Option.map_eq_some_iff] at hx
  obtain ⟨s, hs, he⟩ := hx
  rw [Option.bind_eq_some_iff] at hs
  simp only [Prod.mk.injEq] at he
  obtain ⟨e1, e2, e3⟩ := he
  rcases h s (Or.inl hs) (conf.pubPath "s2".toList) (List.prefix_append _ _) (by decide +kernel) with
    h | (⟨x, hx, h⟩ | ⟨d, hd, h⟩) | ⟨d, hd, h⟩ | h
  · exact absurd h (by decide)
  · rw [hx] at e1
    simp only [Option.map_some, Option.some.injEq] at e1
    rw [e1] at h
    exact absurd h (by decide)
  · have := List.mem_map_of_mem (f := fun x : DeltaState => x.relPath) hd
    rw [e2] at this
    simp only [List.mem_cons, List.not_mem_nil, or_false] at this
    rcases this with this | this <;> rw [this] at h <;> exact absurd h (by decide)
  · have := List.mem_map_of_mem (f := fun x : DeprecatedFile => x.path) hd
    rw [e3, List.mem_singleton] at this
    rw [this] at h
    exact absurd h (by decide)
  · exact h

end

end KSync
