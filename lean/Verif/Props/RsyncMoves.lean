import Verif.Lemmas.RsyncMoves
import Verif.Props.RsyncHistory
import Verif.Props.Ledger

/-!
# The rsync directory over many runs, without links (property C28)

`AnyLifetime`, `Serves`, `RsyncUnused` are defined in `Verif/Spec/RsyncHistory.lean`.
-/

set_option linter.unusedVariables false

namespace KSync

/-- **C28**, over histories with `--rsync-dir-force-moves`: at every instant in the life of an
installation, whatever was cut off or failed, however often a revision was published again and however
late the runs start, there are no files in `current`, or `current` is a directory with all objects of the
snapshot of a version that was announced. So the cleanup never takes a file from it. -/
theorem C28_current_kept_with_moves [Ext] (c : Config) (base name : Str) (B : Notif → Prop) (f : FS)
    (hl : Layout c base name) (ho : CleanObjects c.rsyncIncludeHost) (he : c.rsyncEnabled = true)
    (hm : c.rsyncUseSymlinks = false) (h : AnyLifetime c base name B f) :
    f.leaf c.rsyncCurrent = none ∧
    ((∀ q, f.leaf (c.rsyncCurrent ++ q) = none) ∨
      ∃ n b, B n ∧ Serves c f (servedDir c f) n b) := by
  have := h.moveServed hl ho he hm
  refine ⟨this.current, this.served.imp id ?_⟩
  rintro ⟨n, b, h1, h2⟩
  exact ⟨n, b, h1, by rw [this.servedDir]; exact h2⟩

/-- **C28**, with `--rsync-dir-force-moves`: after a run that published something, at any point in such a
life, `current` has all objects of the snapshot of the version announced. -/
theorem C28_published_with_moves [Ext] (c : Config) (base name : Str) (B : Notif → Prop) (f : FS)
    (depth : Nat) (env : Env) (w' : World)
    (hl : Layout c base name) (ho : CleanObjects c.rsyncIncludeHost) (he : c.rsyncEnabled = true)
    (hm : c.rsyncUseSymlinks = false) (h : AnyLifetime c base name B f)
    (hs : SoundSource c base name env f)
    (hok : process depth c env (World.start f) = (.ok (), w')) : w'.crashPoints = [f] ∨
      ∃ n b, Announces c base name env f n ∧ Serves c w'.cur (servedDir c w'.cur) n b := by
  obtain ⟨A, hA⟩ := h.ledger
  have hb := hA.booked hl (fun _ => ho)
  have hv := (h.moveServed hl ho he hm).mono (B' := fun n => B n ∨ Announces c base name env f n)
    (fun n h => Or.inl h)
  have hc := hb.conds hl (fun _ => ho) hs
  have hv' := hv.run (f := w'.cur) (depth := depth) hl ho he hm hc (hb.clean hs) (fun n h => Or.inr h)
    (by rw [hok]; exact List.mem_cons_self)
  rcases hv.after hl ho he hm hc (hb.clean hs) (fun n h => Or.inr h) hok with h1 | ⟨n, b, h1, h2⟩
  · exact Or.inl h1
  · exact Or.inr ⟨n, b, h1, by rw [hv'.servedDir]; exact h2⟩

/-! ## The hypotheses can be met -/

section
open Demo
set_option maxRecDepth 100000

namespace Demo

theorem soundSourceM {t : Time} {n : Notif} {fs : FS} (h1 : goodNotifB base name n = true)
    (h2 : listsB n = true) : SoundSource confM base name (envAt t n) fs :=
  ⟨goodSourceM h1, no304 _ _, fun _ _ h => offersM h ▸ (lists_of_check h2).oneHash⟩

theorem rsyncUnusedM : RsyncUnused confM fs0 := by
  rintro q (h | rfl)
  · exact FS.noFiles_of_check (by decide) q h
  · decide

theorem announcesM {t : Time} {n n' : Notif} {fs : FS}
    (h : Announces confM base name (envAt t n) fs n') : n' = n :=
  announced (c := confM) rfl rfl h

/-- One of the first two versions. -/
def early (n : Notif) : Prop := n = notif1 ∨ n = notif2

theorem anyLifetimeM : AnyLifetime confM base name early fsM :=
  History.run (i := early) (env := envAt 0 notif1) (depth := 5)
    (History.start ⟨⟨pristineM, unused0.empty⟩, rsyncUnusedM⟩)
    ⟨soundSourceM (by decide) (by decide), by
      rintro n (h | h)
      · exact h
      · exact Or.inl (announcesM h)⟩ List.mem_cons_self

/-- The second run, cut off between the two moves. -/
def fsAway : FS := (((process 5 confM (envAt 1 notif2) (World.start fsM)).2.crashPoints.filter
  (fun f => (f.get (notif1.rev.path confM)).isSome && (f.get confM.rsyncCurrent).isNone)).head?).getD fs0

theorem anyLifetimeAway : AnyLifetime confM base name early fsAway :=
  anyLifetimeM.run (env := envAt 1 notif2) (depth := 5)
    ⟨soundSourceM (by decide) (by decide), by
      rintro n (h | h)
      · exact h
      · exact Or.inr (announcesM h)⟩ (by decide +kernel)

/-- A third run puts the second version in place. -/
def fsAwayBack : FS := after confM (envAt 50 notif2) fsAway

theorem anyLifetimeBack : AnyLifetime confM base name early fsAwayBack :=
  anyLifetimeAway.run (env := envAt 50 notif2) (depth := 5)
    ⟨soundSourceM (by decide) (by decide), by
      rintro n (h | h)
      · exact h
      · exact Or.inr (announcesM h)⟩ List.mem_cons_self

end Demo

example := C28_current_kept_with_moves confM base name early fsAwayBack layoutM (cleanObjects _) rfl rfl
  anyLifetimeBack

example := C28_published_with_moves confM base name early fsAway 5 (envAt 50 notif2) _ layoutM
  (cleanObjects _) rfl rfl anyLifetimeAway (soundSourceM (by decide) (by decide))
  (Prod.ext (by decide +kernel) rfl)

example : fsM.file? (confM.rsyncCurrent ++ ["a.cer".toList]) = some [1] ∧
    fsAway.get confM.rsyncCurrent = none ∧
    fsAwayBack.file? (confM.rsyncCurrent ++ ["a.cer".toList]) = some [2] := by
  decide +kernel

end

end KSync
