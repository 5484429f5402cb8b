import Verif.Lemmas.RsyncClient
import Verif.Props.RsyncHistory
import Verif.Props.Client

/-!
# Clients of the rsync server (property C75)

A client that goes through `current` works in the directory of a revision from then on, while the
installation may go on, any number of times, to later versions.
-/

set_option linter.unusedVariables false

namespace KSync

/-- **C75.** With links: at some time in the life of an installation a client follows `current`
to revision `r`, which is also what the RRDP state says.  Whatever runs are completed, fail or are
interrupted afterwards: as long as they read clock times less than `--cleanup-after` seconds after `t0`,
where no run from then on reads a time before `t0`, all files of that revision are there as the client
found them, times included.

Partial: the source is as in `SourceLife`, and `r` is not among the old revisions in the rsync state
at that time; see `C75_refuted_after_repeated_publication`. -/
theorem C75_revision_stays_partial [Ext] (life : SourceLife) (c : Config) (base name : Str)
    (p0 p : Progress) (f0 f : FS) (r : RsyncRevision) (t0 : Time) (hl : Layout c base name)
    (ho : CleanObjects c.rsyncIncludeHost) (he : c.rsyncEnabled = true)
    (hm : c.rsyncUseSymlinks = true) (h0 : NewLifetime life c base name p0 f0) (ha : InAccord c f0 r)
    (hold : ∀ st, RsyncRecorded c f0 st → ∀ d ∈ st.old, d.revision ≠ r)
    (h : MeanwhileRsync life c base name t0 p0 f0 p f) :
    ∀ q, r.path c <+: q → f.leaf q = f0.leaf q := by
  obtain ⟨hk, hsound⟩ := h0.kept hl ho he
  have hs0 : Since life c r p0 f0 := by
    obtain ⟨⟨s, x, h1, h2, h3, h4⟩, _⟩ := ha
    have hv : r = ⟨x.session, x.serial⟩ := by rw [h3, h4]
    refine ⟨?_, fun s' hs' => ?_, ?_⟩
    · obtain ⟨b, hb, _⟩ := h1
      intro hn
      have hlk := hk.noLink
      unfold FS.read FS.resolve at hb
      unfold FS.link? at hlk
      unfold FS.leaf at hn
      cases hg : f0.get c.rrdpStatePath with
      | none => rw [hg] at hb; cases hb
      | some y =>
        rw [hg] at hb hlk hn
        cases y with
        | file _ _ => cases hn
        | dir => cases hb
        | link _ => cases hlk
    · rw [hs'.unique h1]
      exact ⟨x, h2, by rw [hv]; exact Or.inr ⟨rfl, Nat.le_refl _⟩⟩
    · rw [hv]
      exact ((hk.state s h1).snapshot x h2).2
  have hR : Reading c r t0 f0 f0 :=
    ⟨hk.wf, (hsound hm).clear.state, fun _ _ => rfl, fun st hst d hd hdr => absurd hdr (hold st hst d hd)⟩
  have key : Kept life c base name p f ∧ Since life c r p f ∧ Reading c r t0 f0 f := by
    unfold MeanwhileRsync at h
    induction h with
    | start h => obtain ⟨rfl, rfl⟩ := h; exact ⟨hk, hs0, hR⟩
    | run _ h1 h2 ih =>
      obtain ⟨i1, i2, i3⟩ := ih
      have hc := i1.conds hl (fun _ => ho) h1.1
      exact ⟨run_kept hl (fun _ => ho) i1 h1.1 _ h2, i2.run hl hc i1 h1.1 _ h2,
        run_reading hl hc he hm (i2.not_again i1.noLink i1 h1.1) h1.2 i3 _ h2⟩
  exact key.2.2.tree

section
open Demo Inst
set_option maxRecDepth 100000

theorem Demo.newLifetime1 : NewLifetime life conf base name p1 fs1 :=
  History.run (start := fun _ => Untouched conf) (i := p0) (History.start untouched0) goodRun0 fs1_crash

theorem Demo.meanwhileRsync : MeanwhileRsync life conf base name 0 p1 fs1 p3 fsThen3 := by
  refine History.run (i := p2) (History.run (i := p1) (History.start ⟨rfl, rfl⟩)
    (f' := fsThen2) (depth := 5) (env := envBy (fun _ => 1) notif2) ⟨?_, fun _ => ?_⟩ List.mem_cons_self)
    (f' := fsThen3) (depth := 5) (env := envBy (fun _ => 9) notif3) ⟨?_, fun _ => ?_⟩ List.mem_cons_self
  · exact goodRunBy2 (briskBy _ _) (no304 0 _) (by decide +kernel)
  · exact ⟨by show (0 : Int) ≤ 1; decide, by show (1 : Int) < 0 + 10; decide⟩
  · exact goodRunBy3 (briskBy _ _) (no304 0 _) (by decide +kernel)
  · exact ⟨by show (0 : Int) ≤ 9; decide, by show (9 : Int) < 0 + 10; decide⟩

/-- An rsync state that was read has nothing but what is in the file. -/
theorem Demo.rsyncRecorded_of {f : FS} {st st' : RsyncDirState}
    (h : (f.file? conf.rsyncStatePath).bind Ext.decRsync = some st) (hr : RsyncRecorded conf f st') :
    st' = st := by
  obtain ⟨b, h1, h2⟩ := Option.bind_eq_some_iff.1 h
  exact hr.unique (Or.inl ⟨b, h1, h2⟩)

example : ∀ q, notif1.rev.path conf <+: q → fsThen3.leaf q = fs1.leaf q :=
  C75_revision_stays_partial life conf base name p1 p3 fs1 fsThen3 notif1.rev 0 layout (cleanObjects _)
    rfl rfl newLifetime1 ⟨⟨state1, _, recorded1, rfl, rfl, rfl⟩, by decide +kernel⟩
    (fun st hst d hd => by
      rw [rsyncRecorded_of (st := ⟨some notif1.rev, []⟩) (by decide +kernel) hst] at hd
      cases hd)
    meanwhileRsync

/-- There is something in that directory, and `current` has gone on. -/
example : fs1.file? (notif1.rev.path conf ++ ["a.cer".toList]) = some [1] ∧
    fsThen3.link? conf.rsyncCurrent = some notif3.rev.dirName := by decide +kernel

/-! ### Where the claim fails -/

/-- The second version was published in a run that was cut off, and again in one that was completed at
time 2. -/
def Demo.fsTwice : FS := after conf (envAt 2 notif2) fsHalf

theorem Demo.newLifetimeTwice : NewLifetime life conf base name p2 fsTwice :=
  History.run (i := p2) (History.run (i := p1) newLifetime1 goodRun1' fsHalf_crash) goodRunHalf.good
    List.mem_cons_self

/-- **C75 fails for a revision that was published twice.**  A run is cut off after writing the rsync
state and before writing the RRDP state; the next one publishes the same revision again and thereby
schedules it for removal at time 2, although it is the current one.  At time 12 `current` leads to it
until the third revision is published; that run removes it at once, although the cleanup time is 10
seconds. -/
theorem C75_refuted_after_repeated_publication :
    NewLifetime life conf base name p2 fsTwice ∧
    (fsTwice.link? conf.rsyncCurrent = some notif2.rev.dirName ∧
      fsTwice.file? (notif2.rev.path conf ++ ["a.cer".toList]) = some [2] ∧
      (fsTwice.read conf.rrdpStatePath).bind Ext.decState ≠ none ∧
      fsTwice.file? (conf.notifPath name) = some (Ext.writeNotif notif2)) ∧
    GoodRun life conf base name p2 p3 5 (envBy (fun _ => 12) notif3) fsTwice ∧
    (after conf (envBy (fun _ => 12) notif3) fsTwice).get (notif2.rev.path conf) = none :=
  ⟨newLifetimeTwice, by decide +kernel,
    goodRunBy3 (briskBy _ _) (no304 0 _) (by decide +kernel), by decide +kernel⟩

end

end KSync
