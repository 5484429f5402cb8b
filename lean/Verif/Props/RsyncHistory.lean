import Verif.Lemmas.RsyncHistory
import Verif.Props.Restart

/-!
# The rsync directory over many runs (property C28)

`TimelyLifetime`, `TimelyRun`, `IsSnapshotOf`, `FilesThere`, `InAccord` are defined in
`Verif/Spec/RsyncHistory.lean`.
-/

set_option linter.unusedVariables false

namespace KSync

/-- **C28**, over histories: with links, at every instant in the life of an installation, whatever was
cut off or failed and however often a revision was published again, there is nothing in `current` or it
points to the directory of a revision in which there is a file for each object of that revision's
snapshot. If the RRDP state is of the same version as `current` then the files have the right content.

Partial: runs are in time (`TimelyRun`); without that it is false, see
`C28_refuted_for_repeated_publication`. Conditions as for `C01_files_in_place_partial`. -/
theorem C28_current_kept_partial [Ext] (life : SourceLife) (c : Config) (base name : Str) (p : Progress)
    (f : FS) (hl : Layout c base name) (ho : CleanObjects c.rsyncIncludeHost)
    (he : c.rsyncEnabled = true) (hm : c.rsyncUseSymlinks = true)
    (h : TimelyLifetime life c base name p f) :
    f.leaf c.rsyncCurrent = none ∨
    ∃ r b, f.link? c.rsyncCurrent = some r.dirName ∧ IsSnapshotOf life r b ∧
      FilesThere f (servedDir c f) c.rsyncIncludeHost (Ext.streamSnapshot b).1 ∧
      (InAccord c f r → HasObjects f (servedDir c f) c.rsyncIncludeHost (Ext.streamSnapshot b).1) := by
  rcases (h.kept hl ho he hm).serving with h1 | ⟨r, b, h1, h2, h3, h4⟩
  · exact Or.inl h1
  · refine Or.inr ⟨r, b, h1, h2, ?_, fun ha => ?_⟩
    · rw [servedDir_link h1]; exact h3
    · rw [servedDir_link h1]; exact h4 ha

/-- **C28**: a run that starts with the RRDP state and `current` of the same version, at any point in
such a life: at every instant `current` points to that revision or the newly announced one, and all
objects of its snapshot are there with the right content. And after a run that published something,
however it started, they are. -/
theorem C28_content_kept_partial [Ext] (life : SourceLife) (c : Config) (base name : Str)
    (p p' : Progress) (fs : FS) (depth : Nat) (env : Env) (hl : Layout c base name)
    (ho : CleanObjects c.rsyncIncludeHost) (he : c.rsyncEnabled = true) (hm : c.rsyncUseSymlinks = true)
    (h : TimelyLifetime life c base name p fs) (hr : TimelyRun life c base name p p' depth env fs) :
    (∀ r, InAccord c fs r → ∀ f ∈ (process depth c env (World.start fs)).2.crashPoints,
      ∃ r' b, f.link? c.rsyncCurrent = some r'.dirName ∧ IsSnapshotOf life r' b ∧
        HasObjects f (servedDir c f) c.rsyncIncludeHost (Ext.streamSnapshot b).1 ∧
        (r' = r ∨ ∃ n, Announces c base name env fs n ∧ r' = n.rev)) ∧
    ∀ w', process depth c env (World.start fs) = (.ok (), w') → w'.crashPoints = [fs] ∨
      ∃ n b, Announces c base name env fs n ∧ w'.cur.link? c.rsyncCurrent = some n.rev.dirName ∧
        IsSnapshotOf life n.rev b ∧
        HasObjects w'.cur (servedDir c w'.cur) c.rsyncIncludeHost (Ext.streamSnapshot b).1 := by
  have hk := h.kept hl ho he hm
  refine ⟨fun r ha f hf => ?_, fun w' hw => ?_⟩
  · obtain ⟨r', b, h1, h2, h3, h4⟩ := hk.exact hl ho he hm hr ha hf
    exact ⟨r', b, h1, h2, by rw [servedDir_link h1]; exact h3, h4⟩
  · have hwf : w'.cur.WF := (run_kept hl (fun _ => ho) hk.kept hr.good w'.cur (by
      rw [hw]; exact List.mem_cons_self)).wf
    rcases (hk.instants hl ho he hm hr).2 w' hw hwf with h1 | ⟨n, h1⟩
    · exact Or.inl h1
    · obtain ⟨b, h2, h3, h4⟩ := h1.snapshotOf hr.good
      exact Or.inr ⟨n, b, h1.1, h2, h3, by rw [servedDir_link h2]; exact h4.1⟩

/-! ## The hypotheses can be met -/

section
open Demo
set_option maxRecDepth 100000

namespace Demo

/-- The rsync state in `f` lets a run at time `t` be in time. -/
def timelyB (f : FS) (t : Time) : Bool :=
  match f.file? conf.rsyncStatePath with
  | none => true
  | some b =>
    match Ext.decRsync b with
    | none => true
    | some st => st.old.all (fun d => decide (st.current ≠ some d.revision) || decide (t < d.since + 10))

theorem timely_of_check {f : FS} {t : Time} {n : Notif} {p p' : Progress}
    (hr : GoodRun life conf base name p p' 5 (envAt t n) f) (h : timelyB f t = true) :
    TimelyRun life conf base name p p' 5 (envAt t n) f := by
  refine ⟨hr, ?_⟩
  rintro st r (⟨b, h1, h2⟩ | ⟨_, rfl⟩) h3 d hd h4 k
  · unfold timelyB at h
    rw [h1] at h
    dsimp only at h
    rw [h2] at h
    have := List.all_eq_true.1 h d hd
    rw [Bool.or_eq_true] at this
    rcases this with h5 | h5
    · exact absurd (h4 ▸ h3) (of_decide_eq_true h5)
    · exact of_decide_eq_true h5
  · cases h3

theorem timely1 : TimelyLifetime life conf base name p1 fs1 :=
  History.run (start := fun _ => Untouched conf) (i := p0) (History.start untouched0)
    (timely_of_check goodRun0 (by decide +kernel)) fs1_crash

theorem timelyHalf : TimelyLifetime life conf base name p2 fsHalf :=
  timely1.run (timely_of_check goodRun1' (by decide +kernel)) fsHalf_crash

/-- The same revision is published again, and that run is cut off at the same place. -/
def fsHalf2 : FS :=
  ((process 5 conf (envAt 2 notif2) (World.start fsHalf)).2.crashPoints.find? (fun f =>
    decide (f.leaf (conf.notifPath name) = fs1.leaf (conf.notifPath name)))).getD fs0

theorem fsHalf2_crash :
    fsHalf2 ∈ (process 5 conf (envAt 2 notif2) (World.start fsHalf)).2.crashPoints := by
  decide +kernel

theorem timelyHalf2 : TimelyLifetime life conf base name p2 fsHalf2 :=
  timelyHalf.run (timely_of_check goodRunHalf.good (by decide +kernel)) fsHalf2_crash

theorem goodRunHalf2 : GoodRun life conf base name p2 p2 5 (envAt 3 notif2) fsHalf2 :=
  { source := goodSource (by decide)
    later := goodRunHalf.good.later
    lists := fun _ _ h => offers h ▸ lists_of_check (by decide)
    notBefore := by
      intro _ _ h
      rw [offers h]
      refine Or.inr ⟨by decide, by decide, fun d hd => ?_⟩
      rw [show notif2.deltas = [⟨2, uri "d2", [2]⟩] from rfl, List.mem_singleton] at hd
      rw [hd]; decide
    notAfter := fun _ _ h => offers h ▸ goodRun1'.notAfter none _ 
      ⟨.uri (uri "n") false, _, none, resolve_locates.1 rfl, ⟨0, .absent, rfl, Or.inl ⟨rfl, rfl⟩⟩,
        Ext.parse_write notif2⟩
    no304 := no304 _ _
    limit := nofun
    brisk := brisk _ _
    moves := Or.inl (by decide +kernel) }

end Demo

example := C28_current_kept_partial life conf base name p2 fsHalf2 layout (cleanObjects _) rfl rfl timelyHalf2

/-- There the revision that is current is scheduled for removal as well. -/
example : (fsHalf2.file? conf.rsyncStatePath).bind Ext.decRsync =
    some ⟨some notif2.rev, [⟨1, notif1.rev⟩, ⟨2, notif2.rev⟩]⟩ ∧
    fsHalf2.link? conf.rsyncCurrent = some notif2.rev.dirName := by decide +kernel

example := C28_content_kept_partial life conf base name p2 p2 fsHalf2 5 (envAt 3 notif2) layout
  (cleanObjects _) rfl rfl timelyHalf2 (timely_of_check goodRunHalf2 (by decide +kernel))

example : InAccord conf fs1 notif1.rev :=
  ⟨⟨state1, _, recorded1, rfl, rfl, rfl⟩, by decide +kernel⟩

end

end KSync
