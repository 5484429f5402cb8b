import Verif.Lemmas.RsyncExact
import Verif.Lemmas.Lossless
import Verif.Props.RsyncHistory

/-!
# What is served over rsync is exactly the snapshot, over many runs (properties C24 and C67)

`NewLifetime`, `TimelyLifetime`, `OnlyObjects`, `OneSnapshot`, `IsSnapshotOf`, `InAccord` are defined in
`Verif/Spec/RsyncHistory.lean`.
-/

set_option linter.unusedVariables false

namespace KSync

/-- **C24**, over histories: with links, at every instant in the life of an installation, whatever was
cut off or failed before, in whatever directory `current` points to there is nothing but objects of the
snapshot of that revision. -/
theorem C24_nothing_else [Ext] (life : SourceLife) (c : Config) (base name : Str) (p : Progress) (f : FS)
    (r : RsyncRevision) (b : Bytes) (hl : Layout c base name) (ho : CleanObjects c.rsyncIncludeHost)
    (he : c.rsyncEnabled = true) (hm : c.rsyncUseSymlinks = true) (h : NewLifetime life c base name p f)
    (h1 : OneSnapshot life) (hc : f.link? c.rsyncCurrent = some r.dirName) (hb : IsSnapshotOf life r b) :
    OnlyObjects f (servedDir c f) c.rsyncIncludeHost (Ext.streamSnapshot b).1 := by
  rw [servedDir_link hc]
  exact (h.only hl ho he hm).2.objects h1 hb

/-- **C24**, over histories: at every instant in the life of an installation whose runs are in time, if
the RRDP state is of the same version as `current` then what is served is exactly the snapshot of that
version: all of its objects with the right content, and nothing else. -/
theorem C24_exact_over_histories [Ext] (life : SourceLife) (c : Config) (base name : Str) (p : Progress)
    (f : FS) (r : RsyncRevision) (hl : Layout c base name) (ho : CleanObjects c.rsyncIncludeHost)
    (he : c.rsyncEnabled = true) (hm : c.rsyncUseSymlinks = true)
    (h : TimelyLifetime life c base name p f) (h1 : OneSnapshot life) (ha : InAccord c f r) :
    ∃ b, IsSnapshotOf life r b ∧
      HasObjects f (servedDir c f) c.rsyncIncludeHost (Ext.streamSnapshot b).1 ∧
      OnlyObjects f (servedDir c f) c.rsyncIncludeHost (Ext.streamSnapshot b).1 := by
  rcases (h.kept hl ho he hm).serving with h2 | ⟨r', b, h2, h3, _, h4⟩
  · have := ha.2
    unfold FS.leaf at h2
    unfold FS.link? at this
    split at this
    · rename_i hg; rw [hg] at h2; cases h2
    · cases this
  · have : r' = r := RsyncRevision.dirName_inj (Option.some.inj (h2.symm.trans ha.2))
    subst this
    refine ⟨b, h3, ?_, C24_nothing_else life c base name p f r' b hl ho he hm h.newLifetime h1 h2 h3⟩
    rw [servedDir_link h2]
    exact h4 ha

/-- **C24**, over histories: and so it is after every run that published something, however the
installation came to be as it is. -/
theorem C24_exact_after_any_run [Ext] (life : SourceLife) (c : Config) (base name : Str)
    (p p' : Progress) (fs : FS) (depth : Nat) (env : Env) (w' : World) (hl : Layout c base name)
    (ho : CleanObjects c.rsyncIncludeHost) (he : c.rsyncEnabled = true) (hm : c.rsyncUseSymlinks = true)
    (h : TimelyLifetime life c base name p fs) (hr : TimelyRun life c base name p p' depth env fs)
    (h1 : OneSnapshot life) (hw : process depth c env (World.start fs) = (.ok (), w')) :
    w'.crashPoints = [fs] ∨
    ∃ n b, Announces c base name env fs n ∧ w'.cur.link? c.rsyncCurrent = some n.rev.dirName ∧
      IsSnapshotOf life n.rev b ∧
      HasObjects w'.cur (servedDir c w'.cur) c.rsyncIncludeHost (Ext.streamSnapshot b).1 ∧
      OnlyObjects w'.cur (servedDir c w'.cur) c.rsyncIncludeHost (Ext.streamSnapshot b).1 := by
  rcases (C28_content_kept_partial life c base name p p' fs depth env hl ho he hm h hr).2 w' hw with
    h2 | ⟨n, b, h2, h3, h4, h5⟩
  · exact Or.inl h2
  · refine Or.inr ⟨n, b, h2, h3, h4, h5, ?_⟩
    have hn : TimelyLifetime life c base name p' w'.cur :=
      History.run h hr (by rw [hw]; exact List.mem_cons_self)
    exact C24_nothing_else life c base name p' w'.cur n.rev b hl ho he hm hn.newLifetime h1 h3 h4

/-- **C67.** Two servers that follow the same source, each with its own history of runs, failures and
crashes, its own directories and its own settings (but the one for host names in paths): when both are
in accord with the same version, the trees they serve over rsync have the same files with the same
content. -/
theorem C67_same_tree [Ext] (life : SourceLife) (c c' : Config) (base name name' base' : Str)
    (p p' : Progress) (f f' : FS) (r : RsyncRevision) (hl : Layout c base name)
    (hl' : Layout c' base' name') (ho : CleanObjects c.rsyncIncludeHost) (he : c.rsyncEnabled = true)
    (he' : c'.rsyncEnabled = true) (hm : c.rsyncUseSymlinks = true) (hm' : c'.rsyncUseSymlinks = true)
    (hh : c.rsyncIncludeHost = c'.rsyncIncludeHost) (h : TimelyLifetime life c base name p f)
    (h' : TimelyLifetime life c' base' name' p' f') (h1 : OneSnapshot life) (ha : InAccord c f r)
    (ha' : InAccord c' f' r) (q : Path) :
    f.file? (servedDir c f ++ q) = f'.file? (servedDir c' f' ++ q) ∧
    (f.leaf (servedDir c f ++ q) = none ↔ f'.leaf (servedDir c' f' ++ q) = none) := by
  obtain ⟨b, hb, h2, h3⟩ := C24_exact_over_histories life c base name p f r hl ho he hm h h1 ha
  obtain ⟨b', hb', h2', h3'⟩ := C24_exact_over_histories life c' base' name' p' f' r hl' (hh ▸ ho) he' hm'
    h' h1 ha'
  have : b = b' := by
    obtain ⟨⟨p1, h4⟩, _⟩ := hb
    obtain ⟨⟨p2, h5⟩, _⟩ := hb'
    exact h1 _ _ _ _ _ _ h4 h5
  subst this
  rw [← hh] at h2' h3'
  match h4 : lastObject c.rsyncIncludeHost (Ext.streamSnapshot b).1 q with
  | some e =>
    obtain ⟨t, h5⟩ := h2 q e h4
    obtain ⟨t', h5'⟩ := h2' q e h4
    refine ⟨?_, by rw [h5, h5']; simp⟩
    rw [FS.file?_some.2 ⟨t, FS.leaf_eq_some_file.1 h5⟩, FS.file?_some.2 ⟨t', FS.leaf_eq_some_file.1 h5'⟩]
  | none =>
    have h5 : f.leaf (servedDir c f ++ q) = none := by
      match h6 : f.leaf (servedDir c f ++ q) with
      | none => rfl
      | some x =>
        obtain ⟨e, h7⟩ := h3 q (by rw [h6]; simp)
        rw [h4] at h7; cases h7
    have h5' : f'.leaf (servedDir c' f' ++ q) = none := by
      match h6 : f'.leaf (servedDir c' f' ++ q) with
      | none => rfl
      | some x =>
        obtain ⟨e, h7⟩ := h3' q (by rw [h6]; simp)
        rw [h4] at h7; cases h7
    refine ⟨?_, by rw [h5, h5']⟩
    match h6 : f.file? (servedDir c f ++ q), h7 : f'.file? (servedDir c' f' ++ q) with
    | none, none => rfl
    | some x, _ => obtain ⟨t, h8⟩ := FS.file?_leaf h6; rw [h5] at h8; cases h8
    | _, some x => obtain ⟨t, h8⟩ := FS.file?_leaf h7; rw [h5'] at h8; cases h8

/-- **C30**, over histories: on an installation where no system call fails, whatever was cut off or failed
for other reasons, if the RRDP state is of the same version as `current` then every object that is served
and has a time of its own has that time; the clock and the order of runs have no influence.

Partial: as for `C30_own_time_partial`, objects without a time of their own are left out. -/
theorem C30_over_histories_partial [Ext] (life : SourceLife) (c : Config) (base name : Str) (p : Progress)
    (f : FS) (r : RsyncRevision) (hl : Layout c base name) (ho : CleanObjects c.rsyncIncludeHost)
    (he : c.rsyncEnabled = true) (hm : c.rsyncUseSymlinks = true)
    (h : FaultlessLifetime life c base name p f) (ha : InAccord c f r) :
    ∃ b, IsSnapshotOf life r b ∧
      HasObjects f (servedDir c f) c.rsyncIncludeHost (Ext.streamSnapshot b).1 ∧
      OwnTimes f (servedDir c f) c.rsyncIncludeHost (Ext.streamSnapshot b).1 := by
  rw [servedDir_link ha.2]
  exact h.times hl ho he hm r ha

/-- **C67**, with times: on servers where no system call fails, a file that one of them serves and whose
content has a time of its own is served by the other with the same content and the same modification
time. -/
theorem C67_same_times [Ext] (life : SourceLife) (c c' : Config) (base name name' base' : Str)
    (p p' : Progress) (f f' : FS) (r : RsyncRevision) (hl : Layout c base name)
    (hl' : Layout c' base' name') (ho : CleanObjects c.rsyncIncludeHost) (he : c.rsyncEnabled = true)
    (he' : c'.rsyncEnabled = true) (hm : c.rsyncUseSymlinks = true) (hm' : c'.rsyncUseSymlinks = true)
    (hh : c.rsyncIncludeHost = c'.rsyncIncludeHost) (h : FaultlessLifetime life c base name p f)
    (h' : FaultlessLifetime life c' base' name' p' f') (h1 : OneSnapshot life) (ha : InAccord c f r)
    (ha' : InAccord c' f' r) (q : Path) (nm : Name) (content : Bytes)
    (hq : f.file? (servedDir c f ++ (q ++ [nm])) = some content) (ht : ownTime nm content ≠ none) :
    f'.leaf (servedDir c' f' ++ (q ++ [nm])) = f.leaf (servedDir c f ++ (q ++ [nm])) := by
  obtain ⟨b, hb, h2, h3⟩ := C30_over_histories_partial life c base name p f r hl ho he hm h ha
  obtain ⟨b', hb', h2', h3'⟩ := C30_over_histories_partial life c' base' name' p' f' r hl' (hh ▸ ho) he' hm'
    h' ha'
  have : b = b' := by
    obtain ⟨⟨p1, h4⟩, _⟩ := hb
    obtain ⟨⟨p2, h5⟩, _⟩ := hb'
    exact h1 _ _ _ _ _ _ h4 h5
  subst this
  rw [← hh] at h3'
  obtain ⟨t, h4⟩ := FS.file?_leaf hq
  obtain ⟨e, h5⟩ := C24_nothing_else life c base name p f r b hl ho he hm h.timely.newLifetime h1 ha.2 hb
    (q ++ [nm]) (by rw [h4]; simp)
  obtain ⟨t2, h6⟩ := h2 _ _ h5
  rw [h4] at h6
  have h7 : content = e.2 := by injection h6 with h6; injection h6
  subst h7
  match h8 : ownTime nm e.2 with
  | none => exact absurd h8 ht
  | some t' =>
    rw [← List.append_assoc, ← List.append_assoc, h3 q nm e t' h5 h8, h3' q nm e t' h5 h8]

/-! ## The hypotheses can be met -/

section
open Demo
set_option maxRecDepth 100000

namespace Demo

theorem oneSnapshot : OneSnapshot life := by
  have hall : ∀ x ∈ (⟨true, 0, 0, []⟩ :: roles.map Prod.snd : List FileRole),
      ∀ y ∈ (⟨true, 0, 0, []⟩ :: roles.map Prod.snd : List FileRole), x.snapshot = true → y.snapshot = true →
      x.session = y.session → x.serial = y.serial → x.hash = y.hash := by decide +kernel
  have hmem : ∀ q, life.role q ∈ (⟨true, 0, 0, []⟩ :: roles.map Prod.snd : List FileRole) := by
    intro q
    show (roles.lookup q).getD _ ∈ _
    match h : roles.lookup q with
    | none => simp
    | some x =>
      rw [List.lookup_eq_some_iff] at h
      obtain ⟨l1, l2, h1, _⟩ := h
      rw [h1]
      simp
  intro q q' s k b b' h h'
  have := hall _ (hmem q) _ (hmem q') (by rw [h]) (by rw [h']) (by rw [h, h']) (by rw [h, h'])
  rw [h, h'] at this
  exact this

theorem accord_of_check {f : FS} {r : RsyncRevision}
    (h : ((f.read conf.rrdpStatePath).bind Ext.decState).map
      (fun s => decide (s.snapshot.map (fun x => (x.session, x.serial)) = some (r.session, r.serial))) =
      some true) (hc : f.link? conf.rsyncCurrent = some r.dirName) : InAccord conf f r := by
  refine ⟨?_, hc⟩
  obtain ⟨s, h1, h2⟩ := Option.map_eq_some_iff.1 h
  obtain ⟨b, h3, h4⟩ := Option.bind_eq_some_iff.1 h1
  obtain ⟨x, h5, h6⟩ := Option.map_eq_some_iff.1 (of_decide_eq_true h2)
  exact ⟨s, x, ⟨b, h3, h4⟩, h5, (Prod.mk.inj h6).1, (Prod.mk.inj h6).2⟩

/-- One server took version 2 in one run. -/
theorem timely2 : TimelyLifetime life conf base name p2 fs2 :=
  timely1.run (timely_of_check goodRun1' (by decide +kernel)) fs2_crash

/-- The other was cut off twice while doing so, and succeeded the third time. -/
def fsThird : FS := after conf (envAt 3 notif2) fsHalf2

theorem timelyThird : TimelyLifetime life conf base name p2 fsThird :=
  timelyHalf2.run (timely_of_check goodRunHalf2 (by decide +kernel)) List.mem_cons_self

end Demo

example := C67_same_tree life conf conf base name name base p2 p2 fs2 fsThird notif2.rev layout layout
  (cleanObjects _) rfl rfl rfl rfl rfl timely2 timelyThird oneSnapshot
  (accord_of_check (by decide +kernel) (by decide +kernel))
  (accord_of_check (by decide +kernel) (by decide +kernel))

namespace Demo

theorem faultless1 : FaultlessLifetime life conf base name p1 fs1 :=
  History.run (start := fun _ => Untouched conf) (i := p0) (History.start untouched0)
    ⟨timely_of_check goodRun0 (by decide +kernel), fun _ => rfl⟩ fs1_crash

theorem faultless2 : FaultlessLifetime life conf base name p2 fs2 :=
  faultless1.run ⟨timely_of_check goodRun1' (by decide +kernel), fun _ => rfl⟩ fs2_crash

theorem faultlessThird : FaultlessLifetime life conf base name p2 fsThird :=
  ((faultless1.run ⟨timely_of_check goodRun1' (by decide +kernel), fun _ => rfl⟩ fsHalf_crash).run
    ⟨timely_of_check goodRunHalf.good (by decide +kernel), fun _ => rfl⟩ fsHalf2_crash).run
    ⟨timely_of_check goodRunHalf2 (by decide +kernel), fun _ => rfl⟩ List.mem_cons_self

end Demo

example := C30_over_histories_partial life conf base name p2 fsThird notif2.rev layout (cleanObjects _) rfl rfl
  faultlessThird (accord_of_check (by decide +kernel) (by decide +kernel))

example := C67_same_times life conf conf base name name base p2 p2 fs2 fsThird notif2.rev layout layout
  (cleanObjects _) rfl rfl rfl rfl rfl faultless2 faultlessThird oneSnapshot
  (accord_of_check (by decide +kernel) (by decide +kernel))
  (accord_of_check (by decide +kernel) (by decide +kernel)) [] "a.cer".toList [2]
  (by decide +kernel) (by decide +kernel)

/-- Written at time 3, the file has its own time. -/
example : fsThird.leaf (servedDir conf fsThird ++ ["a.cer".toList]) = some (.file [2] 1) := by
  decide +kernel

/-- They are not in the same state otherwise. -/
example : fs2.file? conf.rsyncStatePath ≠ fsThird.file? conf.rsyncStatePath := by decide +kernel

example := C24_nothing_else life conf base name p2 fsHalf2 notif2.rev (snap 2) layout (cleanObjects _) rfl rfl
  timelyHalf2.newLifetime oneSnapshot (by decide +kernel) ⟨⟨["s2".toList], by decide⟩, by decide⟩

example := C24_exact_over_histories life conf base name p1 fs1 notif1.rev layout (cleanObjects _) rfl rfl
  timely1 oneSnapshot ⟨⟨state1, _, recorded1, rfl, rfl, rfl⟩, by decide +kernel⟩

example := C24_exact_after_any_run life conf base name p2 p2 fsHalf2 5 (envAt 3 notif2)
  (process 5 conf (envAt 3 notif2) (World.start fsHalf2)).2 layout (cleanObjects _) rfl rfl timelyHalf2
  (timely_of_check goodRunHalf2 (by decide +kernel)) oneSnapshot

end

end KSync
