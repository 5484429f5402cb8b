import Verif.Examples.Conds
import Verif.Lemmas.Unobtained

/-!
# What an observer sees while a run is going on (properties C02, C20, C36)

A run is `process`; everything durable that exists at some instant of the run is in the
list `crashPoints`.  `Layout`, `RunConds` etc. are defined in `Verif/Spec/Run.lean`.
-/

set_option linter.unusedVariables false

namespace KSync

/-- **C02.** At every instant of a run the notification file is exactly as before the run,
or it is the one complete new notification, for the version the source announces. -/
theorem C02_notification_atomic [Ext] (depth : Nat) (c : Config) (env : Env) (fs : FS)
    (base name : Str) (hl : Layout c base name) (hc : RunConds c base name env fs) :
    ∃ n', ∀ f ∈ (process depth c env (World.start fs)).2.crashPoints,
      f.leaf (c.notifPath name) = fs.leaf (c.notifPath name) ∨
      ((∃ etag n, Offers c env fs etag n ∧ SameVersion n n') ∧
        ∃ t, f.leaf (c.notifPath name) = some (.file (Ext.writeNotif n') t)) := by
  rcases run_cases (depth := depth) (w := World.start fs) hc with ⟨h1, _⟩ | ⟨s, st, w1, n, h1, h2⟩
  · refine ⟨⟨0, 0, [], [], []⟩, fun f hf => Or.inl ?_⟩
    refine (h1.crash_frame hc.wf f hf).2 _ ?_
    exact hl.rrdpStaging.not_both (List.prefix_append _ _)
  · refine ⟨newNotif s st, fun f hf => ?_⟩
    have hk : Keeps (fun f => f.WF ∧ (f.leaf (c.notifPath name) = fs.leaf (c.notifPath name) ∨
        ∃ t, f.leaf (c.notifPath name) = some (.file (Ext.writeNotif (newNotif s st)) t)))
        (World.start fs) (process depth c env (World.start fs)).2 := by
      rw [h2]
      refine Tr.trans (Keeps.of_within h1.within ?_)
        (publish_notif hl h1.sane h1.goodSnap h1.goodDeltas hc.objects h1.wf fs)
      rintro f f' ⟨g1, g2⟩ g3
      obtain ⟨g4, g5⟩ := g3 g1
      refine ⟨g4, ?_⟩
      rw [g5 (c.notifPath name) (hl.rrdpStaging.not_both (List.prefix_append _ _))]
      exact g2
    rcases (hk.start ⟨hc.wf, Or.inl rfl⟩ f hf).2 with h3 | h3
    · exact Or.inl h3
    · exact Or.inr ⟨sameVersion_newNotif hc.uri h1, h3⟩

/-- **C36.** A run changes no file and no link outside the state directory, the RRDP
directory and (unless rsync is disabled) the rsync directory, at any instant; in the state
directory it changes only the staging area and the two state files. -/
theorem C36_only_configured_directories [Ext] (depth : Nat) (c : Config) (env : Env) (fs : FS)
    (base name : Str) (hc : RunConds c base name env fs) :
    ∀ f ∈ (process depth c env (World.start fs)).2.crashPoints, ∀ q,
      ¬ c.rrdpDir <+: q → ¬ (c.rsyncEnabled = true ∧ c.rsyncDir <+: q) →
      (¬ c.stateDir <+: q ∨ (¬ c.stagingDir <+: q ∧ q ≠ c.rrdpStatePath ∧ q ≠ c.rsyncStatePath)) →
      f.leaf q = fs.leaf q := by
  intro f hf q h1 h2 h3
  exact ((process_within (depth := depth) (w := World.start fs) hc).crash_frame hc.wf f hf).2 q
    (runEff_outside h1 h2 (outside_state h3))

/-- **C36, directories.** Outside these places a run, at any instant, leaves every entry as it was,
but for missing directories it creates on the way to the RRDP, rsync or staging directory, and for
directories above the RRDP directory that the cleanup of old files finds empty.  The latter cannot
happen while a notification is published. -/
theorem C36_directories [Ext] (depth : Nat) (c : Config) (env : Env) (fs : FS)
    (base name : Str) (hl : Layout c base name) (hc : RunConds c base name env fs) :
    ∀ f ∈ (process depth c env (World.start fs)).2.crashPoints, ∀ q,
      ¬ c.rrdpDir <+: q → ¬ (c.rsyncEnabled = true ∧ c.rsyncDir <+: q) →
      (¬ c.stateDir <+: q ∨ (¬ c.stagingDir <+: q ∧ q ≠ c.rrdpStatePath ∧ q ≠ c.rsyncStatePath)) →
      f.get q = fs.get q ∨
      (fs.get q = none ∧ f.get q = some .dir ∧
        (q <+: c.rrdpDir ∨ q <+: c.stagingDir ∨ (c.rsyncEnabled = true ∧ q <+: c.rsyncDir))) ∨
      (fs.get q = some .dir ∧ f.get q = none ∧ q <+: c.rrdpDir ∧
        fs.leaf (c.notifPath name) = none) := by
  intro f hf q h1 h2 h3
  have hw := process_within (depth := depth) (w := World.start fs) hc
  have hleaf := C36_only_configured_directories depth c env fs base name hc f hf q h1 h2 h3
  have hwf := (hw.crash_frame hc.wf f hf).1
  have hdir := hw.crash_dirs f hf
  have h4 := outside_state h3
  have hout : ∀ p, (runEff c name).files p → q <+: p →
      q <+: c.rrdpDir ∨ q <+: c.stagingDir ∨ (c.rsyncEnabled = true ∧ q <+: c.rsyncDir) := by
    have key : ∀ {d p : Path}, d <+: p → q <+: p → ¬ d <+: q → q <+: d := fun hd hq hn =>
      (List.prefix_or_prefix_of_prefix hq hd).resolve_right hn
    have key1 : ∀ {x : Name}, q ≠ c.stateDir ++ [x] → q <+: c.stateDir ++ [x] → q <+: c.stagingDir :=
      fun {x} hne hq => by
        rw [List.prefix_concat_iff] at hq
        exact (hq.resolve_left hne).trans (List.prefix_append _ _)
    rintro p (h | h | h | h | ⟨h, h' | h'⟩ | h) hq
    · exact Or.inr (Or.inl (key h hq h4.1))
    · exact Or.inl (key h.below hq h1)
    · exact Or.inl (key ((List.prefix_append _ _).trans h) hq h1)
    · exact Or.inl (key ((List.prefix_append _ _).trans h) hq h1)
    · exact Or.inr (Or.inr ⟨h, key h' hq (fun h'' => h2 ⟨h, h''⟩)⟩)
    · subst h'; exact Or.inr (Or.inl (key1 h4.2.2 hq))
    · subst h; exact Or.inr (Or.inl (key1 h4.2.1 hq))
  have hself := runEff_outside (name := name) h1 h2 h4
  have hnone : ∀ {g : FS} {q}, g.leaf q = none → g.get q ≠ some .dir → g.get q = none := fun {g q} h h' => by
    unfold FS.leaf at h
    match hg : g.get q with
    | none => rfl
    | some .dir => exact absurd hg h'
    | some (.file b t) => rw [hg] at h; cases h
    | some (.link t) => rw [hg] at h; cases h
  by_cases hfd : fs.get q = some .dir
  · by_cases hd : f.get q = some .dir
    · exact Or.inl (hd.trans hfd.symm)
    · have hl0 : fs.leaf q = none := by unfold FS.leaf; rw [hfd]
      refine Or.inr (Or.inr ⟨hfd, hnone (hleaf.trans hl0) hd, ?_⟩)
      have hr : q <+: c.rrdpDir := by
        by_cases hr : q <+: c.rrdpDir
        · exact hr
        · exact absurd (hdir.2 q hself (fun h => h.elim hr h1) hfd) hd
      refine ⟨hr, ?_⟩
      obtain ⟨n', hn⟩ := C02_notification_atomic depth c env fs base name hl hc
      match hx : fs.leaf (c.notifPath name) with
      | none => rfl
      | some x =>
        have hp : f.leaf (c.notifPath name) ≠ none := by
          rcases hn f hf with h | ⟨_, t, h⟩ <;> rw [h]
          · rw [hx]; exact fun h => by cases h
          · exact fun h => by cases h
        refine absurd (hwf.above (hr.trans (List.prefix_append _ [name])) ?_ ?_) hd
        · intro he
          have := hr.length_le
          rw [he, List.length_append, List.length_singleton] at this
          omega
        · intro he
          apply hp
          unfold FS.leaf
          show (match f.get (c.rrdpDir ++ [name]) with | some .dir => none | x => x) = none
          rw [he]
  · by_cases hd : f.get q = some .dir
    · have hl0 : f.leaf q = none := by unfold FS.leaf; rw [hd]
      refine Or.inr (Or.inl ⟨hnone (hleaf.symm.trans hl0) hfd, hd, ?_⟩)
      by_cases hq : ∃ p, (runEff c name).files p ∧ q <+: p
      · obtain ⟨p, hp, hqp⟩ := hq
        exact hout p hp hqp
      · exact absurd ((hdir.1 q (fun p hp hqp => hq ⟨p, hp, hqp⟩)).1 hd) hfd
    · left
      have : ∀ {g : FS} {q}, g.get q ≠ some .dir → g.leaf q = g.get q := fun {g q} h => by
        unfold FS.leaf
        match hg : g.get q with
        | none => rfl
        | some .dir => exact absurd hg h
        | some (.file b t) => rfl
        | some (.link t) => rfl
      rw [← this hd, ← this hfd]
      exact hleaf

/-- **C20, state file.** At every instant the RRDP state file is exactly as before the run
unless the complete new notification is already in place: a run that ends before it
replaced the notification has forgotten nothing. -/
theorem C20_state_follows_notification [Ext] (depth : Nat) (c : Config) (env : Env) (fs : FS)
    (base name : Str) (hl : Layout c base name) (hc : RunConds c base name env fs) :
    ∀ f ∈ (process depth c env (World.start fs)).2.crashPoints,
      f.leaf c.rrdpStatePath = fs.leaf c.rrdpStatePath ∨
      ∃ etag n n' t, Offers c env fs etag n ∧ SameVersion n n' ∧
        f.leaf (c.notifPath name) = some (.file (Ext.writeNotif n') t) := by
  let P : FS → Prop := fun f => f.WF ∧ (f.leaf c.rrdpStatePath = fs.leaf c.rrdpStatePath ∨
      ∃ etag n n' t, Offers c env fs etag n ∧ SameVersion n n' ∧
        f.leaf (c.notifPath name) = some (.file (Ext.writeNotif n') t))
  have nb : c.rrdpDir <+: c.notifPath name := List.prefix_append _ _
  have frame : ∀ {S : Path → Prop}, ¬ S (c.notifPath name) → ¬ S c.rrdpStatePath →
      ∀ f f' : FS, P f → Change S f f' → P f' := by
    rintro S h1 h2 f f' ⟨h3, h4⟩ h5
    obtain ⟨h6, h7⟩ := h5 h3
    refine ⟨h6, ?_⟩
    rw [h7 _ h1, h7 _ h2]; exact h4
  have notData : ¬ DataPath c name c.rrdpStatePath := fun h => hl.rrdpState.1 h.below
  have notStaging : ¬ c.stagingDir <+: c.rrdpStatePath := by
    unfold Config.stagingDir Config.rrdpStatePath
    rw [List.prefix_append_right_inj]
    decide
  have nApply1 : ¬ (applyEff c name).files (c.notifPath name) := by
    rintro (h | h)
    · exact hl.rrdpStaging.not_both nb h
    · exact not_dataPath_single (Or.inl rfl) h
  have nApply2 : ¬ (applyEff c name).files c.rrdpStatePath := by
    rintro (h | h)
    · exact notStaging h
    · exact notData h
  have hk : Keeps P (World.start fs) (process depth c env (World.start fs)).2 := by
    refine run_keeps hc (frame (hl.rrdpStaging.not_both nb) notStaging) ?_
    intro s st w1 n h1
    have hnew := sameVersion_newNotif hc.uri h1
    refine publish_by (T := Keeps P) ⟨hc.uri, h1.sane, h1.goodSnap, h1.goodDeltas, hc.objects⟩ h1.wf
      ?_ ?_ ?_ ?_ ?_ ?_
    · exact fun h => Keeps.of_within h (frame nApply1 nApply2)
    · exact fun _ _ _ h => Keeps.of_within h (frame id id)
    · exact fun _ _ _ _ _ _ _ h => Keeps.of_within h (frame nApply1 nApply2)
    · intro _ _ _ _ _ _ _ _ _ _ h
      refine Keeps.of_within h (frame ?_ ?_)
      · rintro ⟨_, h | h⟩
        · exact hl.rrdpRsync.not_both nb h
        · exact hl.rrdpRsyncState.1 (h ▸ nb)
      · rintro ⟨_, h | h⟩
        · exact hl.rsyncState.1 h
        · simp [Config.rrdpStatePath, Config.rsyncStatePath] at h
    · intro _ _ _ _ _ _ _ _ _ _ _ _ h h'
      refine Keeps.of_steps (h'.and h.steps) ?_
      rintro f f' ⟨g1, g2⟩ ⟨⟨g3, g4⟩, g5⟩
      refine ⟨(g5 g1).1, ?_⟩
      rcases g4 with g4 | ⟨t, g4⟩
      · have : f'.leaf c.rrdpStatePath = f.leaf c.rrdpStatePath := (g5 g1).2 _ (by
          rintro (h | h)
          · exact hl.rrdpState.1 ((List.prefix_append _ _).trans h)
          · exact hl.rrdpState.1 ((List.prefix_append _ _).trans h))
        rw [this, g4]; exact g2
      · obtain ⟨etag, n0, h2, h3⟩ := hnew
        exact Or.inr ⟨etag, n0, _, t, h2, h3, g4⟩
    · intro _ _ _ _ _ _ w5 _ _ _ _ _ hw5 _ hnot h _ _
      obtain ⟨t, ht⟩ := hnot
      obtain ⟨etag, n0, h2, h3⟩ := hnew
      have hq : Keeps (fun f => f.WF ∧ f.leaf (c.notifPath name) =
          some (.file (Ext.writeNotif (newNotif s st)) t)) w5 _ := Keeps.of_within h (by
        rintro f f' ⟨g1, g2⟩ g3
        obtain ⟨g4, g5⟩ := g3 g1
        refine ⟨g4, ?_⟩
        rw [g5 (c.notifPath name) (fun h => hl.rrdpState.1 (h ▸ nb))]; exact g2)
      obtain ⟨k1, k2⟩ := hq ⟨hw5, by unfold FS.leaf; rw [ht]⟩
      refine ⟨⟨k1.1, Or.inr ⟨etag, n0, _, t, h2, h3, k1.2⟩⟩, fun f hf => ?_⟩
      rcases k2 f hf with k | k
      · exact Or.inl k
      · exact Or.inr ⟨k.1, Or.inr ⟨etag, n0, _, t, h2, h3, k.2⟩⟩
  exact fun f hf => (hk.start ⟨hc.wf, Or.inl rfl⟩ f hf).2

/-- **C20, staging.** Looking for and downloading a new version (`update_staged`) changes
nothing outside the staging area, whether it succeeds or not and at any instant. -/
theorem C20_staging_touches_nothing_else [Ext] (c : Config) (env : Env) (fs : FS)
    (base name : Str) (s : RrdpState) (hu : NotifUri c base name) (hw : fs.WF)
    (hs : Sane c base name s) (hg : GoodSource c base name env fs) :
    ∀ f ∈ (s.updateStaged c env (World.start fs)).2.crashPoints, ∀ q,
      ¬ c.stagingDir <+: q → f.leaf q = fs.leaf q := by
  intro f hf q hq
  exact ((updateStaged_within (w := World.start fs) hu hs hg).crash_frame hw f hf).2 q hq

/-- **C20, no snapshot.** If the snapshot of the announced version cannot be had with the
announced hash, the run fails, unless it found nothing new and did nothing; and the RRDP directory,
the rsync directory and the state files are exactly as before, at every instant. -/
theorem C20_unavailable_snapshot [Ext] (depth : Nat) (c : Config) (env : Env) (fs : FS)
    (base name : Str) (hc : RunConds c base name env fs)
    (h0 : No304 env) (hlinks : NoLinks fs c.stagingDir)
    (hun : ∀ s n, InUse c base name fs s → Offers c env fs s.source.etag n →
      NotObtained c env fs base n.snapUri n.snapHash) :
    (∀ f ∈ (process depth c env (World.start fs)).2.crashPoints, ∀ q,
      ¬ c.stagingDir <+: q → f.leaf q = fs.leaf q) ∧
    ((process depth c env (World.start fs)).1 = .ok () →
      (process depth c env (World.start fs)).2.crashPoints = [fs]) := by
  rcases run_withheld (depth := depth) hc with h | ⟨s, st, w1, n, h1, h2⟩
  · exact h
  · obtain ⟨s0, n0, n1, a1, a2, a3, _, a4, _⟩ := prepare_obtained h1.prep hc h0 hlinks
    obtain ⟨ds, _, rfl⟩ := a3
    exact absurd (hun s0 n0 a1 a2) a4

/-! ## The hypotheses can be met -/

section
open Demo
set_option maxRecDepth 100000

/-- The second run of the demonstration world: a full update. -/
example : ∃ n', ∀ f ∈ (process 5 conf (envAt 1 notif2) (World.start fs1)).2.crashPoints,
      f.leaf (conf.notifPath name) = fs1.leaf (conf.notifPath name) ∨
      ((∃ etag n, Offers conf (envAt 1 notif2) fs1 etag n ∧ SameVersion n n') ∧
        ∃ t, f.leaf (conf.notifPath name) = some (.file (Ext.writeNotif n') t)) :=
  C02_notification_atomic 5 conf (envAt 1 notif2) fs1 base name layout (runConds1 1)

/-- Both cases occur. -/
example : ((process 5 conf (envAt 1 notif2) (World.start fs1)).2.crashPoints.any
      (fun f => decide (f.leaf (conf.notifPath name) = fs1.leaf (conf.notifPath name)))) = true ∧
    ((process 5 conf (envAt 1 notif2) (World.start fs1)).2.crashPoints.any
      (fun f => decide (f.leaf (conf.notifPath name) ≠ fs1.leaf (conf.notifPath name)))) = true := by
  decide +kernel

example : ∀ f ∈ (process 5 conf (envAt 1 notif2) (World.start fs1)).2.crashPoints,
    f.leaf ["etc".toList, "passwd".toList] = fs1.leaf ["etc".toList, "passwd".toList] :=
  fun f hf => C36_only_configured_directories 5 conf (envAt 1 notif2) fs1 base name (runConds1 1)
    f hf _ (by decide) (by decide) (Or.inl (by decide))

/-- A first run creates the state directory, and no other directory at the top. -/
example : (∀ f ∈ (process 5 conf (envAt 0 notif1) (World.start fs0)).2.crashPoints,
      (f.get conf.stateDir = none ∨ f.get conf.stateDir = some .dir) ∧ f.get ["x".toList] = none) ∧
    (process 5 conf (envAt 0 notif1) (World.start fs0)).2.cur.get conf.stateDir = some .dir := by
  refine ⟨fun f hf => ⟨?_, ?_⟩, by decide +kernel⟩
  · rcases C36_directories 5 conf (envAt 0 notif1) fs0 base name layout (runConds0 0) f hf
      conf.stateDir (by decide) (by decide) (Or.inr (by decide)) with h | h | h
    · exact Or.inl h
    · exact Or.inr h.2.1
    · exact Or.inl h.2.1
  · rcases C36_directories 5 conf (envAt 0 notif1) fs0 base name layout (runConds0 0) f hf
      ["x".toList] (by decide) (by decide) (Or.inl (by decide)) with h | h | h
    · exact h
    · exact absurd h.2.2 (by decide)
    · exact h.2.1

example : ∀ f ∈ (process 5 conf (envAt 1 notif2) (World.start fs1)).2.crashPoints,
      f.leaf conf.rrdpStatePath = fs1.leaf conf.rrdpStatePath ∨
      ∃ etag n n' t, Offers conf (envAt 1 notif2) fs1 etag n ∧ SameVersion n n' ∧
        f.leaf (conf.notifPath name) = some (.file (Ext.writeNotif n') t) :=
  C20_state_follows_notification 5 conf (envAt 1 notif2) fs1 base name layout (runConds1 1)

example : ∀ f ∈ (state1.updateStaged conf (envAt 1 notif2) (World.start fs1)).2.crashPoints, ∀ q,
      ¬ conf.stagingDir <+: q → f.leaf q = fs1.leaf q :=
  C20_staging_touches_nothing_else conf (envAt 1 notif2) fs1 base name state1 notifUri
    (runConds1 1).wf (saneState1 _ recorded1) (runConds1 1).source

/-- A source that announces version 2 but serves another snapshot. -/
def Demo.envBad : Env := { envAt 1 notif2 with
  http := fun _ r => if r.uri = uri "n" then .ok .absent (some (Inst.toBytes notif2))
    else .ok .absent (some [7]) }

theorem Demo.offersBad {n' : Notif} {fs : FS} {etag : Option Str}
    (h : Offers conf envBad fs etag n') : n' = notif2 := by
  obtain ⟨src, b, e, h1, h2, h3⟩ := h
  have : src = .uri (uri "n") false := by
    have h4 := resolve_locates.2 h1
    have h5 := resolve_locates.2 locates
    rw [h4] at h5; cases h5; rfl
  subst this
  obtain ⟨tick, hdr, h4, _⟩ := h2
  have h5 : HttpResp.ok .absent (some (Inst.toBytes notif2)) = .ok hdr (some b) := h4
  cases h5
  have h6 := Ext.parse_write notif2
  rw [show Ext.writeNotif notif2 = Inst.toBytes notif2 from rfl, h3] at h6
  cases h6; rfl

example : (∀ f ∈ (process 5 conf envBad (World.start fs1)).2.crashPoints, ∀ q,
      ¬ conf.stagingDir <+: q → f.leaf q = fs1.leaf q) ∧
    (process 5 conf envBad (World.start fs1)).1 ≠ .ok () := by
  refine ⟨(C20_unavailable_snapshot 5 conf envBad fs1 base name
    ⟨notifUri, (runConds1 1).wf, saneState1, fun etag n hn => ?_, fun _ => cleanObjects _⟩
    (fun tick r _ => ?_) (FS.noLinks_of_check (by decide +kernel)) (fun s n _ hn => ?_)).1,
    by decide +kernel⟩
  · rw [offersBad hn]; exact goodNotif_of_check (by decide)
  · show (if _ then _ else _) ≠ _
    split <;> simp
  · rw [offersBad hn]
    refine ⟨fun src h => ?_, fun rel h hh hf => ?_⟩
    · cases h with
      | direct h => exact ⟨_, _, rfl, fun tick hdr b hb => by
          have : HttpResp.ok .absent (some ([7] : Bytes)) = .ok hdr (some b) := hb
          cases this
          decide⟩
      | mappedUri b u m r h => cases h
      | mappedDir b p r h => cases h
    · have hr : rel = "s2".toList := by
        have h2 : uri "s2" = base ++ "s2".toList := by decide
        rw [show notif2.snapUri = uri "s2" from rfl, h2] at h
        exact (List.append_cancel_left h).symm
      subst hr
      obtain ⟨b, hb, _⟩ := hf
      have : fs1.file? (conf.stagingDir ++ comps "s2".toList) = none := by decide +kernel
      rw [this] at hb; cases hb

end

end KSync
