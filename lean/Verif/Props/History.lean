import Verif.Examples.Life

/-!
# Histories of runs, failures and crashes (properties C01, C10, C11, C16, C47)

`Lifetime`, `Updates` etc. (Verif/Spec/History.lean) describe what can be on disk after any number
of runs, each of which may have ended at any of its instants.
-/

set_option linter.unusedVariables false

namespace KSync

/-! ## The published files -/

/-- **C01.** At any time in the life of an installation, whatever runs were completed, failed or were
interrupted, there is no notification yet or it is a complete notification all of whose files are in
place and have the hashes it gives.

Partial: the source is as in `SourceLife` (every path is used for one file), it does not answer 'not
modified' to unconditional requests, no run takes longer than the cleanup time, and a run that has to
copy files (because they cannot be renamed) starts with notification and state in step.  The last is
needed, see `C01_refuted_for_copies_after_crash`; for the cleanup time see `C16_refuted_for_slow_run`. -/
theorem C01_files_in_place_partial [Ext] (life : SourceLife) (c : Config) (base name : Str)
    (p : Progress) (f : FS) (hl : Layout c base name)
    (ho : c.rsyncEnabled = true → CleanObjects c.rsyncIncludeHost)
    (h : Lifetime life c base name p f) :
    f.leaf (c.notifPath name) = none ∨
    ∃ n t, f.leaf (c.notifPath name) = some (.file (Ext.writeNotif n) t) ∧
      ∀ r ∈ n.refs, ∃ rel, r.1 = base ++ rel ∧ FileHas f (c.pubPath rel) r.2 := by
  refine (h.kept hl ho).notif.imp id ?_
  rintro ⟨n, t, h1, h2⟩
  refine ⟨n, t, h1, fun r hr => ?_⟩
  obtain ⟨rel, a1, _, _, a4, _⟩ := h2.refs r hr
  exact ⟨rel, a1, a4⟩

/-- **C16.** While a run is going on, at every instant, no file is missing that the notification from
before the run refers to, nor one that the present notification refers to.

Partial: see `C01_files_in_place_partial`.  (For paths that are used again see
`C03_refuted_for_reused_path`.) -/
theorem C16_referenced_files_stay_partial [Ext] (life : SourceLife) (c : Config) (base name : Str)
    (p p' : Progress) (f0 : FS) (hl : Layout c base name)
    (ho : c.rsyncEnabled = true → CleanObjects c.rsyncIncludeHost)
    (h : Lifetime life c base name p f0) (depth : Nat) (env : Env)
    (hr : GoodRun life c base name p p' depth env f0) :
    ∀ f ∈ (process depth c env (World.start f0)).2.crashPoints, ∀ n t,
      (f0.leaf (c.notifPath name) = some (.file (Ext.writeNotif n) t) ∨
        f.leaf (c.notifPath name) = some (.file (Ext.writeNotif n) t)) →
      ∀ r ∈ n.refs, ∃ rel, r.1 = base ++ rel ∧ f.leaf (c.pubPath rel) ≠ none := by
  intro f hf n t hn r hrn
  have hk := h.kept hl ho
  have has : ∀ {g : FS} {q : Path} {k : Hash}, FileHas g q k → g.leaf q ≠ none := by
    rintro g q k ⟨b, hb, _⟩ hnone
    unfold FS.file? at hb
    unfold FS.leaf at hnone
    split at hb
    · rename_i heq
      rw [heq] at hnone
      cases hnone
    · cases hb
  rcases hn with hn | hn
  · rcases hk.notif with h1 | ⟨n', t', h1, h2⟩
    · rw [hn] at h1; cases h1
    · rw [hn] at h1
      injection h1 with h1
      injection h1 with h1 _
      obtain rfl := writeNotif_inj h1
      obtain ⟨rel, a1, a2, _, a4, a5⟩ := h2.refs r hrn
      refine ⟨rel, a1, fun hgone => ?_⟩
      have hc : RunConds c base name env f0 :=
        ⟨hl.uri, hk.wf, fun s hs => (hk.state s hs).sane, hr.source, ho⟩
      obtain ⟨s, b1, since, k, b2, b3⟩ := C14_removed_only_when_due depth c env f0 base name hl hc f hf
        (c.pubPath rel) (List.prefix_append _ _) a2.not_tmp (has a4) hgone
      rcases b3 with b3 | ⟨_, i, _, b4⟩
      · rcases b1 with b1 | ⟨_, rfl⟩
        · exact a5 s b1 _ b3 rfl
        · cases b3
      · have := hr.brisk i k
        rw [b4] at b2
        exact absurd this (Int.not_lt.2 b2)
  · rcases (run_kept hl ho hk hr f hf).notif with h1 | ⟨n', t', h1, h2⟩
    · rw [hn] at h1; cases h1
    · rw [hn] at h1
      injection h1 with h1
      injection h1 with h1 _
      obtain rfl := writeNotif_inj h1
      obtain ⟨rel, a1, _, _, a4, _⟩ := h2.refs r hrn
      exact ⟨rel, a1, has a4⟩

/-! ## The deltas -/

/-- **C10, order.** After any number of runs, failures and crashes over a source with sensible names,
the recorded deltas and those in the published notification go from the highest serial down, each
once. -/
theorem C10_descending [Ext] (c : Config) (base name : Str) (f : FS) (hl : Layout c base name)
    (ho : c.rsyncEnabled = true → CleanObjects c.rsyncIncludeHost) (h : Updates c base name f) :
    (∀ s, Recorded c f s → Descending (s.held base)) ∧
    (f.leaf (c.notifPath name) = none ∨ ∃ n t,
      f.leaf (c.notifPath name) = some (.file (Ext.writeNotif n) t) ∧ Descending n.deltas) := by
  have key : ∀ {env : Env} {f : FS} {depth : Nat} {s0 s : RrdpState} {st : StagedChanges} {w : World}
      {n : Notif}, Descending (s0.held base) → (∃ v, s = { s0 with validator := v }) →
      n.deltas.Pairwise (fun a b => a.serial < b.serial) →
      AtPublish depth c base name env (World.start f) s st w n → Descending (newNotif s st).deltas := by
    rintro env f depth s0 s st w n h1 ⟨v, rfl⟩ h2 h3
    exact (newNotif_update hl.uri h3.sane h3.staged h2 h3.prepared.decided h1).order
  have hi : Inductive (ι := Unit) c base name (fun _ _ _ env fs => GoodSource c base name env fs)
      (fun _ s => Descending (s.held base)) (fun _ n => Descending n.deltas) := by
    refine ⟨fun _ _ _ _ _ h => h, fun _ => freshState_ordered, fun _ s h => h, fun _ _ _ _ _ _ _ h => h,
      fun _ _ _ _ _ _ _ h => h, ?_, ?_⟩
    · exact fun _ _ _ _ _ _ _ _ _ _ _ _ h1 _ h2 _ _ h3 h4 => key h1 h2 h3 h4
    · intro _ _ _ _ _ _ _ _ _ _ _ _ _ h1 _ h2 _ _ h3 h4 h5
      rw [← h5.describes.deltas]
      exact key h1 h2 h3 h4
  have := History.invariant hl ho hi h
  exact ⟨fun s hs => (this.state s hs).2, this.notif⟩

/-- **C10, no gaps.** If the source always lists its deltas up to its serial, then after any number of
runs, failures and crashes the recorded deltas go down from the recorded serial without gaps, and those
in the published notification from the serial published. -/
theorem C10_unbroken [Ext] (c : Config) (base name : Str) (f : FS) (hl : Layout c base name)
    (ho : c.rsyncEnabled = true → CleanObjects c.rsyncIncludeHost) (h : OrderlyUpdates c base name f) :
    (∀ s x, Recorded c f s → s.snapshot = some x → Unbroken (s.held base) x.serial) ∧
    (f.leaf (c.notifPath name) = none ∨ ∃ n t,
      f.leaf (c.notifPath name) = some (.file (Ext.writeNotif n) t) ∧ Unbroken n.deltas n.serial) := by
  have := orderly_invariant hl ho h
  exact ⟨fun s x hs hx => (this.state s hs).2.2.2 x hx,
    this.notif.imp id (fun ⟨n, t, h1, h2⟩ => ⟨n, t, h1, h2.1⟩)⟩

/-- **C11.** With a positive maximum, over a source that always lists its deltas up to its serial, no
published notification ever lists more deltas than the maximum. -/
theorem C11_max_deltas [Ext] (c : Config) (base name : Str) (f : FS) (m : Nat)
    (hl : Layout c base name) (ho : c.rsyncEnabled = true → CleanObjects c.rsyncIncludeHost)
    (hm : c.rrdpMaxDeltas = some m) (hpos : 0 < m) (h : OrderlyUpdates c base name f) :
    f.leaf (c.notifPath name) = none ∨ ∃ n t,
      f.leaf (c.notifPath name) = some (.file (Ext.writeNotif n) t) ∧ n.deltas.length ≤ m :=
  (orderly_invariant hl ho h).notif.imp id (fun ⟨n, t, h1, h2⟩ => ⟨n, t, h1, h2.2 m hm hpos⟩)

/-! ## The version -/

/-- **C47.** Over any history of runs, failures and crashes, as long as the source's versions move
forward, so does the published one: take the disk at any time of the history, and at any later time.
If a notification was there, one is there later, and its version is not older; within a session, its
serial is not lower. -/
theorem C47_version_never_back [Ext] (age : Uuid → Nat) (c : Config) (base name : Str)
    (p p' : Version) (f f' : FS) (n : Notif) (t : Time) (hl : Layout c base name)
    (ho : c.rsyncEnabled = true → CleanObjects c.rsyncIncludeHost)
    (h : History c (fun _ => Pristine c name) (ForwardRun age c base name) p f)
    (h' : History c (fun q g => q = p ∧ g = f) (ForwardRun age c base name) p' f')
    (hn : f.leaf (c.notifPath name) = some (.file (Ext.writeNotif n) t)) :
    ∃ n' t', f'.leaf (c.notifPath name) = some (.file (Ext.writeNotif n') t') ∧
      (n.version age).le (n'.version age) ∧ (n'.session = n.session → n.serial ≤ n'.serial) := by
  have hinv := History.invariant hl ho (forward_invariant (age := age) hl) h
  have key : Invariant c base name (fun _ _ => True) (fun p n => (n.version age).le p) p' f' ∧
      ∃ n' t', f'.leaf (c.notifPath name) = some (.file (Ext.writeNotif n') t') ∧
        (n.version age).le (n'.version age) := by
    induction h' with
    | start hs =>
      obtain ⟨rfl, rfl⟩ := hs
      exact ⟨hinv, n, t, hn, Version.le_refl _⟩
    | @run i j depth env g g' _ hok hcp ih =>
      obtain ⟨b1, n1, t1, b2, b3⟩ := ih
      refine ⟨Invariant.run hl ho (forward_invariant hl) b1 hok hcp, ?_⟩
      have hc := b1.conds hl ho hok.source
      rcases (run_records hl hc g' hcp).2 with ⟨_, d1⟩ | ⟨s, st, w, m, t2, d1, d2, _⟩
      · exact ⟨n1, t1, d1.trans b2, b3⟩
      · refine ⟨_, t2, d2, Version.le_trans b3 ?_⟩
        have hle : (n1.version age).le i := by
          rcases b1.notif with e | ⟨n2, t3, e1, e2⟩
          · rw [b2] at e; cases e
          · rw [b2] at e1
            injection e1 with e1
            injection e1 with e1 _
            obtain rfl := writeNotif_inj e1
            exact e2
        obtain ⟨etag, n3, a1, a2⟩ := sameVersion_newNotif hl.uri d1
        have := Version.le_trans hle (hok.notBefore _ _ a1)
        unfold Notif.version at *
        rw [a2.session, a2.serial]
        exact this
  obtain ⟨_, n', t', a1, a2⟩ := key
  refine ⟨n', t', a1, a2, fun he => ?_⟩
  unfold Version.le Notif.version at a2
  rw [he] at a2
  simpa using a2

/-! ## The hypotheses can be met -/

section

open Demo

set_option maxRecDepth 100000

example := C01_files_in_place_partial life conf base name p2 fs2 layout (fun _ => cleanObjects _)
  lifetime2

/-- There is a notification, with two files. -/
example : fs2.file? (conf.notifPath name) = some (Ext.writeNotif notif2) ∧ notif2.refs.length = 2 := by
  decide +kernel

example := C16_referenced_files_stay_partial life conf base name p1 p2 fs1 layout
  (fun _ => cleanObjects _) lifetime1 5 (envAt 1 notif2) goodRun1'

example := C10_descending conf base name fs2 layout (fun _ => cleanObjects _) updates2

example := C10_unbroken conf base name fs2 layout (fun _ => cleanObjects _) orderly2

example := C11_max_deltas confMax base name fsM3 1 layoutMax (fun _ => cleanObjects _) rfl (by decide)
  orderlyM3

/-- The last source notification has more deltas than that; one of them is published. -/
example : fsM3.file? (confMax.notifPath name) =
    some (Ext.writeNotif { notif3 with deltas := [⟨3, uri "d3", [3]⟩] }) := by
  decide +kernel

example (t : Time) (h : fs1.leaf (conf.notifPath name) = some (.file (Ext.writeNotif notif1) t)) :=
  C47_version_never_back BitVec.toNat conf base name ((1, 1) : Nat × Nat) ((1, 2) : Nat × Nat) fs1 fs2
    notif1 t layout (fun _ => cleanObjects _)
    (History.run (i := ((0, 0) : Nat × Nat)) (History.start pristine0) forward1 fs1_crash)
    (History.run (i := ((1, 1) : Nat × Nat)) (History.start ⟨rfl, rfl⟩) forward2 fs2_crash) h

example : fs1.leaf (conf.notifPath name) = some (.file (Ext.writeNotif notif1) 0) := by decide +kernel

/-! ### Where claims fail -/

/-- The second run, interrupted between writing the notification and writing the state. -/
def Demo.fsBetween : FS :=
  ((process 5 conf (envAt 1 notif2) (World.start fs1)).2.crashPoints.find? (fun f =>
    decide (f.leaf (conf.notifPath name) ≠ fs1.leaf (conf.notifPath name)) &&
    decide (f.leaf conf.rrdpStatePath = fs1.leaf conf.rrdpStatePath))).getD fs0

/-- **C01 fails when files are copied after a crash.**  A crash between writing the notification
and writing the state, then a run over the same source in which the staged snapshot cannot be renamed,
so that it is copied over the published one: while this is going on the notification refers to an
incomplete file. -/
theorem C01_refuted_for_copies_after_crash :
    fsBetween ∈ (process 5 conf (envAt 1 notif2) (World.start fs1)).2.crashPoints ∧
    ∃ f ∈ (process 5 conf { envAt 2 notif2 with fault := fun t => t == 14 }
        (World.start fsBetween)).2.crashPoints,
      f.file? (conf.notifPath name) = some (Ext.writeNotif notif2) ∧
      notif2.snapUri = base ++ "s2".toList ∧ ¬ FileHas f (conf.pubPath "s2".toList) notif2.snapHash := by
  refine ⟨by decide +kernel, ?_⟩
  have h : ∃ f ∈ (process 5 conf { envAt 2 notif2 with fault := fun t => t == 14 }
        (World.start fsBetween)).2.crashPoints,
      f.file? (conf.notifPath name) = some (Ext.writeNotif notif2) ∧
      f.file? (conf.pubPath "s2".toList) = some [] := by decide +kernel
  obtain ⟨f, h1, h2, h3⟩ := h
  refine ⟨f, h1, h2, by decide, ?_⟩
  rintro ⟨b, b1, b2⟩
  rw [h3] at b1
  cases b1
  exact absurd b2 (by decide)

/-- The clock jumps by 20 seconds after `k` steps. -/
def Demo.envSlow (k : Nat) : Env :=
  { envAt 1 notif2 with clock := fun t => if t < k then 1 else 21 }

/-- **C01 and C16 fail in a run that takes longer than the cleanup time.**  The old snapshot is scheduled
for removal and removed in the same run, before the new notification is written: at that time the
published notification, the old one, refers to a missing file. -/
theorem C16_refuted_for_slow_run :
    ∃ f ∈ (process 5 conf (envSlow 17) (World.start fs1)).2.crashPoints,
      f.file? (conf.notifPath name) = some (Ext.writeNotif notif1) ∧
      notif1.snapUri = base ++ "s1".toList ∧ f.get (conf.pubPath "s1".toList) = none := by
  decide +kernel

end

end KSync
