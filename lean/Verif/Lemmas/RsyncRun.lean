import Verif.Lemmas.Served

/-! # The rsync directory at every instant of a run -/

set_option linter.unusedSectionVars false
set_option linter.unusedSimpArgs false
set_option linter.unusedVariables false

namespace KSync

variable [Ext] {env : Env} {w w' : World}

theorem Keeps.via {P Q : FS → Prop} {w w' : World} (h : Keeps Q w w') (h0 : Q w.cur)
    (hq : ∀ f, Q f → P f) : Keeps P w w' := fun _ =>
  ⟨hq _ (h h0).1, fun f hf => ((h h0).2 f hf).imp id (hq f)⟩

theorem RsyncRecorded.unique {c : Config} {fs : FS} {s s' : RsyncDirState}
    (h : RsyncRecorded c fs s) (h' : RsyncRecorded c fs s') : s = s' := by
  have aux : ∀ b, fs.file? c.rsyncStatePath = some b → fs.leaf c.rsyncStatePath = none → False := by
    intro b h1 h2
    unfold FS.file? at h1
    unfold FS.leaf at h2
    split at h1
    · rename_i hg
      rw [hg] at h2
      cases h2
    · cases h1
  rcases h with ⟨b, h1, h2⟩ | ⟨h1, h2⟩ <;> rcases h' with ⟨b', g1, g2⟩ | ⟨g1, g2⟩
  · rw [h1] at g1; cases g1
    rw [h2] at g2; cases g2; rfl
  · exact (aux _ h1 g1).elim
  · exact (aux _ g1 h1).elim
  · rw [h2, g2]

theorem RsyncRecorded.of_leaf {c : Config} {fs fs' : FS} {st : RsyncDirState}
    (hq : fs'.leaf c.rsyncStatePath = fs.leaf c.rsyncStatePath) (h : RsyncRecorded c fs' st) :
    RsyncRecorded c fs st := by
  rcases h with ⟨b, h1, h2⟩ | ⟨h1, h2⟩
  · exact Or.inl ⟨b, by rw [← FS.file?_of_leaf hq]; exact h1, h2⟩
  · exact Or.inr ⟨by rw [← hq]; exact h1, h2⟩

theorem NewRevision.of_leaf {c : Config} {fs fs' : FS} {rev : RsyncRevision}
    (h : NewRevision c fs rev) (hq : fs'.leaf c.rsyncStatePath = fs.leaf c.rsyncStatePath)
    (hd : ∀ q, c.rsyncDir <+: q → fs'.leaf q = fs.leaf q) : NewRevision c fs' rev := by
  refine ⟨?_, fun q h1 => ?_, fun st h1 => h.notCurrent st (h1.of_leaf hq),
    fun st h1 => h.notOld st (h1.of_leaf hq)⟩
  · rw [FS.link?_of_leaf (hd c.rsyncCurrent (List.prefix_append _ _))]
    exact h.notLinked
  · rw [hd q ((List.prefix_append _ _).trans h1)]
    exact h.noFiles q h1

/-- A revision is only made from a snapshot that can be read. -/
theorem makeRevision_reads {rev : RsyncRevision} {c : Config} {src : Path}
    (hn : ∀ q, rev.path c <+: q → w.cur.leaf q = none) (hl : w.cur.link? src = none)
    (h : makeRevision rev c src env w = (.ok (), w')) : ∃ b, w.cur.file? src = some b := by
  unfold makeRevision at h
  obtain ⟨_, w1, h1, h2⟩ := M.bind_ok.1 h
  obtain ⟨hm, _⟩ := createOutPath_ok (hn _ (List.prefix_refl _)) h1
  unfold writeSnapshotTree at h2
  obtain ⟨b', w2, h3, _⟩ := M.bind_ok.1 h2
  obtain ⟨h5, _⟩ := readFile_ok h3
  have hl1 : w1.cur.link? src = none := by rw [FS.link?_of_leaf (hm.leaf src)]; exact hl
  refine ⟨b', ?_⟩
  rw [← FS.file?_of_leaf (hm.leaf src)]
  exact FS.file_of_read h5 hl1

/-- Before `current` was switched. -/
def Unswitched (c : Config) (rev : RsyncRevision) (f0 f : FS) : Prop :=
  f.WF ∧ Frame (fun q => rev.path c <+: q ∨ q = c.rsyncTmp) f0 f

/-- After `current` was switched. -/
def Switched (c : Config) (env : Env) (rev : RsyncRevision) (st : RsyncDirState)
    (els : List (RsyncUri × Bytes)) (f0 f : FS) : Prop :=
  f.WF ∧ f.get c.rsyncCurrent = some (.link rev.dirName) ∧
  Filled env f (rev.path c) c.rsyncIncludeHost els ∧
  Frame (fun q => rev.path c <+: q ∨ q = c.rsyncTmp ∨ q = c.rsyncCurrent ∨ q = c.rsyncStatePath ∨
    ∃ r, RevisionDue c env st r ∧ r.path c <+: q) f0 f

def JustSwitched (c : Config) (env : Env) (rev : RsyncRevision)
    (els : List (RsyncUri × Bytes)) (f0 f : FS) : Prop :=
  f.WF ∧ f.get c.rsyncCurrent = some (.link rev.dirName) ∧
  Filled env f (rev.path c) c.rsyncIncludeHost els ∧
  Frame (fun q => rev.path c <+: q ∨ q = c.rsyncTmp ∨ q = c.rsyncCurrent) f0 f

theorem JustSwitched.weaken {c : Config} {rev : RsyncRevision} {st : RsyncDirState}
    {els : List (RsyncUri × Bytes)} {f0 f : FS} (h : JustSwitched c env rev els f0 f) :
    Switched c env rev st els f0 f := by
  refine ⟨h.1, h.2.1, h.2.2.1, h.2.2.2.mono ?_⟩
  rintro q (h | h | h)
  · exact Or.inl h
  · exact Or.inr (Or.inl h)
  · exact Or.inr (Or.inr (Or.inl h))

/-- What the source of the revision was and that it was complete. -/
def MadeFrom (src : Path) (els : List (RsyncUri × Bytes)) (f0 : FS) : Prop :=
  ∃ b, f0.file? src = some b ∧ (Ext.streamSnapshot b).2 = true ∧ (Ext.streamSnapshot b).1 = els

theorem updateCurrent_due {st st1 : RsyncDirState} {rev : RsyncRevision} {c : Config}
    (h : st.updateCurrent rev env w = (.ok st1, w')) {d : DeprecatedRevision} (hd : d ∈ st1.old)
    (hs : d.since + c.cleanupAfter ≤ env.clock w'.tick) : RevisionDue c env st d.revision := by
  obtain ⟨_, _, _, h3⟩ := updateCurrent_ok h
  rcases h3 with ⟨_, h4⟩ | ⟨old, h4, h5, h6⟩
  · rw [h4] at hd
    exact ⟨d.since, w'.tick, hs, Or.inl hd⟩
  · rw [h5] at hd
    rcases List.mem_append.1 hd with hd | hd
    · exact ⟨d.since, w'.tick, hs, Or.inl hd⟩
    · rw [List.mem_singleton] at hd
      subst hd
      exact ⟨_, w'.tick, hs, Or.inr ⟨h4, w.tick, by omega, rfl⟩⟩

theorem updateCurrent_old {st st1 : RsyncDirState} {rev : RsyncRevision} {c : Config}
    (h : st.updateCurrent rev env w = (.ok st1, w')) (hc : st.current ≠ some rev)
    (ho : ∀ d ∈ st.old, d.revision ≠ rev) : ∀ d ∈ st1.old, d.revision ≠ rev := by
  obtain ⟨_, _, _, h3⟩ := updateCurrent_ok h
  rcases h3 with ⟨_, h1⟩ | ⟨old, h1, h2, _⟩
  · rw [h1]; exact ho
  · rw [h2]
    intro d hd
    rcases List.mem_append.1 hd with hd | hd
    · exact ho d hd
    · rw [List.mem_singleton] at hd
      subst hd
      intro he
      dsimp only at he
      rw [he] at h1
      exact hc h1

/-- Directories are kept, except possibly at `p` itself. -/
def KeepsDirsBut (p : Path) (f f' : FS) : Prop :=
  ∀ q, q ≠ p → f.get q = some .dir → f'.get q = some .dir

theorem writeBuf_keepsDirsBut (p : Path) (b : Bytes) : Does (KeepsDirsBut p) (writeBuf p b) := by
  have only : ∀ f f', OnlyAt p f f' → KeepsDirsBut p f f' := fun f f' h q hq hd => by rw [h q hq, hd]
  unfold writeBuf createFile
  refine Rel.bind (Rel.bind ?_ (fun _ => ?_)) (fun _ => ?_)
  · exact fun env w => (createPathForFile_mkdirs p env w).mono (fun f f' h q _ hd => h.keepsDirs q hd)
  · exact fun env w => (fileCreate_only p env w).mono only
  · exact fun env w => (writeAll_only p b env w).mono only

theorem Filled.persist {c : Config} {f f' : FS} {d : Path} {els : List (RsyncUri × Bytes)} {b : Bytes}
    (ha : Apart c.rsyncDir c.rsyncStatePath) (hd : c.rsyncDir <+: d)
    (h : Filled env f d c.rsyncIncludeHost els) (h1 : KeepsDirsBut c.rsyncStatePath f f')
    (h2 : Writing c.rsyncStatePath b f f') : Filled env f' d c.rsyncIncludeHost els := by
  have key : ∀ q, d <+: q → f'.leaf q = f.leaf q := by
    intro q hq
    refine h2.1 q (fun h' => ?_)
    subst h'
    exact ha.1 (hd.trans hq)
  refine ⟨⟨h1 d (fun h' => ha.1 (h' ▸ hd)) h.1.1, fun q => ?_⟩, fun hf => (h.2 hf).of_leaf key⟩
  rw [key _ (List.prefix_append _ _)]
  exact h.1.2 q

/-- Every instant of the rsync part, with links. -/
theorem updateRsync_links {s : RrdpState} {c : Config} {x : SnapshotState}
    (hm : c.rsyncUseSymlinks = true)
    (ho : CleanObjects c.rsyncIncludeHost) (hw : w.cur.WF)
    (hl : w.cur.link? c.rsyncStatePath = none) (ha : Apart c.rsyncDir c.rsyncStatePath)
    (hs : s.snapshot = some x) (hb : w.cur.link? (s.mappings.path x.relPath) = none)
    (hn : NewRevision c w.cur x.rev) :
    Keeps (fun f => Unswitched c x.rev w.cur f ∨ ∃ st els, RsyncRecorded c w.cur st ∧
      MadeFrom (s.mappings.path x.relPath) els w.cur ∧
      Switched c env x.rev st els w.cur f) w (updateRsync s c env w).2 := by
  have hU : Unswitched c x.rev w.cur w.cur := ⟨hw, Frame.refl _⟩
  -- what is known after making the revision
  have made : ∀ st w1 w2, RsyncDirState.recover c env w = (.ok st, w1) →
      makeRevision x.rev c (s.mappings.path x.relPath) env w1 = (.ok (), w2) →
      RsyncRecorded c w.cur st ∧ Unswitched c x.rev w.cur w2.cur ∧
      ∃ els, MadeFrom (s.mappings.path x.relPath) els w.cur ∧
        Filled env w2.cur (x.rev.path c) c.rsyncIncludeHost els := by
    intro st w1 w2 e1 e2
    obtain ⟨s1, hrec⟩ := recover_ok hl e1
    obtain ⟨b, hb'⟩ := makeRevision_reads (by rw [s1.cur]; exact hn.noFiles) (by rw [s1.cur]; exact hb) e2
    obtain ⟨hw2, hc, ht2, hti⟩ := makeRevision_ok ho (by rw [s1.cur]; exact hw)
      (by rw [s1.cur]; exact hn.noFiles) hb' e2
    have k := makeRevision_in (rev := x.rev) (c := c) (src := s.mappings.path x.relPath) ho env w1
    rw [e2] at k
    refine ⟨hrec, ⟨hw2, ?_⟩, (Ext.streamSnapshot b).1, ⟨b, by rw [← s1.cur]; exact hb', hc, rfl⟩, ht2, hti⟩
    have := k.frame (by rw [s1.cur]; exact hw)
    rw [s1.cur] at this
    exact this.mono (fun q h => Or.inl h)
  -- while switching
  have switching : ∀ w2, Unswitched c x.rev w.cur w2.cur → ∀ els,
      Filled env w2.cur (x.rev.path c) c.rsyncIncludeHost els →
      ((Unswitched c x.rev w.cur (symlinkCurrent x.rev c env w2).2.cur ∧
          Filled env (symlinkCurrent x.rev c env w2).2.cur (x.rev.path c) c.rsyncIncludeHost els) ∨
        JustSwitched c env x.rev els w.cur (symlinkCurrent x.rev c env w2).2.cur) ∧
      ∀ f ∈ (symlinkCurrent x.rev c env w2).2.past, f ∈ w2.past ∨
        ((Unswitched c x.rev w.cur f ∧ Filled env f (x.rev.path c) c.rsyncIncludeHost els) ∨
          JustSwitched c env x.rev els w.cur f) := by
    intro w2 hU2 els hfil
    have k1 := symlinkCurrent_steps (rev := x.rev) (c := c) env w2
    have k2 := symlinkCurrent_in (r := x.rev) (c := c) (E := Eff.only (fun _ => True))
      (fun _ _ => trivial) (fun _ _ => trivial) env w2
    refine Keeps.of_steps (P := fun f =>
      (Unswitched c x.rev w.cur f ∧ Filled env f (x.rev.path c) c.rsyncIncludeHost els) ∨
          JustSwitched c env x.rev els w.cur f) (k1.and k2.steps) ?_ (Or.inl ⟨hU2, hfil⟩)
    rintro f f' h ⟨⟨g1, g2⟩, g3⟩
    have hg : ∀ q, x.rev.path c <+: q → f'.get q = f.get q := fun q hq => g1 q
      (fun h => rev_not_tmp hq (h ▸ List.prefix_refl _))
      (fun h => rev_not_current hq (h ▸ List.prefix_refl _))
    rcases h with ⟨⟨h1, h2⟩, h3⟩ | ⟨h1, h2, h3, h4⟩
    · rcases g2 with g2 | ⟨_, g2⟩
      · refine Or.inl ⟨⟨(g3 h1).1, fun q hq => ?_⟩, h3.of_get hg⟩
        by_cases hqc : q = c.rsyncCurrent
        · subst hqc; rw [leaf_of_get g2]; exact h2 _ hq
        · rw [leaf_of_get (g1 q (fun h => hq (Or.inr h)) hqc)]; exact h2 _ hq
      · refine Or.inr ⟨(g3 h1).1, g2, h3.of_get hg, fun q hq => ?_⟩
        rw [leaf_of_get (g1 q (fun h => hq (Or.inr (Or.inl h))) (fun h => hq (Or.inr (Or.inr h))))]
        refine h2 q (fun h => ?_)
        rcases h with h | h
        · exact hq (Or.inl h)
        · exact hq (Or.inr (Or.inl h))
    · refine Or.inr ⟨(g3 h1).1, ?_, h3.of_get hg, fun q hq => ?_⟩
      · rcases g2 with g2 | ⟨_, g2⟩
        · rw [g2]; exact h2
        · exact g2
      · rw [leaf_of_get (g1 q (fun h => hq (Or.inr (Or.inl h))) (fun h => hq (Or.inr (Or.inr h))))]
        exact h4 q hq
  -- and after switching
  have switched : ∀ st w1 w2 w3, RsyncDirState.recover c env w = (.ok st, w1) →
      makeRevision x.rev c (s.mappings.path x.relPath) env w1 = (.ok (), w2) →
      switchTo x.rev st c env w2 = (.ok (), w3) →
      RsyncRecorded c w.cur st ∧ ∃ els, MadeFrom (s.mappings.path x.relPath) els w.cur ∧
        Switched c env x.rev st els w.cur w3.cur := by
    intro st w1 w2 w3 e1 e2 e3
    obtain ⟨hrec, hU2, els, hmf, hfil⟩ := made st w1 w2 e1 e2
    have hk := switching w2 hU2 els hfil
    unfold switchTo at e3
    rw [if_pos hm] at e3
    rw [e3] at hk
    refine ⟨hrec, els, hmf, ?_⟩
    rcases hk.1 with ⟨h1, h2⟩ | h1
    · refine ⟨h1.1, symlinkCurrent_ok e3, h2, h1.2.mono ?_⟩
      rintro q (h | h)
      · exact Or.inl h
      · exact Or.inr (Or.inl h)
    · exact h1.weaken
  refine updateRsync_tr (T := Keeps _) hs ?_ ?_ ?_ ?_ ?_ ?_
  · exact Keeps.of_same (recover_same c env w)
  · intro st w1 e1
    obtain ⟨s1, hrec⟩ := recover_ok hl e1
    have k := makeRevision_in (rev := x.rev) (c := c) (src := s.mappings.path x.relPath) ho env w1
    refine Keeps.via (Q := Unswitched c x.rev w.cur) (Keeps.of_within k ?_) (by rw [s1.cur]; exact hU)
      (fun f => Or.inl)
    rintro f f' ⟨h1, h2⟩ h3
    exact ⟨(h3 h1).1, h2.trans ((h3 h1).2.mono (fun q h => Or.inl h))⟩
  · intro st w1 w2 e1 e2
    obtain ⟨hrec, hU2, els, hmf, hfil⟩ := made st w1 w2 e1 e2
    have hk := switching w2 hU2 els hfil
    unfold switchTo
    rw [if_pos hm]
    intro _
    have conv : ∀ f, ((Unswitched c x.rev w.cur f ∧
        Filled env f (x.rev.path c) c.rsyncIncludeHost els) ∨ JustSwitched c env x.rev els w.cur f) →
        (Unswitched c x.rev w.cur f ∨ ∃ st els, RsyncRecorded c w.cur st ∧
          MadeFrom (s.mappings.path x.relPath) els w.cur ∧ Switched c env x.rev st els w.cur f) := by
      rintro f (h | h)
      · exact Or.inl h.1
      · exact Or.inr ⟨st, els, hrec, hmf, h.weaken⟩
    exact ⟨conv _ hk.1, fun f hf => (hk.2 f hf).imp id (conv f)⟩
  · intro st w1 w2 w3 _ _ _
    exact Keeps.of_same (updateCurrent_same _ _ env w3)
  · intro st w1 w2 w3 st1 w4 e1 e2 e3 e4
    obtain ⟨hrec, els, hmf, hS⟩ := switched st w1 w2 w3 e1 e2 e3
    obtain ⟨_, s4, _⟩ := updateCurrent_ok e4
    have hold := updateCurrent_old (c := c) e4 (hn.notCurrent st hrec) (hn.notOld st hrec)
    have k1 := cleanOld_get (c := c) hold env w4
    have k2 := cleanOld_within (st := st1) (c := c) (env := env) (w := w4)
    refine Keeps.via (Q := Switched c env x.rev st els w.cur) (Keeps.of_steps (k1.and k2.steps) ?_)
      (by rw [s4.cur]; exact hS) (fun f hf => Or.inr ⟨st, els, hrec, hmf, hf⟩)
    rintro f f' ⟨h1, h2, h3, h4⟩ ⟨g1, g2⟩
    refine ⟨(g2 h1).1, ?_, h3.of_get (fun q hq => g1 q (Or.inl hq)), h4.trans ((g2 h1).2.mono ?_)⟩
    · rw [g1 _ (Or.inr (List.prefix_refl _))]; exact h2
    · rintro q ⟨d, hd, h5, h6⟩
      exact Or.inr (Or.inr (Or.inr (Or.inr ⟨d.revision, updateCurrent_due e4 hd h5, h6⟩)))
  · intro st w1 w2 w3 st1 w4 st2 w5 e1 e2 e3 e4 e5
    obtain ⟨hrec, els, hmf, hS⟩ := switched st w1 w2 w3 e1 e2 e3
    obtain ⟨_, s4, _⟩ := updateCurrent_ok e4
    have hold := updateCurrent_old (c := c) e4 (hn.notCurrent st hrec) (hn.notOld st hrec)
    have k1 := cleanOld_get (c := c) hold env w4
    have k2 := cleanOld_within (st := st1) (c := c) (env := env) (w := w4)
    rw [e5] at k1 k2
    have hS5 : Switched c env x.rev st els w.cur w5.cur := by
      obtain ⟨h1, h2, h3, h4⟩ := hS
      have g1 := Steps.get k1
      have g2 := k2.frame (by rw [s4.cur]; exact h1)
      refine ⟨k2.wf (by rw [s4.cur]; exact h1), ?_, h3.of_get (fun q hq => ?_), h4.trans ?_⟩
      · rw [g1 _ (Or.inr (List.prefix_refl _)), s4.cur]; exact h2
      · rw [g1 q (Or.inl hq), s4.cur]
      · rw [s4.cur] at g2
        refine g2.mono ?_
        rintro q ⟨d, hd, h5, h6⟩
        exact Or.inr (Or.inr (Or.inr (Or.inr ⟨d.revision, updateCurrent_due e4 hd h5, h6⟩)))
    have k3 := writeBuf_writing c.rsyncStatePath (Ext.encRsync st2) env w5
    have k4 := writeBuf_keepsDirsBut c.rsyncStatePath (Ext.encRsync st2) env w5
    have k5 := writeBuf_in (E := Eff.only (· = c.rsyncStatePath)) (p := c.rsyncStatePath) rfl
      (Ext.encRsync st2) env w5
    refine Keeps.via (Q := Switched c env x.rev st els w.cur)
      (Keeps.of_steps ((k3.and k4).and k5.steps) ?_) hS5 (fun f hf => Or.inr ⟨st, els, hrec, hmf, hf⟩)
    rintro f f' ⟨h1, h2, h3, h4⟩ ⟨⟨g1, g2⟩, g3⟩
    refine ⟨(g3 h1).1, ?_, h3.persist ha (List.prefix_append _ _) g2 g1, h4.trans (g1.1.mono ?_)⟩
    · have : f'.leaf c.rsyncCurrent = f.leaf c.rsyncCurrent :=
        g1.1 _ (fun h => ha.1 (h ▸ List.prefix_append _ _))
      have h5 := FS.link?_of_leaf this
      unfold FS.link? at h5
      rw [h2] at h5
      match hg : f'.get c.rsyncCurrent with
      | some (.link t) => rw [hg] at h5; cases h5; rfl
      | some (.file _ _) => rw [hg] at h5; cases h5
      | some .dir => rw [hg] at h5; cases h5
      | none => rw [hg] at h5; cases h5
    · exact fun q h => Or.inr (Or.inr (Or.inr (Or.inl h)))

/-! ## Moving directories instead of links -/

/-- Before anything was moved. -/
def Unmoved (c : Config) (rev : RsyncRevision) (f0 f : FS) : Prop :=
  f.WF ∧ Frame (rev.path c <+: ·) f0 f

/-- What was in `current` is in the directory of the previous revision. -/
def MovedAway (c : Config) (old : RsyncRevision) (f0 f : FS) : Prop :=
  ∀ q, f.leaf (old.path c ++ q) = f0.leaf (c.rsyncCurrent ++ q)

theorem movedAway_first {c : Config} {old : RsyncRevision} {f0 f : FS}
    (h : ∀ q, c.rsyncCurrent <+: q → f.leaf q = f0.leaf q) :
    MovedAway c old f0 (f.moveTree c.rsyncCurrent (old.path c)) := by
  intro q
  have : (f.moveTree c.rsyncCurrent (old.path c)).get (old.path c ++ q) = f.get (c.rsyncCurrent ++ q) := by
    rw [FS.get_moveTree _ (current_ne c) (rev_path_ne _ _), if_pos (List.prefix_append _ _),
      List.drop_left]
  unfold FS.leaf
  rw [this]
  exact h _ (List.prefix_append _ _)

theorem movedAway_second {c : Config} {old rev : RsyncRevision} {f0 f : FS} (hne : old ≠ rev)
    (h : MovedAway c old f0 f) : MovedAway c old f0 (f.moveTree (rev.path c) c.rsyncCurrent) := by
  intro q
  rw [← h q]
  refine leaf_of_get ?_
  rw [FS.get_moveTree _ (rev_path_ne _ _) (current_ne c),
    if_neg (rev_not_current (List.prefix_append _ _)),
    if_neg (fun h => hne (rev_apart (List.prefix_append _ _) h))]

theorem updateRsync_moves {s : RrdpState} {c : Config} {x : SnapshotState} {st : RsyncDirState}
    {old : RsyncRevision}
    (hm : c.rsyncUseSymlinks = false) (ho : CleanObjects c.rsyncIncludeHost) (hw : w.cur.WF)
    (hl : w.cur.link? c.rsyncStatePath = none) (ha : Apart c.rsyncDir c.rsyncStatePath)
    (hs : s.snapshot = some x) (hrec : RsyncRecorded c w.cur st) (hold : st.current = some old)
    (hb : w.cur.link? (s.mappings.path x.relPath) = none)
    (hcur : ∃ q, q ≠ [] ∧ w.cur.leaf (c.rsyncCurrent ++ q) ≠ none) (hne : old ≠ x.rev)
    (hfree : ∀ q, x.rev.path c <+: q → w.cur.leaf q = none) (hdue : ¬ RevisionDue c env st old) :
    Keeps (fun f => Unmoved c x.rev w.cur f ∨ MovedAway c old w.cur f) w (updateRsync s c env w).2 ∧
    ((updateRsync s c env w).1 = .ok () → MovedAway c old w.cur (updateRsync s c env w).2.cur) := by
  have hU : Unmoved c x.rev w.cur w.cur := ⟨hw, Frame.refl _⟩
  have st_eq : ∀ st' w1, RsyncDirState.recover c env w = (.ok st', w1) → st' = st ∧ Same w w1 := by
    intro st' w1 h
    obtain ⟨h1, h2⟩ := recover_ok hl h
    exact ⟨h2.unique hrec, h1⟩
  have making : ∀ st' w1, RsyncDirState.recover c env w = (.ok st', w1) →
      Keeps (Unmoved c x.rev w.cur) w1 (makeRevision x.rev c (s.mappings.path x.relPath) env w1).2 := by
    intro st' w1 e1
    obtain ⟨_, s1⟩ := st_eq _ _ e1
    have k := makeRevision_in (rev := x.rev) (c := c) (src := s.mappings.path x.relPath) ho env w1
    refine Keeps.of_within k ?_
    rintro f f' ⟨h1, h2⟩ h3
    exact ⟨(h3 h1).1, h2.trans (h3 h1).2⟩
  have made : ∀ st' w1 w2, RsyncDirState.recover c env w = (.ok st', w1) →
      makeRevision x.rev c (s.mappings.path x.relPath) env w1 = (.ok (), w2) →
      Unmoved c x.rev w.cur w2.cur ∧ w2.cur.get (x.rev.path c) = some .dir ∧
      w2.cur.get c.rsyncCurrent = some .dir := by
    intro st' w1 w2 e1 e2
    obtain ⟨_, s1⟩ := st_eq _ _ e1
    have h1 := ((making st' w1 e1) (by rw [s1.cur]; exact hU)).1
    rw [e2] at h1
    obtain ⟨b, hb'⟩ := makeRevision_reads (by rw [s1.cur]; exact hfree) (by rw [s1.cur]; exact hb) e2
    obtain ⟨_, _, ht, _⟩ := makeRevision_ok ho (by rw [s1.cur]; exact hw)
      (by rw [s1.cur]; exact hfree) hb' e2
    refine ⟨h1, ht.1, ?_⟩
    obtain ⟨q, hq, hlq⟩ := hcur
    refine h1.1.above (List.prefix_append _ q) (fun h => hq (by simpa using h.symm)) (fun h => ?_)
    rw [← h1.2 _ (fun h => rev_not_current h (List.prefix_append _ _))] at hlq
    unfold FS.leaf at hlq
    rw [h] at hlq
    exact hlq rfl
  have moving : ∀ st' w1 w2, RsyncDirState.recover c env w = (.ok st', w1) →
      makeRevision x.rev c (s.mappings.path x.relPath) env w1 = (.ok (), w2) →
      Keeps (fun f => Unmoved c x.rev w.cur f ∨ MovedAway c old w.cur f) w2
        (switchTo x.rev st' c env w2).2 ∧
      ((switchTo x.rev st' c env w2).1 = .ok () → (switchTo x.rev st' c env w2).2.cur.WF ∧
        MovedAway c old w.cur (switchTo x.rev st' c env w2).2.cur) := by
    intro st' w1 w2 e1 e2
    obtain ⟨rfl, _⟩ := st_eq _ _ e1
    obtain ⟨h1, h2, h3⟩ := made _ w1 w2 e1 e2
    have hwf := renameCurrent_in (r := x.rev) (s := st') (c := c) (E := Eff.only (fun _ => True))
      (fun _ _ _ _ => trivial) (fun _ _ => trivial) (fun _ _ => trivial) env w2
    have hwf := hwf.wf h1.1
    unfold switchTo
    rw [if_neg (by rw [hm]; simp)]
    have hfirst := movedAway_first (old := old) (f := w2.cur) (f0 := w.cur) (c := c)
      (fun q hq => h1.2 q (fun h => rev_not_current h hq))
    rcases renameCurrent_cases (env := env) (w := w2) hold h3 h2 hne with ⟨e, k⟩ | ⟨_, ⟨e, k⟩ | k⟩
    · rw [k]
      exact ⟨Keeps.of_same ⟨rfl, rfl⟩, fun h => by cases h⟩
    · rw [k]
      refine ⟨fun h0 => ⟨Or.inr hfirst, fun f hf => ?_⟩, fun h => by cases h⟩
      rcases List.mem_cons.1 hf with rfl | hf
      · exact Or.inr h0
      · exact Or.inl hf
    · rw [k] at hwf ⊢
      refine ⟨fun h0 => ⟨Or.inr (movedAway_second hne hfirst), fun f hf => ?_⟩,
        fun _ => ⟨hwf, movedAway_second hne hfirst⟩⟩
      rcases List.mem_cons.1 hf with rfl | hf
      · exact Or.inr (Or.inr hfirst)
      · rcases List.mem_cons.1 hf with rfl | hf
        · exact Or.inr h0
        · exact Or.inl hf
  have cleaning : ∀ st' w1 w2 w3 st1 w4, RsyncDirState.recover c env w = (.ok st', w1) →
      makeRevision x.rev c (s.mappings.path x.relPath) env w1 = (.ok (), w2) →
      switchTo x.rev st' c env w2 = (.ok (), w3) → st'.updateCurrent x.rev env w3 = (.ok st1, w4) →
      (w4.cur.WF ∧ MovedAway c old w.cur w4.cur) ∧
      Keeps (fun f => f.WF ∧ MovedAway c old w.cur f) w4 (st1.cleanOld c env w4).2 := by
    intro st' w1 w2 w3 st1 w4 e1 e2 e3 e4
    have h0 := (moving st' w1 w2 e1 e2).2
    rw [e3] at h0
    obtain ⟨g1, g2⟩ := h0 rfl
    obtain ⟨rfl, _⟩ := st_eq _ _ e1
    obtain ⟨_, s4, _⟩ := updateCurrent_ok e4
    refine ⟨by rw [s4.cur]; exact ⟨g1, g2⟩, ?_⟩
    refine Keeps.of_within (cleanOld_within (st := st1) (c := c) (env := env) (w := w4)) ?_
    rintro f f' ⟨h1, h2⟩ h3
    refine ⟨(h3 h1).1, fun q => ?_⟩
    rw [(h3 h1).2 (old.path c ++ q) ?_]
    · exact h2 q
    · rintro ⟨d, hd, h5, h6⟩
      have := updateCurrent_due (c := c) e4 hd h5
      rw [rev_apart h6 (List.prefix_append _ _)] at this
      exact hdue this
  have persisting : ∀ w5 (st2 : RsyncDirState), w5.cur.WF ∧ MovedAway c old w.cur w5.cur →
      Keeps (fun f => f.WF ∧ MovedAway c old w.cur f) w5 (st2.persist c env w5).2 := by
    intro w5 st2 _
    refine Keeps.of_within (writeBuf_in (E := Eff.only (· = c.rsyncStatePath))
      (p := c.rsyncStatePath) rfl (Ext.encRsync st2) env w5) ?_
    rintro f f' ⟨h1, h2⟩ h3
    refine ⟨(h3 h1).1, fun q => ?_⟩
    rw [(h3 h1).2 (old.path c ++ q) ?_]
    · exact h2 q
    · intro h
      refine ha.1 (h ▸ ?_)
      unfold RsyncRevision.path
      rw [List.append_assoc]
      exact List.prefix_append _ _
  refine ⟨updateRsync_tr (T := Keeps _) hs ?_ ?_ ?_ ?_ ?_ ?_, fun h => ?_⟩
  · exact Keeps.of_same (recover_same c env w)
  · intro st' w1 e1
    obtain ⟨_, s1⟩ := st_eq _ _ e1
    exact Keeps.via (making st' w1 e1) (by rw [s1.cur]; exact hU) (fun f => Or.inl)
  · intro st' w1 w2 e1 e2
    exact (moving st' w1 w2 e1 e2).1
  · intro st' w1 w2 w3 _ _ _
    exact Keeps.of_same (updateCurrent_same _ _ env w3)
  · intro st' w1 w2 w3 st1 w4 e1 e2 e3 e4
    obtain ⟨h1, h2⟩ := cleaning st' w1 w2 w3 st1 w4 e1 e2 e3 e4
    exact Keeps.via h2 h1 (fun f hf => Or.inr hf.2)
  · intro st' w1 w2 w3 st1 w4 st2 w5 e1 e2 e3 e4 e5
    obtain ⟨h1, h2⟩ := cleaning st' w1 w2 w3 st1 w4 e1 e2 e3 e4
    rw [e5] at h2
    have h3 := (h2 h1).1
    exact Keeps.via (persisting w5 st2 h3) h3 (fun f hf => Or.inr hf.2)
  · obtain ⟨w1, w2, w3, w4, w5, st', st1, st2, d⟩ := updateRsync_ok hs (Prod.ext h rfl)
    obtain ⟨h1, h2⟩ := cleaning st' w1 w2 w3 st1 w4 d.recovered d.made d.switched d.updated
    rw [d.cleaned] at h2
    have h3 := (h2 h1).1
    have h4 := (persisting w5 st2 h3 h3).1
    rw [d.persisted] at h4
    exact h4.2

end KSync
