import Verif.Lemmas.RsyncParts

/-! # What the rsync part leaves to be served -/

set_option linter.unusedSectionVars false
set_option linter.unusedSimpArgs false
set_option linter.unusedVariables false

namespace KSync

variable [Ext] {env : Env} {w w' : World}

theorem TreeIs.of_leaf {f f' : FS} {d : Path} {ih : Bool} {els : List (RsyncUri × Bytes)}
    (h : TreeIs f d ih els) (hg : ∀ q, d <+: q → f'.leaf q = f.leaf q) (hd : KeepsDirs f f') :
    TreeIs f' d ih els := by
  refine ⟨hd _ h.1, fun q => ?_⟩
  rw [hg _ (List.prefix_append _ _)]
  exact h.2 q

theorem TimesAre.of_leaf {f f' : FS} {d : Path} (h : TimesAre f d)
    (hg : ∀ q, d <+: q → f'.leaf q = f.leaf q) : TimesAre f' d := by
  intro q name b t h1
  refine h q name b t ?_
  rw [← FS.leaf_eq_some_file] at h1 ⊢
  rw [← hg _ (by rw [List.append_assoc]; exact List.prefix_append _ _)]
  exact h1

theorem TimesAre.moveTree {f : FS} {d d' : Path} (h : TimesAre f d) (hd : d ≠ []) (hd' : d' ≠ []) :
    TimesAre (f.moveTree d d') d' := by
  intro q name b t h1
  refine h q name b t ?_
  rw [List.append_assoc] at h1 ⊢
  rw [FS.get_moveTree _ hd hd', if_pos (List.prefix_append _ _), List.drop_left] at h1
  exact h1

theorem leaf_of_get {f f' : FS} {q : Path} (h : f'.get q = f.get q) : f'.leaf q = f.leaf q := by
  unfold FS.leaf
  rw [h]

/-- Content and times of a directory. -/
def Filled (env : Env) (f : FS) (d : Path) (ih : Bool) (els : List (RsyncUri × Bytes)) : Prop :=
  TreeIs f d ih els ∧ (NoFaults env → TimesAre f d)

theorem Filled.of_get {f f' : FS} {d : Path} {ih : Bool} {els : List (RsyncUri × Bytes)}
    (h : Filled env f d ih els) (hg : ∀ q, d <+: q → f'.get q = f.get q) : Filled env f' d ih els :=
  ⟨h.1.of_get hg, fun hf => (h.2 hf).of_leaf (fun q hq => leaf_of_get (hg q hq))⟩

theorem Filled.of_leaf {f f' : FS} {d : Path} {ih : Bool} {els : List (RsyncUri × Bytes)}
    (h : Filled env f d ih els) (hg : ∀ q, d <+: q → f'.leaf q = f.leaf q) (hd : KeepsDirs f f') :
    Filled env f' d ih els :=
  ⟨h.1.of_leaf hg hd, fun hf => (h.2 hf).of_leaf hg⟩

theorem Filled.moveTree {f : FS} {d d' : Path} {ih : Bool} {els : List (RsyncUri × Bytes)}
    (h : Filled env f d ih els) (hd : d ≠ []) (hd' : d' ≠ []) :
    Filled env (f.moveTree d d') d' ih els :=
  ⟨h.1.moveTree hd hd', fun hf => (h.2 hf).moveTree hd hd'⟩

theorem rename_get (src dst : Path) :
    Does (fun f f' => ∀ q, ¬ src <+: q → ¬ dst <+: q → f'.get q = f.get q) (rename src dst) := by
  intro env w
  have h := rename_end src dst env w
  generalize rename src dst env w = r at h
  cases h with
  | failed e => exact .same rfl rfl
  | noop => exact .same rfl rfl
  | movedDir h1 h2 _ h4 =>
    refine .push .refl (fun q hq hq' => ?_) rfl
    show (w.cur.moveTree src dst).get q = _
    rw [FS.get_moveTree _ h1 h2, if_neg hq', if_neg hq]
  | movedFile n h1 h2 _ h4 h5 =>
    refine .push .refl (fun q hq hq' => ?_) rfl
    show ((w.cur.del src).set dst n).get q = _
    rw [FS.get_set_ne _ _ (by rintro rfl; exact hq' (List.prefix_refl _)),
      FS.get_del_ne _ (by rintro rfl; exact hq (List.prefix_refl _))]

theorem Steps.get {S : Path → Prop} (h : Steps (fun f f' => ∀ q, S q → f'.get q = f.get q) w w') :
    ∀ q, S q → w'.cur.get q = w.cur.get q :=
  h.ends (R := fun f f' => ∀ q, S q → f'.get q = f.get q) (fun _ _ _ => rfl)
    (fun _ _ _ h1 h2 q hq => (h2 q hq).trans (h1 q hq))

theorem rev_path_ne (r : RsyncRevision) (c : Config) : r.path c ≠ [] := by
  unfold RsyncRevision.path; simp

theorem current_ne (c : Config) : c.rsyncCurrent ≠ [] := by
  unfold Config.rsyncCurrent; simp

/-- After the moves the new content is in place. -/
theorem renameCurrent_filled {rev : RsyncRevision} {st : RsyncDirState} {c : Config} {ih : Bool}
    {els : List (RsyncUri × Bytes)} (hst : st.current ≠ some rev)
    (hf : Filled env w.cur (rev.path c) ih els)
    (h : renameCurrent rev st c env w = (.ok (), w')) : Filled env w'.cur c.rsyncCurrent ih els := by
  have main : ∀ w1, Filled env w1.cur (rev.path c) ih els →
      rename (rev.path c) c.rsyncCurrent env w1 = (.ok (), w') →
      Filled env w'.cur c.rsyncCurrent ih els := by
    intro w1 h1 h2
    rcases rename_dir_cases (env := env) (dst := c.rsyncCurrent) h1.1.1 with ⟨e, k⟩ | ⟨k, _⟩
    · rw [k] at h2; cases h2
    · rw [k] at h2
      cases h2
      exact h1.moveTree (rev_path_ne _ _) (current_ne c)
  unfold renameCurrent at h
  dsimp only at h
  rw [getFs_bind] at h
  obtain ⟨_, w1, h1, h2⟩ := M.bind_ok.1 h
  refine main w1 ?_ h2
  match ho : st.current with
  | none => rw [ho] at h1; cases h1; exact hf
  | some old =>
    rw [ho] at h1
    dsimp only at h1
    by_cases he : w.cur.exists? c.rsyncCurrent = true
    · rw [if_pos he] at h1
      refine hf.of_get (fun q hq => ?_)
      have h3 := rename_get c.rsyncCurrent (old.path c) env w
      rw [h1] at h3
      have h4 := Steps.get (S := fun q => ¬ c.rsyncCurrent <+: q ∧ ¬ old.path c <+: q)
        (h3.mono (fun f f' h q hq => h q hq.1 hq.2))
      refine h4 q ⟨rev_not_current hq, fun h' => ?_⟩
      have := rev_apart h' hq
      subst this
      exact hst ho
    · rw [if_neg he] at h1
      cases h1
      exact hf

/-- The names of the steps of a successful rsync part with a new revision, and what they did. -/
theorem updateRsync_served {s : RrdpState} {c : Config} {x : SnapshotState} {b : Bytes}
    (ho : CleanObjects c.rsyncIncludeHost) (hw : w.cur.WF)
    (hl : w.cur.link? c.rsyncStatePath = none) (ha : Apart c.rsyncDir c.rsyncStatePath)
    (hs : s.snapshot = some x) (hb : w.cur.file? (s.mappings.path x.relPath) = some b)
    (hn : NewRevision c w.cur x.rev) (h : updateRsync s c env w = (.ok (), w')) :
    w'.cur.WF ∧ (Ext.streamSnapshot b).2 = true ∧
    Filled env w'.cur (servedDir c w'.cur) c.rsyncIncludeHost (Ext.streamSnapshot b).1 ∧
    (c.rsyncUseSymlinks = true → w'.cur.link? c.rsyncCurrent = some x.rev.dirName) ∧
    (c.rsyncUseSymlinks = false → w'.cur.get c.rsyncCurrent = some .dir) := by
  obtain ⟨w1, w2, w3, w4, w5, st, st1, st2, d⟩ := updateRsync_ok hs h
  obtain ⟨s1, hrec⟩ := recover_ok hl d.recovered
  have hw' : w'.cur.WF := by
    have := updateRsync_in (E := anyEff)
      (s := s) (c := c) (fun _ _ => trivial) trivial (fun _ _ _ _ _ => trivial) env w
    rw [h] at this
    exact this.wf hw
  obtain ⟨hw2, hc, ht2, hti⟩ := makeRevision_ok (b := b) ho (by rw [s1.cur]; exact hw)
    (by rw [s1.cur]; exact hn.noFiles) (by rw [s1.cur]; exact hb) d.made
  have f2 : Filled env w2.cur (x.rev.path c) c.rsyncIncludeHost (Ext.streamSnapshot b).1 := ⟨ht2, hti⟩
  obtain ⟨u1, u2, _, u3⟩ := updateCurrent_ok d.updated
  have hold : ∀ d ∈ st1.old, d.revision ≠ x.rev := by
    rcases u3 with ⟨_, h1⟩ | ⟨old, h1, h2, _⟩
    · rw [h1]; exact hn.notOld st hrec
    · rw [h2]
      intro d hd
      rcases List.mem_append.1 hd with hd | hd
      · exact hn.notOld st hrec d hd
      · rw [List.mem_singleton] at hd
        subst hd
        intro he
        dsimp only at he
        rw [he] at h1
        exact hn.notCurrent st hrec h1
  have k5 := cleanOld_get (c := c) hold env w4
  rw [d.cleaned] at k5
  have k5 := Steps.get k5
  have k6 := writeBuf_writing c.rsyncStatePath (Ext.encRsync st2) env w5
  rw [show writeBuf c.rsyncStatePath (Ext.encRsync st2) env w5 = _ from d.persisted] at k6
  have k6 : ∀ q, c.rsyncDir <+: q → w'.cur.leaf q = w5.cur.leaf q := by
    have k7 := (k6.mono (R' := Frame (· = c.rsyncStatePath)) (fun f f' h => h.1)).ends
      (fun f => Frame.refl f) (fun _ _ _ => Frame.trans)
    intro q hq
    refine k7 q (fun h' => ?_)
    subst h'
    exact ha.1 hq
  have k7 : KeepsDirs w5.cur w'.cur := writeBuf_keepsDirs d.persisted
  have k34 : w4.cur = w3.cur := u2.cur
  have hsw := d.switched
  unfold switchTo at hsw
  by_cases hm : c.rsyncUseSymlinks = true
  · rw [if_pos hm] at hsw
    have g1 := symlinkCurrent_ok hsw
    have g2 := symlinkCurrent_steps (rev := x.rev) (c := c) env w2
    rw [hsw] at g2
    have g3 := Steps.get (S := fun q => q ≠ c.rsyncTmp ∧ q ≠ c.rsyncCurrent)
      (g2.mono (fun f f' h q hq => h.1 q hq.1 hq.2))
    have f3 : Filled env w3.cur (x.rev.path c) _ _ := f2.of_get (fun q hq => g3 q
      ⟨fun h => rev_not_tmp hq (h ▸ List.prefix_refl _),
        fun h => rev_not_current hq (h ▸ List.prefix_refl _)⟩)
    have f5 : Filled env w5.cur (x.rev.path c) _ _ :=
      f3.of_get (fun q hq => by rw [k5 q (Or.inl hq), k34])
    have f6 : Filled env w'.cur (x.rev.path c) _ _ :=
      f5.of_leaf (fun q hq => k6 q ((List.prefix_append _ _).trans hq)) k7
    have l6 : w'.cur.link? c.rsyncCurrent = some x.rev.dirName := by
      have : w'.cur.leaf c.rsyncCurrent = w3.cur.leaf c.rsyncCurrent := by
        rw [k6 c.rsyncCurrent (List.prefix_append _ _)]
        exact leaf_of_get (by rw [k5 _ (Or.inr (List.prefix_refl _)), k34])
      rw [FS.link?_of_leaf this]
      unfold FS.link?
      rw [g1]
    refine ⟨hw', hc, ?_, fun _ => l6, fun h => by rw [hm] at h; cases h⟩
    unfold servedDir
    rw [l6]
    exact f6
  · rw [if_neg hm] at hsw
    have f3 := renameCurrent_filled (hn.notCurrent st hrec) f2 hsw
    have f5 : Filled env w5.cur c.rsyncCurrent _ _ :=
      f3.of_get (fun q hq => by rw [k5 q (Or.inr hq), k34])
    have f6 : Filled env w'.cur c.rsyncCurrent _ _ :=
      f5.of_leaf (fun q hq => k6 q ((List.prefix_append _ _).trans hq)) k7
    refine ⟨hw', hc, ?_, fun h => absurd h hm, fun _ => f6.1.1⟩
    have : w'.cur.link? c.rsyncCurrent = none := by
      unfold FS.link?
      rw [f6.1.1]
    unfold servedDir
    rw [this]
    exact f6

/-! ## Before and after the rsync part of a run -/

theorem before_rsync {depth : Nat} {c : Config} {base name : Str} {fs : FS} {w0 w1 w2 w3 : World}
    {s s1 s2 : RrdpState} {st : StagedChanges} {n : Notif} (hc : RunConds c base name env fs)
    (h : AtPublish depth c base name env (World.start fs) s st w0 n)
    (e1 : moveStaged c st env w0 = (.ok (), w1)) (e2 : s.absorb st env w1 = (.ok s1, w2))
    (e3 : s1.clean c env w2 = (.ok s2, w3)) :
    w3.cur.WF ∧ ∀ q, ¬ c.stagingDir <+: q → ¬ c.rrdpDir <+: q → w3.cur.leaf q = fs.leaf q := by
  have hp := h.pubPre hc
  have hm := moveStaged_within (c := c) hp.goodSnap hp.goodDeltas env w0
  rw [e1] at hm
  have hw1 := hm.wf h.wf
  have hs := (absorb_ok e2).1
  have hw2 : w2.cur.WF := by rw [hs.1]; exact hw1
  have hcl := clean_dataPath (absorb_sane e2 hp.sane hp.goodSnap hp.goodDeltas) env w2 hw2
  rw [e3] at hcl
  refine ⟨hcl.wf hw2, fun q h1 h2 => ?_⟩
  have h3 : ¬ (applyEff c name).files q := by
    rintro (h | h)
    · exact h1 h
    · exact h2 h.below
  rw [hcl.frame hw2 q h3, hs.1, hm.frame h.wf q h3]
  exact h.within.frame hc.wf q h1

end KSync
