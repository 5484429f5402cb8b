import Verif.Lemmas.RsyncWhole

/-! # More on the instants of staging and moving -/

set_option linter.unusedSectionVars false
set_option linter.unusedVariables false

namespace KSync

variable [Ext]

/-! ## No links appear in the staging area -/

theorem Change.linkless {S : Path → Prop} {d : Path} (h0 : ∀ q, d <+: q → ¬ S q) {f f' : FS}
    (h : Change S f f') (hw : f.WF) (hl : NoLinks f d) : f'.WF ∧ NoLinks f' d := by
  obtain ⟨h1, h2⟩ := h hw
  exact ⟨h1, fun q hq => by rw [FS.link?_of_leaf (h2 q (h0 q hq))]; exact hl q hq⟩

theorem updateStaged_linkless (d : Path) (s : RrdpState) (c : Config) :
    Does (StaysLinkless d) (s.updateStaged c) := by
  unfold RrdpState.updateStaged
  have h1 : Does (StaysLinkless d) (c.fetcher.readNotification s.source.etag) :=
    Rel.quiet (readNotification_same _ _)
  have h2 := stage_linkless d s c
  rel_auto
  dsimp only
  rel_auto

/-- The staging area stays free of links while a run prepares. -/
theorem prepare_keeps_linkless {depth : Nat} {c : Config} {base name : Str} {env : Env} {w : World}
    (d : Path) (hc : RunConds c base name env w.cur) :
    Keeps (fun f => f.WF ∧ NoLinks f d) w (prepare depth c env w).2 := by
  let P : FS → Prop := fun f => f.WF ∧ NoLinks f d
  have quiet : ∀ {E : Eff} {w w' : World}, Within E w w' → (∀ q, ¬ E.files q) → Keeps P w w' :=
    fun h h0 => Keeps.of_within h (fun f f' hp h1 => Change.linkless (fun q _ => h0 q) h1 hp.1 hp.2)
  unfold prepare
  match h1 : loadState c env w with
  | (.error e, w1) =>
    rw [M.bind_of_error h1]
    have := loadState_in (E := Eff.none) c env w
    rw [h1] at this
    exact quiet this (fun q => id)
  | (.ok s, w1) =>
    rw [M.bind_of_ok h1]
    have hs1 := (loadState_ok h1).1
    refine Tr.trans (Keeps.of_same hs1) ?_
    have hsane := (loadState_inUse hc.uri h1).sane hc.state
    have h2 : Keeps P w1 (s.updateStaged c env w1).2 := by
      have k1 := updateStaged_linkless d s c env w1
      have k2 := updateStaged_within hc.uri hsane (w := w1) (env := env) (hs1.cur ▸ hc.source)
      refine Keeps.of_steps (k1.and k2.steps) ?_
      rintro f f' ⟨g1, g2⟩ ⟨g3, g4⟩
      exact ⟨(g4 g1).1, g3 g2⟩
    match h3 : s.updateStaged c env w1 with
    | (.error e, w2) => rw [M.bind_of_error h3]; rw [h3] at h2; exact h2
    | (.ok none, w2) => rw [M.bind_of_ok h3]; rw [h3] at h2; exact h2
    | (.ok (some st), w2) =>
      rw [M.bind_of_ok h3]
      rw [h3] at h2
      refine Tr.trans h2 ?_
      have hrest : Rel (Within noFilesEff)
          (s.preValidate depth c >>= fun s' => scriptGate c >>= fun _ => pure (some (s', st))) := by
        have k1 := preValidate_in (E := noFilesEff)
          (fun _ => trivial) depth s c
        have k2 := scriptGate_in (c := c)
          (E := noFilesEff) (fun _ _ => trivial)
        exact Rel.bind k1 (fun s' => Rel.bind k2 (fun _ => Rel.pure _))
      exact quiet (hrest env w2) (fun q => id)

theorem rename_linkless {a o t : Path} (ht : ∀ q, a <+: q → ¬ t <+: q) :
    Does (StaysLinkless a) (rename o t) := by
  intro env w
  have hend := rename_end o t env w
  match hr : rename o t env w with
  | (r, w2) =>
  rw [hr] at hend
  cases hend with
  | failed e => exact .same rfl rfl
  | noop => exact .same rfl rfl
  | movedDir h1 h2 h3 h4 h5 h6 h7 =>
    refine Steps.push Steps.refl (fun hl q hq => ?_) rfl
    rw [FS.link?_eq_none]
    intro l
    rw [FS.get_moveTree _ h1 h2, if_neg (ht q hq)]
    by_cases c2 : o <+: q
    · rw [if_pos c2]; simp
    · rw [if_neg c2]; exact FS.link?_eq_none.1 (hl q hq) l
  | movedFile n h1 h2 h3 h4 h5 h6 h7 =>
    refine Steps.push Steps.refl (fun hl q hq => ?_) rfl
    rw [FS.link?_eq_none]
    intro l
    have hqt : q ≠ t := by rintro rfl; exact ht q hq (List.prefix_refl _)
    rw [FS.get_set_ne _ _ hqt, FS.get_del]
    by_cases hc : q = o ∧ q ≠ []
    · rw [if_pos hc]; simp
    · rw [if_neg hc]; exact FS.link?_eq_none.1 (hl q hq) l

theorem removeFile_linkless (a o : Path) : Does (StaysLinkless a) (removeFile o) := by
  have del : ∀ f : FS, StaysLinkless a f (f.del o) := by
    intro f hl q hq
    rw [FS.link?_eq_none]
    intro l
    rw [FS.get_del]
    by_cases hc : q = o ∧ q ≠ []
    · rw [if_pos hc]; simp
    · rw [if_neg hc]; exact FS.link?_eq_none.1 (hl q hq) l
  unfold removeFile
  refine io_getFs_does (fun n env w => ?_)
  split
  · exact Steps.of_push (env := env) (del _)
  · exact Steps.of_push (env := env) (del _)
  · exact Steps.refl

theorem moveFile_linkless {a b : Path} {rel : Str} (hr : CleanRel rel) (hap : Apart b a) :
    Does (StaysLinkless a) (moveFile a b rel) := by
  rw [moveFile_eq, joinPath_clean hr, joinPath_clean hr]
  have htb : b <+: b ++ comps rel := List.prefix_append _ _
  have hq : ∀ q, a <+: q → ¬ b ++ comps rel <+: q := fun q h h' => hap.not_both (htb.trans h') h
  have h1 : Does (StaysLinkless a) (createPathForFile (b ++ comps rel)) :=
    Does.mono (createPathForFile_mkdirs _) (fun f f' h hl q hq => by
      rw [FS.link?_of_leaf (h.leaf q)]; exact hl q hq)
  have h2 := rename_linkless (o := a ++ comps rel) hq
  have h3 : Does (StaysLinkless a) (copyFile (a ++ comps rel) (b ++ comps rel)) :=
    Does.mono (copyFile_only _ _) (fun f f' h hl q hq' => by
      have : q ≠ b ++ comps rel := by rintro rfl; exact hq _ hq' (List.prefix_refl _)
      rw [FS.link?_of_leaf (h.leaf this)]; exact hl q hq')
  have h4 := removeFile_linkless a (a ++ comps rel)
  unfold moveTail
  rel_auto

/-! ## Moving files changes only the files named -/

/-- What moving can do to anything but the files themselves: `fs0` is the file system before. -/
structure MoveFrame (c : Config) (fs0 : FS) (rels : List Str) (f : FS) : Prop where
  noDirs : ∀ r ∈ rels, f.get (c.stagingDir ++ comps r) ≠ some .dir
  other : ∀ q, ¬ c.stagingDir <+: q → (∀ r ∈ rels, q ≠ c.rrdpDir ++ comps r) → f.leaf q = fs0.leaf q

theorem MoveFrame.mkdirs {c : Config} (hap : Apart c.rrdpDir c.stagingDir) {fs0 f f' : FS}
    {rels : List Str} {p t : Path} (ht : c.rrdpDir <+: t) (hp : p <+: t)
    (h : MoveFrame c fs0 rels f) (hm : MkDirs p f f') : MoveFrame c fs0 rels f' := by
  refine ⟨fun r hr => ?_, fun q h1 h2 => (hm.leaf q).trans (h.other q h1 h2)⟩
  rcases hm (c.stagingDir ++ comps r) with h2 | ⟨h2, _⟩
  · rw [h2]; exact h.noDirs r hr
  · exact (hap.not_both ht (((List.prefix_append _ _).trans h2).trans hp)).elim

theorem MoveFrame.onlyTarget {c : Config} (hap : Apart c.rrdpDir c.stagingDir) {fs0 f f' : FS}
    {rels : List Str} {r : Str} (hr : r ∈ rels) (h : MoveFrame c fs0 rels f)
    (hm : OnlyAt (c.rrdpDir ++ comps r) f f') : MoveFrame c fs0 rels f' := by
  refine ⟨fun r' hr' => ?_, fun q h1 h2 => ?_⟩
  · rw [hm _ (hap.symm.ne_append _ _)]
    exact h.noDirs r' hr'
  · rw [hm.leaf (h2 r hr)]; exact h.other q h1 h2

theorem MoveFrame.del {c : Config} {fs0 f : FS} {rels : List Str} {o : Path}
    (ho : c.stagingDir <+: o) (h : MoveFrame c fs0 rels f) : MoveFrame c fs0 rels (f.del o) := by
  refine ⟨fun r hr => ?_, fun q h1 h2 => ?_⟩
  · rw [FS.get_del]
    split
    · simp
    · exact h.noDirs r hr
  · rw [FS.leaf_del_ne]
    · exact h.other q h1 h2
    · rintro rfl; exact h1 ho

theorem moveFile_frame {c : Config} (hap : Apart c.rrdpDir c.stagingDir) {fs0 : FS}
    {rels : List Str} (hc : ∀ r ∈ rels, CleanRel r) {r : Str} (hr : r ∈ rels) :
    Rel (Keeps (MoveFrame c fs0 rels)) (moveFile c.stagingDir c.rrdpDir r) := by
  have hcl := hc r hr
  have htb : c.rrdpDir <+: c.rrdpDir ++ comps r := List.prefix_append _ _
  rw [moveFile_eq, joinPath_clean hcl, joinPath_clean hcl]
  have h1 : Rel (Keeps (MoveFrame c fs0 rels)) (createPathForFile (c.rrdpDir ++ comps r)) :=
    fun env w => Keeps.of_steps (createPathForFile_mkdirs _ env w)
      (fun f f' h hm => h.mkdirs hap htb (List.dropLast_prefix _) hm)
  have h3 : Rel (Keeps (MoveFrame c fs0 rels))
      (copyFile (c.stagingDir ++ comps r) (c.rrdpDir ++ comps r)) :=
    fun env w => Keeps.of_steps (copyFile_only _ _ env w) (fun f f' h hm => h.onlyTarget hap hr hm)
  have h4 : Rel (Keeps (MoveFrame c fs0 rels)) (removeFile (c.stagingDir ++ comps r)) := by
    intro env w
    refine Keeps.of_steps (R := fun f f' => f' = f.del (c.stagingDir ++ comps r)) ?_
      (fun f f' h hm => hm ▸ h.del (List.prefix_append _ _))
    have : Does (fun f f' => f' = f.del (c.stagingDir ++ comps r))
        (removeFile (c.stagingDir ++ comps r)) := by
      unfold removeFile
      refine io_getFs_does (fun n env w => ?_)
      split
      · exact Steps.of_push (env := env) rfl
      · exact Steps.of_push (env := env) rfl
      · exact Steps.refl
    exact this env w
  have h2 : Rel (Keeps (MoveFrame c fs0 rels))
      (rename (c.stagingDir ++ comps r) (c.rrdpDir ++ comps r)) := by
    intro env w hP
    have hend := rename_end (c.stagingDir ++ comps r) (c.rrdpDir ++ comps r) env w
    match hr' : rename (c.stagingDir ++ comps r) (c.rrdpDir ++ comps r) env w with
    | (res, w2) =>
    rw [hr'] at hend
    cases hend with
    | failed e => exact ⟨hP, fun f hf => Or.inl hf⟩
    | noop => exact ⟨hP, fun f hf => Or.inl hf⟩
    | movedDir g1 g2 g3 g4 g5 g6 g7 => exact (hP.noDirs r hr g4).elim
    | movedFile n g1 g2 g3 g4 g5 g6 g7 =>
      refine ⟨?_, fun f hf => ?_⟩
      · exact (hP.del (o := c.stagingDir ++ comps r) (List.prefix_append _ _)).onlyTarget hap hr
          (fun q hq => FS.get_set_ne _ _ hq)
      · rcases List.mem_cons.1 hf with rfl | hf
        · exact Or.inr hP
        · exact Or.inl hf
  unfold moveTail
  rel_auto

/-- While the staged files are moved, nothing but they and the staging area changes, even if they
have to be copied. -/
theorem moveStaged_frame {c : Config} {name : Str} {st : StagedChanges}
    (hap : Apart c.rrdpDir c.stagingDir) (h1 : GoodRel name st.snapshot.relPath)
    (h2 : ∀ d ∈ st.deltas, GoodRel name d.relPath) (fs0 : FS) :
    Rel (Keeps (MoveFrame c fs0 st.rels)) (moveStaged c st) := by
  rw [moveStaged_eq]
  refine Rel.forEach (fun r hr => moveFile_frame hap ?_ hr)
  intro rel hrel
  unfold StagedChanges.rels at hrel
  rcases List.mem_cons.1 hrel with rfl | h
  · exact h1.clean
  · obtain ⟨d, hd, rfl⟩ := List.mem_map.1 h
    exact (h2 d hd).clean

theorem moveStaged_linkless {c : Config} {name : Str} {st : StagedChanges}
    (hap : Apart c.rrdpDir c.stagingDir) (h1 : GoodRel name st.snapshot.relPath)
    (h2 : ∀ d ∈ st.deltas, GoodRel name d.relPath) :
    Does (StaysLinkless c.stagingDir) (moveStaged c st) := by
  rw [moveStaged_eq]
  refine Rel.forEach (fun rel hrel => moveFile_linkless ?_ hap)
  unfold StagedChanges.rels at hrel
  rcases List.mem_cons.1 hrel with rfl | h
  · exact h1.clean
  · obtain ⟨d, hd, rfl⟩ := List.mem_map.1 h
    exact (h2 d hd).clean

end KSync
