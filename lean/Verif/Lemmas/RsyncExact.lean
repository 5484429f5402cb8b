import Verif.Lemmas.RsyncLedger
import Verif.Lemmas.RsyncHistory

/-! # Nothing but the objects of a snapshot is in the directory of a revision -/

set_option linter.unusedSectionVars false
set_option linter.unusedVariables false

namespace KSync

variable [Ext] {env : Env} {w w' : World}

section
variable {life : SourceLife} {c : Config} {base name : Str} {p p' : Progress} {O : RsyncRevision → Path → Prop}

/-- In the directory of a revision there are only its objects `O`. -/
structure OnlyIn (c : Config) (O : RsyncRevision → Path → Prop) (f : FS) : Prop where
  wf : f.WF
  only : ∀ r q, f.leaf (r.path c ++ q) ≠ none → O r q

theorem OnlyIn.of_leaf {f f' : FS} (h : OnlyIn c O f) (hw : f'.WF)
    (hl : ∀ r q, f'.leaf (RsyncRevision.path r c ++ q) = f.leaf (r.path c ++ q) ∨
      f'.leaf (r.path c ++ q) = none ∨ O r q) : OnlyIn c O f' := by
  refine ⟨hw, fun r q hq => ?_⟩
  rcases hl r q with h1 | h1 | h1
  · rw [h1] at hq; exact h.only r q hq
  · exact absurd h1 hq
  · exact h1

theorem writeSnapshotTree_reads {out : Path} {ih : Bool} {src : Path} {E : Eff}
    (h : ∀ b, w.cur.read src = some b → ∀ e ∈ (Ext.streamSnapshot b).1, E.files (objectPath out ih e.1)) :
    Within E w (writeSnapshotTree out ih src env w).2 := by
  unfold writeSnapshotTree
  refine Tr.bindAt (T := Within E) (readFile_in src env w) (fun b w2 h2 => ?_)
  have hels := h b (readFile_ok h2).1
  refine (Rel.bind (Rel.forEach (fun e he => publishObject_in (hels e he))) (fun _ => ?_) :
    Rel (Within E) _) env w2
  rel_auto

theorem makeRevision_only {rev : RsyncRevision} {src : Path} (ho : CleanObjects c.rsyncIncludeHost)
    (hw : w.cur.WF) (hl : w.cur.link? src = none)
    (hO : ∀ b, w.cur.file? src = some b → ∀ e ∈ (Ext.streamSnapshot b).1,
      O rev (comps (objectRel c.rsyncIncludeHost e.1))) :
    Keeps (OnlyIn c O) w (makeRevision rev c src env w).2 := by
  have hmk : Does (MkDirs (rev.path c)) (createOutPath (rev.path c)) := by
    unfold createOutPath
    have := createDirAll_mkdirs (rev.path c)
    refine Rel.bind Rel.getFs (fun fs => ?_)
    split
    · exact Rel.pure _
    · exact this
  have first : Keeps (OnlyIn c O) w (createOutPath (rev.path c) env w).2 :=
    Keeps.of_steps ((hmk env w).and (createOutPath_in (E := anyEff) (out := rev.path c) trivial env w).steps)
      fun f f' h hm => h.of_leaf (hm.2 h.wf).1 fun r q => Or.inl (hm.1.leaf _)
  unfold makeRevision
  refine Tr.bindAt (T := Keeps _) first (fun _ w1 e1 => ?_)
  have hlf := createOutPath_leaf (env := env) (rev.path c) hw src
  rw [e1] at hlf
  have k := writeSnapshotTree_reads (env := env) (w := w1) (out := rev.path c) (ih := c.rsyncIncludeHost)
    (src := src) (E := Eff.only (fun q => ∃ o, O rev o ∧ q = rev.path c ++ o)) (fun b hb e he => by
      rw [FS.read_of_leaf hl hlf] at hb
      have hb := FS.file_of_read hb hl
      rw [objectPath_below (ho b e he)]
      exact ⟨_, hO b hb e he, rfl⟩)
  refine Keeps.of_within k fun f f' h hc => ?_
  obtain ⟨g1, g2⟩ := hc h.wf
  refine h.of_leaf g1 fun r q => ?_
  by_cases hq : ∃ o, O rev o ∧ r.path c ++ q = rev.path c ++ o
  · obtain ⟨o, h1, h2⟩ := hq
    have hr : r = rev := rev_apart (List.prefix_append _ q) (h2 ▸ List.prefix_append _ o)
    subst hr
    exact Or.inr (Or.inr ((List.append_cancel_left h2) ▸ h1))
  · exact Or.inl (g2 _ hq)

theorem symlinkCurrent_only {rev : RsyncRevision} :
    Keeps (OnlyIn c O) w (symlinkCurrent rev c env w).2 := by
  have k := symlinkCurrent_in (E := anyEff) (r := rev) (c := c) (fun _ _ => trivial) (fun _ _ => trivial) env w
  refine Keeps.of_steps ((symlinkCurrent_steps (rev := rev) (c := c) env w).and k.steps) ?_
  rintro f f' h ⟨g1, g2⟩
  refine h.of_leaf (g2 h.wf).1 fun r q => Or.inl (leaf_of_get (g1.1 _ ?_ ?_))
  · intro he
    exact rev_not_tmp (List.prefix_append (r.path c) q) (by rw [← he]; exact List.prefix_refl _)
  · intro he
    exact rev_not_current (List.prefix_append (r.path c) q) (by rw [← he]; exact List.prefix_refl _)

theorem cleanOld_only {st : RsyncDirState} : Keeps (OnlyIn c O) w (st.cleanOld c env w).2 := by
  refine Keeps.of_steps ((cleanOld_within (c := c)).steps.and (cleanOld_shrinks c st env w)) ?_
  rintro f f' h ⟨g1, g2⟩
  refine h.of_leaf (g1 h.wf).1 fun r q => ?_
  rcases g2 (r.path c ++ q) with h1 | h1
  · exact Or.inl (leaf_of_get h1)
  · exact Or.inr (Or.inl (by unfold FS.leaf; rw [h1]))

theorem persist_only {st : RsyncDirState} (ha : Apart c.rsyncDir c.rsyncStatePath) :
    Keeps (OnlyIn c O) w (st.persist c env w).2 := by
  have k1 := writeBuf_writing c.rsyncStatePath (Ext.encRsync st) env w
  have k2 := writeBuf_in (E := anyEff) (p := c.rsyncStatePath) trivial (Ext.encRsync st) env w
  refine Keeps.of_steps (k1.and k2.steps) ?_
  rintro f f' h ⟨⟨g1, g2⟩, g3⟩
  exact h.of_leaf (g3 h.wf).1 fun r q => Or.inl (g1 _ (fun he : r.path c ++ q = c.rsyncStatePath =>
    rsyncState_not_rev ha (r := r) (by rw [← he]; exact List.prefix_append _ _)))

theorem updateRsync_only {s : RrdpState} {x : SnapshotState} (hm : c.rsyncUseSymlinks = true)
    (ho : CleanObjects c.rsyncIncludeHost) (ha : Apart c.rsyncDir c.rsyncStatePath)
    (hs : s.snapshot = some x) (hw : w.cur.WF)
    (hl : w.cur.link? (s.mappings.path x.relPath) = none)
    (hO : ∀ b, w.cur.file? (s.mappings.path x.relPath) = some b → ∀ e ∈ (Ext.streamSnapshot b).1,
      O x.rev (comps (objectRel c.rsyncIncludeHost e.1))) :
    Keeps (OnlyIn c O) w (updateRsync s c env w).2 := by
  refine updateRsync_tr (T := Keeps _) hs ?_ ?_ ?_ ?_ ?_ ?_
  · exact Keeps.of_same (recover_same c env w)
  · intro st w1 e1
    have h1 := (recover_same c env w).cur
    rw [e1] at h1
    refine makeRevision_only ho ?_ ?_ ?_ <;> rw [show w1.cur = w.cur from h1]
    · exact hw
    · exact hl
    · exact hO
  · intro st w1 w2 _ _
    unfold switchTo
    rw [if_pos hm]
    exact symlinkCurrent_only
  · intro st w1 w2 w3 _ _ _
    exact Keeps.of_same (updateCurrent_same _ _ env w3)
  · intro st w1 w2 w3 st1 w4 _ _ _ _
    exact cleanOld_only
  · intro st w1 w2 w3 st1 w4 st2 w5 _ _ _ _ _
    exact persist_only ha

/-- The objects in the snapshots of a revision. -/
def ObjectOf (life : SourceLife) (ih : Bool) (r : RsyncRevision) (q : Path) : Prop :=
  ∃ p b, life.role p = ⟨true, r.session, r.serial, Ext.sha b⟩ ∧
    ∃ e ∈ (Ext.streamSnapshot b).1, comps (objectRel ih e.1) = q

theorem run_only {depth : Nat} {fs : FS} (hl : Layout c base name) (ho : CleanObjects c.rsyncIncludeHost)
    (he : c.rsyncEnabled = true) (hm : c.rsyncUseSymlinks = true) (hk : Kept life c base name p fs)
    (hr : GoodRun life c base name p p' depth env fs) (h : OnlyIn c (ObjectOf life c.rsyncIncludeHost) fs) :
    ∀ f ∈ (process depth c env (World.start fs)).2.crashPoints,
      OnlyIn c (ObjectOf life c.rsyncIncludeHost) f := by
  refine run_rsync_keeps hl (hk.conds hl (fun _ => ho) hr) he ?_ ?_ ?_
  · intro f hw hf
    exact h.of_leaf hw fun r q => Or.inl (hf _ (rev_below (List.prefix_append _ q)))
  · intro f f' hf hs hw
    exact hf.of_leaf hw fun r q => Or.inl (hs.1 _ (rev_below (List.prefix_append _ q)))
  · intro s x w hx
    obtain ⟨n, a1, a2, a3, a4⟩ := hx.version
    obtain ⟨etag, hn⟩ := a1.offers
    obtain ⟨b1, b2⟩ := hx.source
      ⟨hr.no304, hk.links, fun _ _ hn => (hr.lists _ _ hn).oneHash⟩
    refine updateRsync_only hm ho hl.rsyncRsyncState hx.snapshot hx.wf (by rw [hx.path]; exact b1) ?_
    rw [hx.path]
    intro b hb e hel
    refine ⟨comps x.relPath, b, ?_, e, hel, rfl⟩
    rw [(hr.lists _ _ hn).snapshot _ a4, b2 b hb, a3, a2]
    rfl

theorem NewLifetime.only {f : FS} (hl : Layout c base name) (ho : CleanObjects c.rsyncIncludeHost)
    (he : c.rsyncEnabled = true) (hm : c.rsyncUseSymlinks = true) (h : NewLifetime life c base name p f) :
    Kept life c base name p f ∧ OnlyIn c (ObjectOf life c.rsyncIncludeHost) f := by
  unfold NewLifetime at h
  induction h with
  | start h =>
    refine ⟨Kept.start h.pristine, h.wf, fun r q hq => ?_⟩
    have : _ = none := h.empty c.rsyncDir (by simp [Config.places]) (r.path c ++ q)
      ((List.prefix_append _ _).trans (List.prefix_append _ _))
    unfold FS.leaf at hq
    rw [this] at hq
    exact absurd rfl hq
  | run _ h1 h2 ih =>
    exact ⟨run_kept hl (fun _ => ho) ih.1 h1 _ h2, run_only hl ho he hm ih.1 h1 ih.2 _ h2⟩

theorem TimelyLifetime.newLifetime {f : FS} (h : TimelyLifetime life c base name p f) :
    NewLifetime life c base name p f := by
  unfold TimelyLifetime at h
  induction h with
  | start h => exact .start h
  | run _ h1 h2 ih => exact .run ih h1.good h2

theorem OnlyIn.objects {f : FS} {r : RsyncRevision} {b : Bytes}
    (h : OnlyIn c (ObjectOf life c.rsyncIncludeHost) f) (ho : OneSnapshot life)
    (hb : IsSnapshotOf life r b) :
    OnlyObjects f (r.path c) c.rsyncIncludeHost (Ext.streamSnapshot b).1 := by
  intro q hq
  obtain ⟨p', b', h1, e, h2, rfl⟩ := h.only r q hq
  obtain ⟨⟨p, h3⟩, _⟩ := hb
  have := ho _ _ _ _ _ _ h1 h3
  subst this
  exact lastObject_some h2

end

end KSync
