import Verif.Spec.RsyncLedger
import Verif.Lemmas.RsyncMoves

/-! # No file in the rsync directory is forgotten (C65) -/

set_option linter.unusedSectionVars false
set_option linter.unusedVariables false

namespace KSync

variable [Ext] {env : Env} {w w' : World}

/-- There is no file or link in the place of a revision or of the state. -/
structure RevsClear (c : Config) (f : FS) : Prop where
  wf : f.WF
  state : f.link? c.rsyncStatePath = none
  revs : ∀ r : RsyncRevision, f.leaf (r.path c) = none

theorem MoveServed.clear {c : Config} {B : Notif → Prop} {f : FS} (h : MoveServed c B f) : RevsClear c f :=
  ⟨h.wf, h.state, h.revs⟩

theorem RevsClear.of_leaf {c : Config} {f f' : FS} (h : RevsClear c f) (hw : f'.WF)
    (hl : ∀ q, RsyncArea c q → f'.leaf q = f.leaf q) : RevsClear c f' := by
  refine ⟨hw, ?_, fun r => ?_⟩
  · rw [FS.link?_of_leaf (hl _ (Or.inr rfl))]; exact h.state
  · rw [hl (r.path c) (Or.inl (List.prefix_append _ _))]; exact h.revs r

theorem RevsClear.start {c : Config} {f : FS} (hw : f.WF) (h : RsyncUnused c f) : RevsClear c f :=
  (MoveServed.start (B := fun _ => True) hw h).clear

section

variable {c : Config} {rev : RsyncRevision} {src : Path} {st : RsyncDirState}

theorem makeRevision_clear (ho : CleanObjects c.rsyncIncludeHost)
    (ha : Apart c.rsyncDir c.rsyncStatePath) (h0 : RevsClear c w.cur) :
    Keeps (RevsClear c) w (makeRevision rev c src env w).2 := by
  have hmk : Does (MkDirs (rev.path c)) (createOutPath (rev.path c)) := by
    unfold createOutPath
    have := createDirAll_mkdirs (rev.path c)
    refine Rel.bind Rel.getFs (fun fs => ?_)
    split
    · exact Rel.pure _
    · exact this
  have first : Keeps (RevsClear c) w (createOutPath (rev.path c) env w).2 :=
    Keeps.of_steps ((hmk env w).and (createOutPath_in (E := anyEff) (out := rev.path c) trivial env w).steps)
      fun f f' h hm => h.of_leaf (hm.2 h.wf).1 fun q _ => hm.1.leaf q
  unfold makeRevision
  refine Tr.bindAt (T := Keeps _) first (fun _ w1 e1 => ?_)
  rw [e1] at first
  have hm1 := (first h0).1
  have hd := (createOutPath_ok (h0.revs rev) e1).2
  have k2 := writeSnapshotTree_in (E := Eff.only (rev.path c <+: ·)) (out := rev.path c)
    (ih := c.rsyncIncludeHost) (snapshot := src) (fun b e he => by
      rw [objectPath_below (ho b e he)]; exact List.prefix_append _ _) env w1
  have k3 := writeSnapshotTree_dirAt (rev.path c) (rev.path c) c.rsyncIncludeHost src env w1
  have k4 : Keeps (fun f => Change (rev.path c <+: ·) w1.cur f) w1
      (writeSnapshotTree (rev.path c) c.rsyncIncludeHost src env w1).2 :=
    Keeps.of_within k2 fun f f' h hc hw => by
      obtain ⟨g1, g2⟩ := h hw
      obtain ⟨g3, g4⟩ := hc g1
      exact ⟨g3, g2.trans g4⟩
  refine Keeps.via (k4.and k3) ⟨fun hw => ⟨hw, Frame.refl _⟩, hd⟩ ?_
  rintro f ⟨h1, h2⟩
  obtain ⟨g1, g2⟩ := h1 hm1.wf
  refine ⟨g1, ?_, fun r => ?_⟩
  · rw [FS.link?_of_leaf (g2 _ (rsyncState_not_rev ha))]; exact hm1.state
  · by_cases hr : r = rev
    · subst hr; exact leaf_of_dir h2
    · rw [g2 _ (fun h => hr (rev_apart (List.prefix_refl _) h))]
      exact hm1.revs r

theorem symlinkCurrent_clear (ha : Apart c.rsyncDir c.rsyncStatePath) :
    Keeps (RevsClear c) w (symlinkCurrent rev c env w).2 := by
  have k := symlinkCurrent_in (E := anyEff) (r := rev) (c := c) (fun _ _ => trivial) (fun _ _ => trivial) env w
  refine Keeps.of_steps ((symlinkCurrent_steps (rev := rev) (c := c) env w).and k.steps) ?_
  rintro f f' h ⟨g1, g2⟩
  refine ⟨(g2 h.wf).1, ?_, fun r => ?_⟩
  · rw [FS.link?_of_leaf (leaf_of_get (g1.1 _ ?_ ?_))]
    · exact h.state
    · intro he
      exact ha.1 (by rw [he]; exact List.prefix_append _ _)
    · intro he
      exact ha.1 (by rw [he]; exact List.prefix_append _ _)
  · rw [leaf_of_get (g1.1 (r.path c) ?_ ?_)]
    · exact h.revs r
    · intro he
      exact rev_not_tmp (List.prefix_refl (r.path c)) (by rw [← he]; exact List.prefix_refl _)
    · intro he
      exact rev_not_current (List.prefix_refl (r.path c)) (by rw [← he]; exact List.prefix_refl _)

theorem cleanOld_clear (ha : Apart c.rsyncDir c.rsyncStatePath) :
    Keeps (RevsClear c) w (st.cleanOld c env w).2 := by
  refine Keeps.of_steps ((cleanOld_within (c := c)).steps.and (cleanOld_shrinks c st env w)) ?_
  rintro f f' h ⟨g1, g2⟩
  refine ⟨(g1 h.wf).1, ?_, fun r => ?_⟩
  · rw [FS.link?_of_leaf ((g1 h.wf).2 _ ?_)]
    · exact h.state
    · rintro ⟨d, _, _, h⟩
      exact rsyncState_not_rev ha h
  · rcases g2 (r.path c) with h1 | h1
    · rw [leaf_of_get h1]; exact h.revs r
    · unfold FS.leaf; rw [h1]

theorem persist_clear (ha : Apart c.rsyncDir c.rsyncStatePath) :
    Keeps (RevsClear c) w (st.persist c env w).2 := by
  have k1 := writeBuf_writing c.rsyncStatePath (Ext.encRsync st) env w
  have k2 := writeBuf_in (E := anyEff) (p := c.rsyncStatePath) trivial (Ext.encRsync st) env w
  refine Keeps.of_steps (k1.and k2.steps) ?_
  rintro f f' h ⟨⟨g1, g2⟩, g3⟩
  refine ⟨(g3 h.wf).1, ?_, fun r => ?_⟩
  · rcases g2 with g2 | ⟨k, t, g2⟩
    · rw [FS.link?_of_leaf g2]; exact h.state
    · unfold FS.link?
      rw [file_of_leaf g2]
  · rw [g1 _ (fun he : r.path c = c.rsyncStatePath =>
        rsyncState_not_rev ha (r := r) (by rw [he]; exact List.prefix_refl _))]
    exact h.revs r

end

/-! ## The state mentions what is there -/

/-- As `RsyncAccounted`, for a given state. -/
def HeldBy (c : Config) (st : RsyncDirState) (A : Path → Prop) (f : FS) : Prop :=
  ∀ q, c.rsyncDir <+: q → f.leaf q ≠ none →
    c.rsyncCurrent <+: q ∨ (∃ r : RsyncRevision, st.Mentions r ∧ r.path c <+: q) ∨ A q

theorem HeldBy.mono {c : Config} {st : RsyncDirState} {A A' : Path → Prop} {f : FS}
    (h : HeldBy c st A f) (hA : ∀ q, A q → A' q) : HeldBy c st A' f :=
  fun q h1 h2 => (h q h1 h2).imp id (Or.imp id (hA q))

theorem HeldBy.frame {c : Config} {st : RsyncDirState} {A A' : Path → Prop} {f f' : FS}
    (h : HeldBy c st A f) (hA : ∀ q, A q → A' q)
    (hf : ∀ q, c.rsyncDir <+: q → f'.leaf q = f.leaf q ∨ f'.leaf q = none ∨ c.rsyncCurrent <+: q ∨
      (∃ r : RsyncRevision, st.Mentions r ∧ r.path c <+: q) ∨ A' q) : HeldBy c st A' f' := by
  intro q h1 h2
  rcases hf q h1 with h3 | h3 | h3 | h3 | h3
  · rw [h3] at h2
    exact (h q h1 h2).imp id (Or.imp id (hA q))
  · exact absurd h3 h2
  · exact Or.inl h3
  · exact Or.inr (Or.inl h3)
  · exact Or.inr (Or.inr h3)

theorem rsyncState_outside {c : Config} (ha : Apart c.rsyncDir c.rsyncStatePath) {q : Path}
    (h : c.rsyncDir <+: q) : q ≠ c.rsyncStatePath := fun he => ha.1 (he ▸ h)

section

variable {s : RrdpState} {c : Config} {x : SnapshotState} {A : Path → Prop}

/-- What may be found while the rsync directory is being updated. -/
def WithRevision (c : Config) (A : Path → Prop) (rev : RsyncRevision) (q : Path) : Prop :=
  A q ∨ q = c.rsyncTmp ∨ rev.path c <+: q

/-- All is as before but for files that may be there. -/
structure Held (c : Config) (st : RsyncDirState) (A : Path → Prop) (f0 f : FS) : Prop where
  wf : f.WF
  state : f.leaf c.rsyncStatePath = f0.leaf c.rsyncStatePath
  held : HeldBy c st A f

theorem Held.accounted {st : RsyncDirState} {f0 f : FS} (h : Held c st A f0 f)
    (hr : RsyncRecorded c f0 st) : RsyncAccounted c A f := by
  intro st' h' 
  rw [(RsyncRecorded.of_leaf h.state h').unique hr]
  exact h.held

theorem makeRevision_held {st : RsyncDirState} {rev : RsyncRevision} {src : Path} {f0 : FS}
    (ho : CleanObjects c.rsyncIncludeHost) (ha : Apart c.rsyncDir c.rsyncStatePath) :
    Keeps (Held c st (WithRevision c A rev) f0) w (makeRevision rev c src env w).2 := by
  refine Keeps.of_within (makeRevision_in ho env w) ?_
  intro f f' h hc
  obtain ⟨g1, g2⟩ := hc h.wf
  refine ⟨g1, by rw [g2 _ (rsyncState_not_rev ha)]; exact h.state, h.held.frame (fun _ h => h) fun q hq => ?_⟩
  by_cases hr : rev.path c <+: q
  · exact Or.inr (Or.inr (Or.inr (Or.inr (Or.inr (Or.inr hr)))))
  · exact Or.inl (g2 q hr)

theorem symlinkCurrent_held {st : RsyncDirState} {rev : RsyncRevision} {f0 : FS}
    (ha : Apart c.rsyncDir c.rsyncStatePath) :
    Keeps (Held c st (WithRevision c A rev) f0) w (symlinkCurrent rev c env w).2 := by
  have k := symlinkCurrent_in (E := anyEff) (r := rev) (c := c) (fun _ _ => trivial) (fun _ _ => trivial) env w
  refine Keeps.of_steps ((symlinkCurrent_steps (rev := rev) (c := c) env w).and k.steps) ?_
  rintro f f' h ⟨g1, g2⟩
  refine ⟨(g2 h.wf).1, ?_, h.held.frame (fun _ h => h) fun q hq => ?_⟩
  · rw [leaf_of_get (g1.1 _ ?_ ?_)]
    · exact h.state
    · intro he
      exact ha.1 (by rw [he]; exact List.prefix_append _ _)
    · intro he
      exact ha.1 (by rw [he]; exact List.prefix_append _ _)
  · by_cases h1 : q = c.rsyncTmp
    · exact Or.inr (Or.inr (Or.inr (Or.inr (Or.inr (Or.inl h1)))))
    · by_cases h2 : q = c.rsyncCurrent
      · exact Or.inr (Or.inr (Or.inl (h2 ▸ List.prefix_refl _)))
      · exact Or.inl (leaf_of_get (g1.1 q h1 h2))

theorem renameCurrent_held {st : RsyncDirState} {rev : RsyncRevision} {f0 : FS} {A' : Path → Prop}
    (ha : Apart c.rsyncDir c.rsyncStatePath) (hA : ∀ q, rev.path c <+: q → A' q) :
    Keeps (Held c st A' f0) w (renameCurrent rev st c env w).2 := by
  have k := renameCurrent_in (E := Eff.only fun q => (∃ old, st.current = some old ∧ old.path c <+: q) ∨
    c.rsyncCurrent <+: q ∨ rev.path c <+: q) (r := rev) (s := st) (c := c)
    (fun old h q hq => Or.inl ⟨old, h, hq⟩) (fun q hq => Or.inr (Or.inl hq))
    (fun q hq => Or.inr (Or.inr hq)) env w
  refine Keeps.of_within k ?_
  intro f f' h hc
  obtain ⟨g1, g2⟩ := hc h.wf
  refine ⟨g1, ?_, h.held.frame (fun _ h => h) fun q hq => ?_⟩
  · rw [g2 _ ?_]
    · exact h.state
    · rintro (⟨old, _, h1⟩ | h1 | h1)
      · exact rsyncState_not_rev ha h1
      · exact rsyncState_not_current ha h1
      · exact rsyncState_not_rev ha h1
  · by_cases h1 : (∃ old, st.current = some old ∧ old.path c <+: q) ∨
      c.rsyncCurrent <+: q ∨ rev.path c <+: q
    · rcases h1 with ⟨old, h1, h2⟩ | h1 | h1
      · exact Or.inr (Or.inr (Or.inr (Or.inl ⟨old, Or.inl h1, h2⟩)))
      · exact Or.inr (Or.inr (Or.inl h1))
      · exact Or.inr (Or.inr (Or.inr (Or.inr (hA q h1))))
    · exact Or.inl (g2 q h1)

theorem switchTo_held {st : RsyncDirState} {rev : RsyncRevision} {f0 : FS}
    (ha : Apart c.rsyncDir c.rsyncStatePath) :
    Keeps (Held c st (WithRevision c A rev) f0) w (switchTo rev st c env w).2 := by
  unfold switchTo
  by_cases hm : c.rsyncUseSymlinks = true
  · rw [if_pos hm]; exact symlinkCurrent_held ha
  · rw [if_neg hm]; exact renameCurrent_held ha fun q hq => Or.inr (Or.inr hq)

theorem cleanOld_held {st st1 : RsyncDirState} {f0 : FS} {A' : Path → Prop}
    (ha : Apart c.rsyncDir c.rsyncStatePath) :
    Keeps (Held c st A' f0) w (st1.cleanOld c env w).2 := by
  refine Keeps.of_steps ((cleanOld_within (c := c)).steps.and (cleanOld_shrinks c st1 env w)) ?_
  rintro f f' h ⟨g1, g2⟩
  refine ⟨(g1 h.wf).1, ?_, h.held.frame (fun _ h => h) fun q hq => ?_⟩
  · rw [(g1 h.wf).2 _ ?_]
    · exact h.state
    · rintro ⟨d, _, _, h⟩
      exact rsyncState_not_rev ha h
  · rcases g2 q with h1 | h1
    · exact Or.inl (leaf_of_get h1)
    · exact Or.inr (Or.inl (by unfold FS.leaf; rw [h1]))

theorem FS.none_of_cleared {f : FS} (hw : f.WF) {p q : Path} (h1 : f.exists? p = false)
    (h2 : f.leaf p = none) (hq : p <+: q) : f.leaf q = none := by
  have h3 : f.get p = none := by
    unfold FS.leaf at h2
    unfold FS.exists? FS.resolve at h1
    match hg : f.get p with
    | none => rfl
    | some .dir => rw [hg] at h1; cases h1
    | some (.file _ _) => rw [hg] at h2; cases h2
    | some (.link _) => rw [hg] at h2; cases h2
  by_cases he : p = q
  · rw [← he]; exact h2
  · unfold FS.leaf
    rw [hw.none_below hq he (by rw [h3]; exact fun h => nomatch h)]

/-- The new state mentions all that is left. -/
theorem held_after {st st1 st2 : RsyncDirState} {rev : RsyncRevision} {w3 w4 w5 : World} {A' : Path → Prop}
    (hw : w3.cur.WF) (h3 : HeldBy c st A' w3.cur)
    (hA : ∀ q, A' q → w3.cur.leaf q ≠ none → A q ∨ rev.path c <+: q)
    (e4 : st.updateCurrent rev env w3 = (.ok st1, w4)) (e5 : st1.cleanOld c env w4 = (.ok st2, w5))
    (hc : RevsClear c w5.cur) : HeldBy c st2 A w5.cur := by
  obtain ⟨u1, u2, _, u3⟩ := updateCurrent_ok e4
  obtain ⟨c1, c2, c3⟩ := cleanOld_ok e5
  have hsh := (cleanOld_shrinks c st1 env w4).ends Shrinks.refl (fun _ _ _ h h' => h.trans h')
  rw [e5] at hsh
  intro q hq hl
  have hl3 : w3.cur.leaf q ≠ none := by
    rw [← u2.cur]
    rcases hsh q with h | h
    · rw [leaf_of_get h] at hl; exact hl
    · exact absurd (by unfold FS.leaf; rw [h]) hl
  have known : ∀ d ∈ st1.old, d.revision.path c <+: q →
      ∃ r : RsyncRevision, st2.Mentions r ∧ r.path c <+: q := by
    intro d hd hr
    by_cases hdue : env.clock w4.tick < d.since + c.cleanupAfter
    · exact ⟨d.revision, Or.inr ⟨d, (c2 d).2 ⟨hd, hdue⟩, rfl⟩, hr⟩
    · exact absurd (FS.none_of_cleared hc.wf (c3 d hd (Int.not_lt.1 hdue)) (hc.revs _) hr) hl
  rcases h3 q hq hl3 with h | ⟨r, h | ⟨d, h, hd⟩, hr⟩ | h
  · exact Or.inl h
  · refine Or.inr (Or.inl ?_)
    rcases u3 with ⟨h', _⟩ | ⟨old, h', h'', _⟩
    · rw [h'] at h; cases h
    · rw [h'] at h
      injection h with h
      refine known ⟨_, old⟩ (by rw [h'']; exact List.mem_append_right _ (List.mem_singleton.2 rfl)) ?_
      rw [h]; exact hr
  · refine Or.inr (Or.inl (known d ?_ (hd ▸ hr)))
    rcases u3 with ⟨_, h'⟩ | ⟨old, _, h', _⟩
    · rw [h']; exact h
    · rw [h']; exact List.mem_append_left _ h
  · rcases hA q h hl3 with h | h
    · exact Or.inr (Or.inr h)
    · exact Or.inr (Or.inl ⟨rev, Or.inl (by rw [c1, u1]), h⟩)

theorem persist_held {st st2 : RsyncDirState} {f0 : FS} {A' : Path → Prop}
    (ha : Apart c.rsyncDir c.rsyncStatePath) (hr : RsyncRecorded c f0 st)
    (h1 : Held c st A' f0 w.cur) (h2 : HeldBy c st2 A w.cur) (hA : ∀ q, A q → A' q) :
    Keeps (fun f => f.WF ∧ RsyncAccounted c A' f) w (st2.persist c env w).2 ∧
    ((st2.persist c env w).1 = .ok () → RsyncAccounted c A (st2.persist c env w).2.cur) := by
  have k1 := writeBuf_writing c.rsyncStatePath (Ext.encRsync st2) env w
  have k2 := writeBuf_in (E := anyEff) (p := c.rsyncStatePath) trivial (Ext.encRsync st2) env w
  have k3 : Keeps (fun f => f.WF ∧ (∀ q, q ≠ c.rsyncStatePath → f.leaf q = w.cur.leaf q) ∧
      (f.leaf c.rsyncStatePath = w.cur.leaf c.rsyncStatePath ∨ ∃ k t, f.leaf c.rsyncStatePath =
        some (.file ((Ext.encRsync st2).take k) t))) w (writeBuf c.rsyncStatePath (Ext.encRsync st2) env w).2 := by
    refine Keeps.of_steps (k1.and k2.steps) ?_
    rintro f f' ⟨h1, h2, h3⟩ ⟨⟨g1, g2⟩, g3⟩
    refine ⟨(g3 h1).1, fun q hq => by rw [g1 q hq, h2 q hq], ?_⟩
    rcases g2 with g2 | g2
    · rw [g2]; exact h3
    · exact Or.inr g2
  have whole : ∀ f : FS, (∀ q, q ≠ c.rsyncStatePath → f.leaf q = w.cur.leaf q) →
      HeldBy c st2 A f := fun f hf q hq hl => h2 q hq (by rw [← hf q (rsyncState_outside ha hq)]; exact hl)
  constructor
  · refine Keeps.via k3 ⟨h1.wf, fun _ _ => rfl, Or.inl rfl⟩ ?_
    rintro f ⟨g1, g2, g3⟩
    refine ⟨g1, ?_⟩
    rcases g3 with g3 | ⟨k, t, g3⟩
    · exact Held.accounted (f0 := f0) ⟨g1, by rw [g3]; exact h1.state, h1.held.frame (fun _ h => h) fun q hq =>
        Or.inl (g2 q (rsyncState_outside ha hq))⟩ hr
    · rintro st' (⟨b, h3, h4⟩ | ⟨h3, _⟩)
      · have hb : f.file? c.rsyncStatePath = some ((Ext.encRsync st2).take k) := by
          unfold FS.file?
          rw [file_of_leaf g3]
        rw [hb] at h3
        injection h3 with h3
        subst h3
        have hk : ¬ k < (Ext.encRsync st2).length := fun hk => by
          rw [Ext.dec_rsync_torn st2 k hk] at h4; cases h4
        rw [List.take_of_length_le (Nat.le_of_not_lt hk), Ext.dec_enc_rsync] at h4
        injection h4 with h4
        subst h4
        exact (whole f g2).mono hA
      · rw [h3] at g3; cases g3
  · intro hok
    have hkf := (k3 ⟨h1.wf, fun _ _ => rfl, Or.inl rfl⟩).1
    obtain ⟨_, ⟨t, ht⟩, _⟩ := writeBuf_ok (Prod.ext hok rfl :
      writeBuf c.rsyncStatePath (Ext.encRsync st2) env w = (.ok (), _))
    rintro st' (⟨b, h3, h4⟩ | ⟨h3, _⟩)
    · rw [show (st2.persist c env w).2.cur.file? c.rsyncStatePath = some (Ext.encRsync st2) from by
        unfold FS.file?; rw [show (st2.persist c env w).2.cur.get _ = _ from ht]] at h3
      injection h3 with h3
      subst h3
      rw [Ext.dec_enc_rsync] at h4
      injection h4 with h4
      subst h4
      exact whole _ hkf.2.1
    · unfold FS.leaf at h3
      rw [show (st2.persist c env w).2.cur.get _ = _ from ht] at h3
      cases h3

/-- The rsync part. -/
theorem updateRsync_held {base name : Str} {fs : FS}
    (ho : CleanObjects c.rsyncIncludeHost) (ha : Apart c.rsyncDir c.rsyncStatePath)
    (hs : s.snapshot = some x) (hcl : RevsClear c w.cur) (h0 : RsyncAccounted c A w.cur)
    (h5 : ∀ st w1 w2 w3 st1 w4 st2 w5, RsyncDirState.recover c env w = (.ok st, w1) →
      makeRevision x.rev c (s.mappings.path x.relPath) env w1 = (.ok (), w2) →
      switchTo x.rev st c env w2 = (.ok (), w3) → st.updateCurrent x.rev env w3 = (.ok st1, w4) →
      st1.cleanOld c env w4 = (.ok st2, w5) → RevsClear c w5.cur) :
    Keeps (fun f => f.WF ∧ RsyncAccounted c (WithRevision c A x.rev) f) w (updateRsync s c env w).2 ∧
    ((updateRsync s c env w).1 = .ok () → RsyncAccounted c A (updateRsync s c env w).2.cur) := by
  have hmono : ∀ q, A q → WithRevision c A x.rev q := fun q h => Or.inl h
  have at1 : ∀ st w1, RsyncDirState.recover c env w = (.ok st, w1) → RsyncRecorded c w.cur st ∧
      Held c st A w.cur w1.cur ∧ Held c st (WithRevision c A x.rev) w.cur w1.cur := by
    intro st w1 e1
    obtain ⟨s1, hrec⟩ := recover_ok hcl.state e1
    have h1 : Held c st A w.cur w1.cur :=
      ⟨by rw [s1.cur]; exact hcl.wf, by rw [s1.cur], by rw [s1.cur]; exact h0 st hrec⟩
    exact ⟨hrec, h1, ⟨h1.wf, h1.state, h1.held.mono hmono⟩⟩
  have at2 : ∀ st w1 w2, RsyncDirState.recover c env w = (.ok st, w1) →
      makeRevision x.rev c (s.mappings.path x.relPath) env w1 = (.ok (), w2) →
      Held c st (WithRevision c A x.rev) w.cur w2.cur ∧
        HeldBy c st (fun q => A q ∨ x.rev.path c <+: q) w2.cur := by
    intro st w1 w2 e1 e2
    obtain ⟨hrec, h1, h1'⟩ := at1 st w1 e1
    have k := makeRevision_held (A := A) (env := env) (w := w1) (st := st) (rev := x.rev)
      (src := s.mappings.path x.relPath) (f0 := w.cur) ho ha
    have k2 := (makeRevision_in (rev := x.rev) (src := s.mappings.path x.relPath) ho env w1).frame h1.wf
    rw [e2] at k k2
    refine ⟨(k h1').1, h1.held.frame (fun _ h => Or.inl h) fun q hq => ?_⟩
    by_cases hr : x.rev.path c <+: q
    · exact Or.inr (Or.inr (Or.inr (Or.inr (Or.inr hr))))
    · exact Or.inl (k2 q hr)
  have at3 : ∀ st w1 w2 w3, RsyncDirState.recover c env w = (.ok st, w1) →
      makeRevision x.rev c (s.mappings.path x.relPath) env w1 = (.ok (), w2) →
      switchTo x.rev st c env w2 = (.ok (), w3) →
      Held c st (WithRevision c A x.rev) w.cur w3.cur ∧
        ∃ A', HeldBy c st A' w3.cur ∧ ∀ q, A' q → w3.cur.leaf q ≠ none → A q ∨ x.rev.path c <+: q := by
    intro st w1 w2 w3 e1 e2 e3
    obtain ⟨g1, g2⟩ := at2 st w1 w2 e1 e2
    have k := switchTo_held (A := A) (env := env) (w := w2) (st := st) (rev := x.rev) (f0 := w.cur) ha
    rw [e3] at k
    have k' := (k g1).1
    refine ⟨k', ?_⟩
    by_cases hm : c.rsyncUseSymlinks = true
    · refine ⟨WithRevision c A x.rev, k'.held, ?_⟩
      rintro q (h | rfl | h) hl
      · exact Or.inl h
      · unfold switchTo at e3
        rw [if_pos hm] at e3
        exact absurd (by unfold FS.leaf; rw [symlinkCurrent_noTmp e3]) hl
      · exact Or.inr h
    · refine ⟨fun q => A q ∨ x.rev.path c <+: q, ?_, fun _ h _ => h⟩
      have k2 := renameCurrent_held (env := env) (w := w2) (st := st) (rev := x.rev) (f0 := w.cur)
        (A' := fun q => A q ∨ x.rev.path c <+: q) ha (fun q h => Or.inr h)
      unfold switchTo at e3
      rw [if_neg hm] at e3
      rw [e3] at k2
      exact (k2 ⟨g1.wf, g1.state, g2⟩).1.held
  have at5 : ∀ st w1 w2 w3 st1 w4 st2 w5, RsyncDirState.recover c env w = (.ok st, w1) →
      makeRevision x.rev c (s.mappings.path x.relPath) env w1 = (.ok (), w2) →
      switchTo x.rev st c env w2 = (.ok (), w3) → st.updateCurrent x.rev env w3 = (.ok st1, w4) →
      st1.cleanOld c env w4 = (.ok st2, w5) →
      Keeps (fun f => f.WF ∧ RsyncAccounted c (WithRevision c A x.rev) f) w5 (st2.persist c env w5).2 ∧
      ((st2.persist c env w5).1 = .ok () → RsyncAccounted c A (st2.persist c env w5).2.cur) := by
    intro st w1 w2 w3 st1 w4 st2 w5 e1 e2 e3 e4 e5
    obtain ⟨g1, A', g2, g3⟩ := at3 st w1 w2 w3 e1 e2 e3
    obtain ⟨_, s4, _, _⟩ := updateCurrent_ok e4
    have k := cleanOld_held (env := env) (w := w4) (st := st) (st1 := st1) (f0 := w.cur)
      (A' := WithRevision c A x.rev) ha
    rw [e5] at k
    exact persist_held ha (at1 st w1 e1).1 (k (by rw [s4.cur]; exact g1)).1
      (held_after g1.wf g2 g3 e4 e5 (h5 st w1 w2 w3 st1 w4 st2 w5 e1 e2 e3 e4 e5)) hmono
  constructor
  · have lift : ∀ st w1 (wa wb : World), RsyncDirState.recover c env w = (.ok st, w1) →
        Held c st (WithRevision c A x.rev) w.cur wa.cur →
        Keeps (Held c st (WithRevision c A x.rev) w.cur) wa wb →
        Keeps (fun f => f.WF ∧ RsyncAccounted c (WithRevision c A x.rev) f) wa wb := by
      intro st w1 wa wb e1 h k
      exact Keeps.via k h fun f hf => ⟨hf.wf, hf.accounted (at1 st w1 e1).1⟩
    refine updateRsync_tr (T := Keeps _) hs ?_ ?_ ?_ ?_ ?_ ?_
    · exact Keeps.of_same (recover_same c env w)
    · intro st w1 e1
      exact lift st w1 _ _ e1 (at1 st w1 e1).2.2 (makeRevision_held ho ha)
    · intro st w1 w2 e1 e2
      exact lift st w1 _ _ e1 (at2 st w1 w2 e1 e2).1 (switchTo_held ha)
    · intro st w1 w2 w3 _ _ _
      exact Keeps.of_same (updateCurrent_same _ _ env w3)
    · intro st w1 w2 w3 st1 w4 e1 e2 e3 e4
      obtain ⟨_, s4, _, _⟩ := updateCurrent_ok e4
      exact lift st w1 _ _ e1 (by rw [s4.cur]; exact (at3 st w1 w2 w3 e1 e2 e3).1) (cleanOld_held ha)
    · intro st w1 w2 w3 st1 w4 st2 w5 e1 e2 e3 e4 e5
      exact (at5 st w1 w2 w3 st1 w4 st2 w5 e1 e2 e3 e4 e5).1
  · intro hok
    obtain ⟨w1, w2, w3, w4, w5, st, st1, st2, d⟩ := updateRsync_ok hs (Prod.ext hok rfl)
    have := (at5 st w1 w2 w3 st1 w4 st2 w5 d.recovered d.made d.switched d.updated d.cleaned).2
    rw [d.persisted] at this
    exact this rfl

/-- With links. -/
theorem updateRsync_clear (hm : c.rsyncUseSymlinks = true) (ho : CleanObjects c.rsyncIncludeHost)
    (ha : Apart c.rsyncDir c.rsyncStatePath) (hs : s.snapshot = some x) (hcl : RevsClear c w.cur) :
    Keeps (RevsClear c) w (updateRsync s c env w).2 ∧
    ∀ st w1 w2 w3 st1 w4 st2 w5, RsyncDirState.recover c env w = (.ok st, w1) →
      makeRevision x.rev c (s.mappings.path x.relPath) env w1 = (.ok (), w2) →
      switchTo x.rev st c env w2 = (.ok (), w3) → st.updateCurrent x.rev env w3 = (.ok st1, w4) →
      st1.cleanOld c env w4 = (.ok st2, w5) → RevsClear c w5.cur := by
  have at1 : ∀ st w1, RsyncDirState.recover c env w = (.ok st, w1) → RevsClear c w1.cur := by
    intro st w1 e1
    obtain ⟨s1, _⟩ := recover_ok hcl.state e1
    rw [s1.cur]; exact hcl
  have sw : ∀ st w2, Keeps (RevsClear c) w2 (switchTo x.rev st c env w2).2 := by
    intro st w2
    unfold switchTo
    rw [if_pos hm]
    exact symlinkCurrent_clear ha
  constructor
  · refine updateRsync_tr (T := Keeps _) hs ?_ ?_ ?_ ?_ ?_ ?_
    · exact Keeps.of_same (recover_same c env w)
    · intro st w1 e1
      exact makeRevision_clear ho ha (at1 st w1 e1)
    · intro st w1 w2 _ _
      exact sw st w2
    · intro st w1 w2 w3 _ _ _
      exact Keeps.of_same (updateCurrent_same _ _ env w3)
    · intro st w1 w2 w3 st1 w4 _ _ _ _
      exact cleanOld_clear ha
    · intro st w1 w2 w3 st1 w4 st2 w5 _ _ _ _ _
      exact persist_clear ha
  · intro st w1 w2 w3 st1 w4 st2 w5 e1 e2 e3 e4 e5
    have k2 := makeRevision_clear (env := env) (rev := x.rev) (src := s.mappings.path x.relPath) ho ha (at1 st w1 e1)
    rw [e2] at k2
    have k3 := sw st w2
    rw [e3] at k3
    obtain ⟨_, s4, _, _⟩ := updateCurrent_ok e4
    have k5 := cleanOld_clear (env := env) (w := w4) (st := st1) ha
    rw [e5] at k5
    exact (k5 (by rw [s4.cur]; exact (k3 (k2 (at1 st w1 e1)).1).1)).1

end

/-! ## Runs -/

/-- With links nothing stands in the way of a revision; with moves, `current` is sound too. -/
def RsyncSound (c : Config) (f : FS) : Prop :=
  if c.rsyncUseSymlinks then RevsClear c f else ∃ B, MoveServed c B f

theorem RsyncSound.clear {c : Config} {f : FS} (h : RsyncSound c f) : RevsClear c f := by
  unfold RsyncSound at h
  split at h
  · exact h
  · exact h.choose_spec.clear

theorem RsyncSound.of_leaf {c : Config} {f f' : FS} (h : RsyncSound c f) (hw : f'.WF)
    (hl : ∀ q, RsyncArea c q → f'.leaf q = f.leaf q) : RsyncSound c f' := by
  unfold RsyncSound at h ⊢
  split
  · rename_i hm
    rw [if_pos hm] at h
    exact RevsClear.of_leaf h hw hl
  · rename_i hm
    rw [if_neg hm] at h
    obtain ⟨B, h⟩ := h
    exact ⟨B, h.of_leaf hw hl⟩

theorem RsyncReady.phases {c : Config} {base name : Str} {fs : FS} {s : RrdpState} {x : SnapshotState}
    (hl : Layout c base name) (ho : CleanObjects c.rsyncIncludeHost) (hs : CleanSource c base env fs)
    (hr : RsyncReady c base name env fs s x w) (h : RsyncSound c w.cur) :
    Keeps (RsyncSound c) w (updateRsync s c env w).2 ∧
    ∀ st w1 w2 w3 st1 w4 st2 w5, RsyncDirState.recover c env w = (.ok st, w1) →
      makeRevision x.rev c (s.mappings.path x.relPath) env w1 = (.ok (), w2) →
      switchTo x.rev st c env w2 = (.ok (), w3) → st.updateCurrent x.rev env w3 = (.ok st1, w4) →
      st1.cleanOld c env w4 = (.ok st2, w5) → RevsClear c w5.cur := by
  by_cases hm : c.rsyncUseSymlinks = true
  · have e : RsyncSound c = RevsClear c := by funext f; unfold RsyncSound; rw [if_pos hm]
    rw [e]
    exact updateRsync_clear hm ho hl.rsyncRsyncState hr.snapshot h.clear
  · have h' := h
    unfold RsyncSound at h'
    rw [if_neg hm] at h'
    obtain ⟨B, hB⟩ := h'
    obtain ⟨n, g1, g2, g3, g4⟩ := hr.version
    obtain ⟨hsl, hsb⟩ := hr.source hs
    have rd : MoveReady c (fun m => B m ∨ m = n) s x n w := ⟨by simpa using hm, ho, hl.rsyncRsyncState,
      hr.snapshot, by rw [hr.path]; exact hsl, fun b hb => by rw [hr.path] at hb; rw [hsb b hb, g3],
      Or.inr rfl, hB.mono fun _ h => Or.inl h⟩
    refine ⟨Keeps.via (updateRsync_moveServed rd).1 rd.served fun f hf => ?_, ?_⟩
    · unfold RsyncSound
      rw [if_neg hm]
      exact ⟨_, hf⟩
    · intro st w1 w2 w3 st1 w4 st2 w5 e1 e2 e3 e4 e5
      exact (rd.cleaned e1 e2 e3 e4 e5).clear

theorem RsyncAccounted.of_leaf {c : Config} {A : Path → Prop} {f f' : FS} (h : RsyncAccounted c A f)
    (hl : ∀ q, RsyncArea c q → f'.leaf q = f.leaf q) : RsyncAccounted c A f' := by
  intro st hst q hq hn
  rw [hl q (Or.inl hq)] at hn
  exact h st (RsyncRecorded.of_leaf (hl _ (Or.inr rfl)) hst) q hq hn

theorem RsyncAccounted.mono {c : Config} {A A' : Path → Prop} {f : FS} (h : RsyncAccounted c A f)
    (hA : ∀ q, A q → A' q) : RsyncAccounted c A' f :=
  fun st hst q hq hn => (h st hst q hq hn).imp id (Or.imp id (hA q))

theorem run_rsyncSound {depth : Nat} {c : Config} {base name : Str} {env : Env} {fs : FS}
    (hl : Layout c base name) (ho : CleanObjects c.rsyncIncludeHost) (he : c.rsyncEnabled = true)
    (hc : RunConds c base name env fs) (hs : CleanSource c base env fs) (h : RsyncSound c fs) :
    ∀ f ∈ (process depth c env (World.start fs)).2.crashPoints, RsyncSound c f := by
  refine run_rsync_keeps hl hc he ?_ ?_ ?_
  · exact fun f hw hf => h.of_leaf hw hf
  · exact fun f f' h hs hw => h.of_leaf hw hs.1
  · intro s x w hr h1
    exact (hr.phases hl ho hs h1).1 h1

theorem RsyncReady.area {c : Config} {base name : Str} {fs : FS} {s : RrdpState} {x : SnapshotState}
    (hl : Layout c base name) (hr : RsyncReady c base name env fs s x w) {q : Path} (hq : RsyncArea c q) :
    w.cur.leaf q = fs.leaf q := by
  refine hr.leaf q ?_ (fun h' => hl.rrdp_not_rsync h' hq)
  intro h'
  rcases hq with hq | rfl
  · exact hl.rsyncStaging.not_both hq h'
  · unfold Config.stagingDir Config.rsyncStatePath at h'
    rw [List.prefix_append_right_inj] at h'
    exact absurd h' (by decide)

theorem run_rsyncHeld {depth : Nat} {c : Config} {base name : Str} {env : Env} {fs : FS}
    {A : Path → Prop} (hl : Layout c base name) (ho : CleanObjects c.rsyncIncludeHost)
    (he : c.rsyncEnabled = true) (hc : RunConds c base name env fs) (hs : CleanSource c base env fs)
    (h : RsyncSound c fs) (h0 : RsyncAccounted c A fs) :
    (∀ f ∈ (process depth c env (World.start fs)).2.crashPoints, RsyncAccounted c (fun q => A q ∨
      q = c.rsyncTmp ∨ ∃ n, Announces c base name env fs n ∧ n.rev.path c <+: q) f) ∧
    ∀ w', process depth c env (World.start fs) = (.ok (), w') → RsyncAccounted c A w'.cur := by
  have ready : ∀ s x w, RsyncReady c base name env fs s x w →
      Keeps (fun f => f.WF ∧ RsyncAccounted c (WithRevision c A x.rev) f) w (updateRsync s c env w).2 ∧
      ((updateRsync s c env w).1 = .ok () → RsyncAccounted c A (updateRsync s c env w).2.cur) := by
    intro s x w hr
    have h1 : RsyncSound c w.cur := h.of_leaf hr.wf fun q hq => hr.area hl hq
    exact updateRsync_held (base := base) (name := name) (fs := fs) ho hl.rsyncRsyncState hr.snapshot h1.clear
      (h0.of_leaf fun q hq => hr.area hl hq) (hr.phases hl ho hs h1).2
  constructor
  · refine run_rsync_keeps hl hc he ?_ ?_ ?_
    · exact fun f hw hf => (h0.of_leaf hf).mono fun q h => Or.inl h
    · exact fun f f' h hs hw => h.of_leaf hs.1
    · intro s x w hr
      obtain ⟨n, g1, g2, _, _⟩ := hr.version
      refine Keeps.via (ready s x w hr).1 ⟨hr.wf, (h0.of_leaf fun q hq => hr.area hl hq).mono
        fun q h => Or.inl h⟩ fun f hf => hf.2.mono ?_
      rintro q (h | h | h)
      · exact Or.inl h
      · exact Or.inr (Or.inl h)
      · exact Or.inr (Or.inr ⟨n, g1, g2 ▸ h⟩)
  · intro w' hok
    rcases run_rsync_ok hl hc he hok with h1 | ⟨s, x, w, w0, hr, hu, hsame, _, _⟩
    · have : w'.cur = fs := by
        have : w'.cur ∈ w'.crashPoints := List.mem_cons_self
        rw [h1] at this
        exact List.mem_singleton.1 this
      rw [this]; exact h0
    · have := (ready s x w hr).2
      rw [hu] at this
      exact (this rfl).of_leaf hsame.1

/-! ## Histories -/

theorem RsyncLedger.ledger {c : Config} {base name : Str} {A : Path → Prop} {f : FS}
    (h : RsyncLedger c base name A f) : ∃ A', Ledger c base name A' f := by
  induction h with
  | start h _ => exact ⟨_, .start h⟩
  | done _ h1 h2 ih => obtain ⟨A', hA⟩ := ih; exact ⟨_, .done hA h1 h2⟩
  | idle _ h1 h2 _ ih => obtain ⟨A', hA⟩ := ih; exact ⟨_, .cut hA h1 h2⟩
  | cut _ h1 h2 ih => obtain ⟨A', hA⟩ := ih; exact ⟨_, .cut hA h1 h2⟩

theorem RsyncLedger.held {c : Config} {base name : Str} {A : Path → Prop} {f : FS}
    (hl : Layout c base name) (ho : CleanObjects c.rsyncIncludeHost) (he : c.rsyncEnabled = true)
    (h : RsyncLedger c base name A f) : RsyncSound c f ∧ RsyncAccounted c A f := by
  induction h with
  | start h h' =>
    refine ⟨?_, fun st _ q hq hn => absurd (h' q (Or.inl hq)) hn⟩
    unfold RsyncSound
    split
    · exact .start h.pristine.wf h'
    · exact ⟨fun _ => False, .start h.pristine.wf h'⟩
  | done h0 h1 h2 ih =>
    obtain ⟨A', hA⟩ := h0.ledger
    have hb := hA.booked hl (fun _ => ho)
    have hc := hb.conds hl (fun _ => ho) h1
    exact ⟨run_rsyncSound hl ho he hc (hb.clean h1) ih.1 _ (by rw [h2]; exact List.mem_cons_self),
      (run_rsyncHeld hl ho he hc (hb.clean h1) ih.1 ih.2).2 _ h2⟩
  | idle h0 h1 h2 h3 ih =>
    obtain ⟨A', hA⟩ := h0.ledger
    have hb := hA.booked hl (fun _ => ho)
    have hc := hb.conds hl (fun _ => ho) h1
    exact ⟨run_rsyncSound hl ho he hc (hb.clean h1) ih.1 _ h2, ih.2.of_leaf h3⟩
  | cut h0 h1 h2 ih =>
    obtain ⟨A', hA⟩ := h0.ledger
    have hb := hA.booked hl (fun _ => ho)
    have hc := hb.conds hl (fun _ => ho) h1
    exact ⟨run_rsyncSound hl ho he hc (hb.clean h1) ih.1 _ h2,
      (run_rsyncHeld hl ho he hc (hb.clean h1) ih.1 ih.2).1 _ h2⟩

end KSync
