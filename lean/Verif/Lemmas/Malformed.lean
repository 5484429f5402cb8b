import Verif.Lemmas.Scripts
import Verif.Lemmas.Outcome
import Verif.Lemmas.Gates

/-! # Publishing a snapshot that cannot be parsed -/

set_option linter.unusedSectionVars false
set_option linter.unusedSimpArgs false
set_option linter.unusedVariables false

namespace KSync

variable [Ext]

theorem Shrinks.noSnapshot {f f' : FS} {p : Path} (h : Shrinks f f') (hn : NoSnapshotAt f p) :
    NoSnapshotAt f' p := by
  unfold NoSnapshotAt at *
  intro x hx
  rcases h p with h1 | h1
  · unfold FS.leaf at *
    rw [h1] at hx
    exact hn x hx
  · unfold FS.leaf at hx
    rw [h1] at hx
    cases hx

theorem FileHas.noSnapshot {f : FS} {p : Path} {h : Hash} (hf : FileHas f p h)
    (hb : ∀ b, Ext.sha b = h → (Ext.streamSnapshot b).2 = false) : NoSnapshotAt f p := by
  obtain ⟨b, h1, h2⟩ := hf
  intro x hx
  unfold FS.file? at h1
  unfold FS.leaf at hx
  match hg : f.get p with
  | none => rw [hg] at hx; cases hx
  | some .dir => rw [hg] at hx; cases hx
  | some (.link t) => rw [hg] at h1; cases h1
  | some (.file b' t) =>
    rw [hg] at h1 hx
    cases h1
    cases hx
    exact ⟨b, t, rfl, hb b h2⟩

theorem revision_not_current {r : RsyncRevision} {c : Config} {q : Path} (h : c.rsyncCurrent <+: q) :
    ¬ r.path c <+: q := by
  intro h'
  unfold RsyncRevision.path at h'
  unfold Config.rsyncCurrent at h
  obtain ⟨a, rfl⟩ := h
  obtain ⟨b, hb⟩ := h'
  rw [List.append_assoc, List.append_assoc] at hb
  have := List.append_cancel_left hb
  have h2 := (List.cons.inj this).1
  unfold RsyncRevision.dirName at h2
  rw [List.append_assoc, List.append_assoc] at h2
  have h3 : 's' = 'c' := (List.cons.inj h2).1
  exact absurd h3 (by decide)

/-- The snapshot path after absorbing and cleaning. -/
theorem malformed_rsync {c : Config} {base name : Str} {env : Env} {s s1 s2 : RrdpState}
    {st : StagedChanges} {w w1 w2 w3 : World} (hl : Layout c base name)
    (hp : PubPre c base name s st)
    (hst : ∀ r ∈ st.refs, FileHas w.cur (c.stagingDir ++ comps r.1) r.2)
    (hb : ∀ b, Ext.sha b = st.snapshot.hash → (Ext.streamSnapshot b).2 = false)
    (e1 : moveStaged c st env w = (.ok (), w1)) (e2 : s.absorb st env w1 = (.ok s1, w2))
    (e3 : s1.clean c env w2 = (.ok s2, w3)) :
    s2.snapshot = some st.snapshot ∧ NoSnapshotAt w3.cur (s2.mappings.path st.snapshot.relPath) := by
  have h1 := moveStaged_published hl.rrdpStaging hp.goodSnap hp.goodDeltas hst e1
    (st.snapshot.relPath, st.snapshot.hash) (by simp [StagedChanges.refs])
  obtain ⟨h2, _, kept, gone, new, ha⟩ := absorb_ok e2
  obtain ⟨l, rfl⟩ := clean_state e3
  refine ⟨ha.snapshot, ?_⟩
  have h3 : Shrinks w2.cur w3.cur := by
    have := clean_shrinks (s := s1) (c := c) env w2
    rw [e3] at this
    exact this.ends Shrinks.refl (fun _ _ _ => Shrinks.trans)
  refine h3.noSnapshot ?_
  rw [h2.1]
  have h4 : ({ s1 with deprecated := l } : RrdpState).mappings.path st.snapshot.relPath =
      c.pubPath st.snapshot.relPath := by
    show s1.mappings.path _ = _
    rw [ha.mappings, hp.sane.mappings]
    exact joinPath_clean hp.goodSnap.clean
  rw [h4]
  exact h1.noSnapshot hb

theorem rsync_wf {c : Config} {base name : Str} {env : Env} {s s1 s2 : RrdpState}
    {st : StagedChanges} {w w1 w2 w3 : World}
    (e1 : moveStaged c st env w = (.ok (), w1)) (e2 : s.absorb st env w1 = (.ok s1, w2))
    (e3 : s1.clean c env w2 = (.ok s2, w3)) (hp : PubPre c base name s st) (hw : w.cur.WF) :
    w3.cur.WF := by
  have hm := moveStaged_within (c := c) hp.goodSnap hp.goodDeltas env w
  have hw1 : w1.cur.WF := by have := hm.wf hw; rw [e1] at this; exact this
  have hw2 : w2.cur.WF := by rw [(absorb_ok e2).1.1]; exact hw1
  have := (clean_dataPath (absorb_sane e2 hp.sane hp.goodSnap hp.goodDeltas) env w2 hw2).wf hw2
  rw [e3] at this
  exact this

/-- Anything but running scripts. -/
def noScripts : Eff :=
  ⟨fun _ => True, fun _ => True, fun _ => False, fun _ => True, fun _ => True, fun _ => True⟩

theorem noScripts_prepare {depth : Nat} {c : Config} {s0 s : RrdpState} {st : StagedChanges}
    {env : Env} {fs : FS} {w1 w2 w3 : World}
    (h1 : loadState c env (World.start fs) = (.ok s0, w1))
    (h2 : s0.updateStaged c env w1 = (.ok (some st), w2))
    (h3 : s0.preValidate depth c env w2 = (.ok s, w3)) : w3.ran = [] := by
  have e1 := loadState_in (E := noScripts) c env (World.start fs)
  rw [h1] at e1
  have e2 : Within noScripts w1 w2 := by
    obtain ⟨n, etag, ds, w5, _, _, _, _, h13, h14⟩ := updateStaged_some h2
    rcases updateStaged_cases s0 c env w1 with ⟨e, w6, k1, k2, k3⟩ | ⟨w6, k1, k2, k3, _⟩ |
      ⟨n, etag, ds, reset, w6, k1, k2, k3, k4, k5, k6⟩
    · rw [h2] at k1; cases k1
    · rw [h2] at k1; cases k1
    · have := stage_in (E := noScripts) (s := s0) (c := c) (n := { n with deltas := ds }) (etag := etag)
        (reset := reset) ⟨trivial, fun _ _ => trivial, fun _ _ => trivial, fun _ _ _ _ => trivial,
          fun _ _ _ _ => trivial⟩ env w6
      rw [← k6, h2] at this
      exact Tr.trans (k5.mono (E' := noScripts) ⟨fun _ _ => trivial, fun _ _ => trivial,
        fun _ (h : False) => h.elim, fun _ _ => trivial, fun _ _ => trivial, fun _ _ => trivial⟩) this
  have e3 := preValidate_in (E := noScripts) (fun _ => trivial) depth s0 c env w2
  rw [h3] at e3
  exact LogIn.eq_of_false (Tr.trans e1 (Tr.trans e2 e3) : Within noScripts _ _).logs.ran

end KSync
