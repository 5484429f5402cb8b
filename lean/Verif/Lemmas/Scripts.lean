import Verif.Lemmas.Gates
import Verif.Lemmas.Success

/-! # Scripts, and snapshots that cannot be parsed -/

set_option linter.unusedSectionVars false
set_option linter.unusedSimpArgs false
set_option linter.unusedVariables false

namespace KSync

/-! ## Scripts -/

theorem runScripts_cases (l : List Path) : ∀ {env : Env} {w w' : World} {r : Except Err Bool},
    runScripts l env w = (r, w') →
    (∃ b, r = .ok b ∧ w' = { w with tick := w.tick + l.length, ran := l.reverse ++ w.ran } ∧
      (∀ i p, l[i]? = some p → env.script (w.tick + i) p ≠ none) ∧
      (b = true ↔ ∃ (i : Nat) (p : Path), l[i]? = some p ∧ env.script (w.tick + i) p = some false)) ∨
    ∃ e i p, r = .error e ∧ l[i]? = some p ∧ env.script (w.tick + i) p = none ∧
      w' = { w with tick := w.tick + i + 1, ran := (l.take i).reverse ++ w.ran } ∧
      ∀ j q, j < i → l[j]? = some q → env.script (w.tick + j) q ≠ none := by
  induction l with
  | nil =>
    intro env w w' r h
    cases h
    exact .inl ⟨false, rfl, rfl, by simp, by simp⟩
  | cons p l ih =>
    intro env w w' r h
    unfold runScripts at h
    have h1 : runScript p env w = match env.script w.tick p with
        | none => (.error .io, { w with tick := w.tick + 1 })
        | some b => (.ok b, { w with tick := w.tick + 1, ran := p :: w.ran }) := by
      unfold runScript
      show (match env.script w.tick p with
        | none => M.throw .io
        | some b => (logRan p >>= fun _ => (pure b : M Bool))) env { w with tick := w.tick + 1 } = _
      cases env.script w.tick p <;> rfl
    match hs : env.script w.tick p with
    | none =>
      rw [hs] at h1
      rw [M.bind_of_error h1] at h
      cases h
      exact .inr ⟨_, 0, p, rfl, rfl, hs, rfl, fun j q hj => by omega⟩
    | some b =>
      rw [hs] at h1
      rw [M.bind_of_ok h1] at h
      match h2 : runScripts l env { w with tick := w.tick + 1, ran := p :: w.ran } with
      | (r2, w2) =>
        rcases ih h2 with ⟨b2, rfl, rfl, h3, h4⟩ | ⟨e, i, q, rfl, h3, h4, rfl, h5⟩
        · rw [M.bind_of_ok h2] at h
          cases h
          refine .inl ⟨_, rfl, ?_, ?_, ?_⟩
          · simp [Nat.add_assoc, Nat.add_comm 1]
          · intro i q hq
            cases i with
            | zero => cases hq; rw [Nat.add_zero, hs]; simp
            | succ i =>
              have := h3 i q hq
              rw [show w.tick + (i + 1) = w.tick + 1 + i by omega]
              exact this
          · constructor
            · intro hb
              rw [Bool.or_eq_true] at hb
              rcases hb with hb | hb
              · refine ⟨0, p, rfl, ?_⟩
                rw [Nat.add_zero, hs]
                cases b
                · rfl
                · cases hb
              · obtain ⟨i, q, h6, h7⟩ := h4.1 hb
                refine ⟨i + 1, q, h6, ?_⟩
                rw [show w.tick + (i + 1) = w.tick + 1 + i by omega]
                exact h7
            · rintro ⟨i, q, h6, h7⟩
              cases i with
              | zero => cases h6; rw [Nat.add_zero, hs] at h7; cases h7; rfl
              | succ i =>
                rw [show w.tick + (i + 1) = w.tick + 1 + i by omega] at h7
                rw [h4.2 ⟨i, q, h6, h7⟩]
                simp
        · rw [M.bind_of_error h2] at h
          cases h
          refine .inr ⟨e, i + 1, q, rfl, h3, ?_, ?_, ?_⟩
          · rw [show w.tick + (i + 1) = w.tick + 1 + i by omega]
            exact h4
          · simp [Nat.add_assoc, Nat.add_comm 1]
          · intro j q' hj hq'
            cases j with
            | zero => cases hq'; rw [Nat.add_zero, hs]; simp
            | succ j =>
              rw [show w.tick + (j + 1) = w.tick + 1 + j by omega]
              exact h5 j q' (by omega) hq'

theorem scriptGate_cases {c : Config} {env : Env} {w w' : World} {r : Except Err Unit}
    (h : scriptGate c env w = (r, w')) :
    (w' = { w with tick := w.tick + c.scripts.length, ran := c.scripts.reverse ++ w.ran } ∧
      (∀ i p, c.scripts[i]? = some p → env.script (w.tick + i) p ≠ none) ∧
      ((r = .ok () ∧ (c.talRejectInvalid = true →
          ∀ i p, c.scripts[i]? = some p → env.script (w.tick + i) p = some true)) ∨
        (r = .error .scripts ∧ c.talRejectInvalid = true ∧
          ∃ i p, c.scripts[i]? = some p ∧ env.script (w.tick + i) p = some false))) ∨
    ∃ e i p, r = .error e ∧ c.scripts[i]? = some p ∧ env.script (w.tick + i) p = none ∧
      w' = { w with tick := w.tick + i + 1, ran := (c.scripts.take i).reverse ++ w.ran } ∧
      ∀ j q, j < i → c.scripts[j]? = some q → env.script (w.tick + j) q ≠ none := by
  unfold scriptGate at h
  by_cases he : c.scripts = []
  · rw [if_pos he] at h
    cases h
    rw [he]
    exact .inl ⟨rfl, by simp, .inl ⟨rfl, by simp⟩⟩
  · rw [if_neg he] at h
    match h1 : runScripts c.scripts env w with
    | (r1, w1) =>
      rcases runScripts_cases _ h1 with ⟨b, rfl, rfl, h3, h4⟩ | ⟨e, i, q, rfl, h3, h4, rfl, h5⟩
      · rw [M.bind_of_ok h1] at h
        by_cases hb : (b && c.talRejectInvalid) = true
        · rw [if_pos hb] at h
          cases h
          rw [Bool.and_eq_true] at hb
          exact .inl ⟨rfl, h3, .inr ⟨rfl, hb.2, h4.1 hb.1⟩⟩
        · rw [if_neg hb] at h
          cases h
          refine .inl ⟨rfl, h3, .inl ⟨rfl, fun hr i p hp => ?_⟩⟩
          match hs : env.script (w.tick + i) p with
          | none => exact absurd hs (h3 i p hp)
          | some true => rfl
          | some false =>
            rw [h4.2 ⟨i, p, hp, hs⟩, hr] at hb
            exact absurd rfl hb
      · rw [M.bind_of_error h1] at h
        cases h
        exact .inr ⟨e, i, q, rfl, h3, h4, rfl, h5⟩

variable [Ext] {env : Env} {w w' : World}

/-! ## Snapshots that cannot be parsed -/

/-- At `p` is nothing, a directory, or a file that is not a complete snapshot. -/
def NoSnapshotAt (fs : FS) (p : Path) : Prop :=
  ∀ nd, fs.leaf p = some nd → ∃ b t, nd = .file b t ∧ (Ext.streamSnapshot b).2 = false

theorem NoSnapshotAt.read {fs : FS} {p : Path} (h : NoSnapshotAt fs p) {b : Bytes}
    (hb : fs.read p = some b) : (Ext.streamSnapshot b).2 = false := by
  unfold FS.read FS.resolve at hb
  unfold NoSnapshotAt FS.leaf at h
  match hg : fs.get p with
  | none => rw [hg] at hb; simp at hb
  | some .dir => rw [hg] at hb; simp at hb
  | some (.link t) =>
    rw [hg] at h
    obtain ⟨_, _, h1, _⟩ := h _ rfl
    cases h1
  | some (.file b' t) =>
    rw [hg] at h hb
    obtain ⟨_, _, h1, h2⟩ := h _ rfl
    cases h1
    simp at hb
    subst hb
    exact h2

theorem createOutPath_leaf (out : Path) (hw : w.cur.WF) :
    ∀ q, (createOutPath out env w).2.cur.leaf q = w.cur.leaf q := fun q =>
  (createOutPath_writes (fun _ => False) out env w).ends Frame.refl (fun _ _ _ => Frame.trans) q id

theorem writeSnapshotTree_fails {out snapshot : Path} {ih : Bool} (h : NoSnapshotAt w.cur snapshot) :
    writeSnapshotTree out ih snapshot env w ≠ (.ok (), w') := by
  intro h1
  unfold writeSnapshotTree at h1
  obtain ⟨b, w1, h2, h3⟩ := M.bind_ok.1 h1
  obtain ⟨_, w2, h4, h5⟩ := M.bind_ok.1 h3
  have h6 := h.read (readFile_ok h2).1
  have h7 : (if (Ext.streamSnapshot b).2 = true then (pure () : M Unit) else M.throw .parse) env w2 =
    (.ok (), w') := h5
  rw [if_neg (by rw [h6]; simp)] at h7
  cases h7

/-- With such a snapshot the rsync part fails having written the new revision only. -/
theorem updateRsync_fails {s : RrdpState} {c : Config} {snap : SnapshotState} (hw : w.cur.WF)
    (ho : CleanObjects c.rsyncIncludeHost) (hs : s.snapshot = some snap)
    (h : NoSnapshotAt w.cur (s.mappings.path snap.relPath)) :
    (∀ w', updateRsync s c env w ≠ (.ok (), w')) ∧
    Within (Eff.only (RsyncRevision.path ⟨snap.session, snap.serial⟩ c <+: ·)) w
      (updateRsync s c env w).2 := by
  let E : Eff := Eff.only (RsyncRevision.path ⟨snap.session, snap.serial⟩ c <+: ·)
  have k0 := fun w => rsyncRecover_in (E := E) c env w
  have k1 := fun w => createOutPath_in (E := E) (out := RsyncRevision.path ⟨snap.session, snap.serial⟩ c)
    (List.prefix_refl _) env w
  have k2 := fun w => writeSnapshotTree_in (E := E) (out := RsyncRevision.path ⟨snap.session, snap.serial⟩ c)
    (ih := c.rsyncIncludeHost) (snapshot := s.mappings.path snap.relPath) (fun b e he => by
      show _ <+: _
      rw [objectPath_below (ho b e he)]
      exact List.prefix_append _ _) env w
  have key : ∀ st w1 w2, RsyncDirState.recover c env w = (.ok st, w1) →
      createOutPath (RsyncRevision.path ⟨snap.session, snap.serial⟩ c) env w1 = (.ok (), w2) →
      ∀ w3, writeSnapshotTree (RsyncRevision.path ⟨snap.session, snap.serial⟩ c) c.rsyncIncludeHost
        (s.mappings.path snap.relPath) env w2 ≠ (.ok (), w3) := by
    intro st w1 w2 h1 h2 w3
    refine writeSnapshotTree_fails ?_
    have e1 := (rsyncRecover_in (E := Eff.none) c env w)
    rw [h1] at e1
    have hw1 := e1.wf hw
    have e2 := createOutPath_leaf (env := env) (w := w1) (RsyncRevision.path ⟨snap.session, snap.serial⟩ c) hw1
    rw [h2] at e2
    intro nd hnd
    rw [e2, e1.frame hw _ id] at hnd
    exact h nd hnd
  unfold updateRsync
  rw [hs]
  dsimp only
  constructor
  · intro w' h1
    obtain ⟨st, w1, h2, h3⟩ := M.bind_ok.1 h1
    obtain ⟨_, w2, h4, h5⟩ := M.bind_ok.1 h3
    obtain ⟨_, w3, h6, h7⟩ := M.bind_ok.1 h5
    exact key st w1 w2 h2 h4 w3 h6
  · refine Within.bindAt (k0 w) (fun st w1 h2 => Within.bindAt (k1 w1) (fun _ w2 h4 =>
      Within.bindAt (k2 w2) (fun _ w3 h6 => (key st w1 w2 h2 h4 w3 h6).elim)))

end KSync
