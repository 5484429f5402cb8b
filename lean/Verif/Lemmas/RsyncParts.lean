import Verif.Spec.Rsync
import Verif.Lemmas.Scripts
import Verif.Lemmas.Malformed
import Verif.Lemmas.Names

/-! # The steps of the rsync part -/

set_option linter.unusedSectionVars false
set_option linter.unusedSimpArgs false
set_option linter.unusedVariables false

namespace KSync

variable [Ext] {env : Env} {w w' : World}

/-- The revision a snapshot belongs to. -/
def SnapshotState.rev (x : SnapshotState) : RsyncRevision := ⟨x.session, x.serial⟩

/-- src/rsync.rs:36-39: make the directory and fill it. -/
def makeRevision (rev : RsyncRevision) (c : Config) (src : Path) : M Unit :=
  createOutPath (rev.path c) >>= fun _ => writeSnapshotTree (rev.path c) c.rsyncIncludeHost src

/-- src/rsync.rs:41-47. -/
def switchTo (rev : RsyncRevision) (st : RsyncDirState) (c : Config) : M Unit :=
  if c.rsyncUseSymlinks then symlinkCurrent rev c else renameCurrent rev st c

theorem updateRsync_eq {s : RrdpState} {x : SnapshotState} (hs : s.snapshot = some x) (c : Config) :
    updateRsync s c = RsyncDirState.recover c >>= fun st =>
      makeRevision x.rev c (s.mappings.path x.relPath) >>= fun _ =>
      switchTo x.rev st c >>= fun _ => st.updateCurrent x.rev >>= fun st1 =>
      st1.cleanOld c >>= fun st2 => st2.persist c := by
  unfold updateRsync
  rw [hs]
  dsimp only
  congr 1; funext st
  unfold makeRevision
  rw [M.bind_assoc]
  rfl

/-- A relation holds of the rsync part if it holds of each step. -/
theorem updateRsync_tr {T : World → World → Prop} [Tr T] {s : RrdpState} {x : SnapshotState}
    (hs : s.snapshot = some x) {c : Config}
    (h1 : T w (RsyncDirState.recover c env w).2)
    (h2 : ∀ st w1, RsyncDirState.recover c env w = (.ok st, w1) →
      T w1 (makeRevision x.rev c (s.mappings.path x.relPath) env w1).2)
    (h3 : ∀ st w1 w2, RsyncDirState.recover c env w = (.ok st, w1) →
      makeRevision x.rev c (s.mappings.path x.relPath) env w1 = (.ok (), w2) →
      T w2 (switchTo x.rev st c env w2).2)
    (h4 : ∀ st w1 w2 w3, RsyncDirState.recover c env w = (.ok st, w1) →
      makeRevision x.rev c (s.mappings.path x.relPath) env w1 = (.ok (), w2) →
      switchTo x.rev st c env w2 = (.ok (), w3) → T w3 (st.updateCurrent x.rev env w3).2)
    (h5 : ∀ st w1 w2 w3 st1 w4, RsyncDirState.recover c env w = (.ok st, w1) →
      makeRevision x.rev c (s.mappings.path x.relPath) env w1 = (.ok (), w2) →
      switchTo x.rev st c env w2 = (.ok (), w3) → st.updateCurrent x.rev env w3 = (.ok st1, w4) →
      T w4 (st1.cleanOld c env w4).2)
    (h6 : ∀ st w1 w2 w3 st1 w4 st2 w5, RsyncDirState.recover c env w = (.ok st, w1) →
      makeRevision x.rev c (s.mappings.path x.relPath) env w1 = (.ok (), w2) →
      switchTo x.rev st c env w2 = (.ok (), w3) → st.updateCurrent x.rev env w3 = (.ok st1, w4) →
      st1.cleanOld c env w4 = (.ok st2, w5) → T w5 (st2.persist c env w5).2) :
    T w (updateRsync s c env w).2 := by
  rw [updateRsync_eq hs]
  exact Tr.bindAt h1 fun st w1 e1 => Tr.bindAt (h2 st w1 e1) fun _ w2 e2 =>
    Tr.bindAt (h3 st w1 w2 e1 e2) fun _ w3 e3 => Tr.bindAt (h4 st w1 w2 w3 e1 e2 e3)
      fun st1 w4 e4 => Tr.bindAt (h5 st w1 w2 w3 st1 w4 e1 e2 e3 e4)
        fun st2 w5 e5 => h6 st w1 w2 w3 st1 w4 st2 w5 e1 e2 e3 e4 e5

/-- All steps of a successful rsync part. -/
structure RsyncDone (env : Env) (c : Config) (src : Path) (rev : RsyncRevision)
    (w w1 w2 w3 w4 w5 w' : World) (st st1 st2 : RsyncDirState) : Prop where
  recovered : RsyncDirState.recover c env w = (.ok st, w1)
  made : makeRevision rev c src env w1 = (.ok (), w2)
  switched : switchTo rev st c env w2 = (.ok (), w3)
  updated : st.updateCurrent rev env w3 = (.ok st1, w4)
  cleaned : st1.cleanOld c env w4 = (.ok st2, w5)
  persisted : st2.persist c env w5 = (.ok (), w')

theorem updateRsync_ok {s : RrdpState} {x : SnapshotState} (hs : s.snapshot = some x) {c : Config}
    (h : updateRsync s c env w = (.ok (), w')) :
    ∃ w1 w2 w3 w4 w5 st st1 st2,
      RsyncDone env c (s.mappings.path x.relPath) x.rev w w1 w2 w3 w4 w5 w' st st1 st2 := by
  rw [updateRsync_eq hs] at h
  obtain ⟨st, w1, h1, h⟩ := M.bind_ok.1 h
  obtain ⟨_, w2, h2, h⟩ := M.bind_ok.1 h
  obtain ⟨_, w3, h3, h⟩ := M.bind_ok.1 h
  obtain ⟨st1, w4, h4, h⟩ := M.bind_ok.1 h
  obtain ⟨st2, w5, h5, h⟩ := M.bind_ok.1 h
  exact ⟨w1, w2, w3, w4, w5, st, st1, st2, h1, h2, h3, h4, h5, h⟩

/-! ## Reading the state -/

theorem recover_same (c : Config) : Rel Same (RsyncDirState.recover c) := by
  unfold RsyncDirState.recover
  have h1 := readFile_same c.rsyncStatePath
  rel_auto

theorem leaf_of_not_exists {fs : FS} {p : Path} (h : fs.exists? p = false) (hl : fs.link? p = none) :
    fs.leaf p = none := by
  unfold FS.exists? FS.resolve at h
  unfold FS.link? at hl
  unfold FS.leaf
  match hg : fs.get p with
  | none => rfl
  | some .dir => rfl
  | some (.file _ _) => rw [hg] at h; simp at h
  | some (.link t) => rw [hg] at hl; cases hl

theorem recover_ok {c : Config} {st : RsyncDirState} (hl : w.cur.link? c.rsyncStatePath = none)
    (h : RsyncDirState.recover c env w = (.ok st, w')) :
    Same w w' ∧ RsyncRecorded c w.cur st := by
  refine ⟨?_, ?_⟩
  · have := recover_same c env w
    rw [h] at this
    exact this
  · unfold RsyncDirState.recover at h
    rw [getFs_bind] at h
    by_cases he : w.cur.exists? c.rsyncStatePath = true
    · rw [if_pos he] at h
      obtain ⟨b, w1, h1, h2⟩ := M.bind_ok.1 h
      rw [M.orThrow_ok_iff] at h2
      exact Or.inl ⟨b, FS.file_of_read (readFile_ok h1).1 hl, h2.1⟩
    · rw [if_neg he] at h
      cases h
      exact Or.inr ⟨leaf_of_not_exists (by simpa using he) hl, rfl⟩

/-! ## The effects of the steps -/

theorem makeRevision_in {rev : RsyncRevision} {c : Config} {src : Path}
    (ho : CleanObjects c.rsyncIncludeHost) :
    Rel (Within (Eff.only (rev.path c <+: ·))) (makeRevision rev c src) := by
  unfold makeRevision
  refine Rel.bind (createOutPath_in (List.prefix_refl _)) (fun _ => writeSnapshotTree_in (fun b e he => ?_))
  show _ <+: _
  rw [objectPath_below (ho b e he)]
  exact List.prefix_append _ _

/-- The temporary name for the link. -/
def Config.rsyncTmp (c : Config) : Path := c.rsyncDir ++ ["current.tmp".toList]

theorem cleanOld_in' {st : RsyncDirState} {c : Config} :
    Rel (Within (Eff.only (fun q => ∃ d ∈ st.old, d.revision.path c <+: q))) (st.cleanOld c) :=
  cleanOld_in (fun d hd q hq => ⟨d, hd, hq⟩)

theorem updateCurrent_same (st : RsyncDirState) (rev : RsyncRevision) :
    Rel Same (st.updateCurrent rev) := by
  unfold RsyncDirState.updateCurrent
  have h := now_same
  split
  · exact Rel.pure _
  · rel_auto

/-- The replaced revision is scheduled with the time of day. -/
theorem updateCurrent_ok {st st1 : RsyncDirState} {rev : RsyncRevision}
    (h : st.updateCurrent rev env w = (.ok st1, w')) :
    st1.current = some rev ∧ Same w w' ∧ w.tick ≤ w'.tick ∧
    ((st.current = none ∧ st1.old = st.old) ∨
      ∃ old, st.current = some old ∧ st1.old = st.old ++ [⟨env.clock w.tick, old⟩] ∧
        w'.tick = w.tick + 1) := by
  unfold RsyncDirState.updateCurrent at h
  match hc : st.current with
  | none =>
    rw [hc] at h
    cases h
    exact ⟨rfl, ⟨rfl, rfl⟩, Nat.le_refl _, Or.inl ⟨rfl, rfl⟩⟩
  | some old =>
    rw [hc] at h
    cases h
    exact ⟨rfl, ⟨rfl, rfl⟩, Nat.le_succ _, Or.inr ⟨old, rfl, rfl, rfl⟩⟩

/-! ## Names in the rsync directory -/

theorem rev_ne_current (r : RsyncRevision) : r.dirName ≠ "current".toList := by
  intro h
  have := RsyncRevision.dirName_head r
  rw [h] at this
  revert this
  decide

theorem rev_ne_tmp (r : RsyncRevision) : r.dirName ≠ "current.tmp".toList := by
  intro h
  have := RsyncRevision.dirName_head r
  rw [h] at this
  revert this
  decide

theorem child_prefix {d : Path} {a b : Name} {q : Path} (h1 : d ++ [a] <+: q) (h2 : d ++ [b] <+: q) :
    a = b := by
  obtain ⟨x, rfl⟩ := h1
  obtain ⟨y, hy⟩ := h2
  rw [List.append_assoc, List.append_assoc] at hy
  exact (List.cons.inj (List.append_cancel_left hy)).1.symm

theorem rev_not_current {r : RsyncRevision} {c : Config} {q : Path} (h : r.path c <+: q) :
    ¬ c.rsyncCurrent <+: q := fun h' => rev_ne_current r (child_prefix h h')

theorem rev_not_tmp {r : RsyncRevision} {c : Config} {q : Path} (h : r.path c <+: q) :
    ¬ c.rsyncTmp <+: q := fun h' => rev_ne_tmp r (child_prefix h h')

theorem current_not_tmp {c : Config} {q : Path} (h : c.rsyncCurrent <+: q) :
    ¬ c.rsyncTmp <+: q := fun h' => by
  have := child_prefix h h'
  revert this
  decide

theorem rev_apart {r r' : RsyncRevision} {c : Config} {q : Path} (h : r.path c <+: q)
    (h' : r'.path c <+: q) : r = r' := RsyncRevision.dirName_inj (child_prefix h h')

/-! ## Writing the objects -/

theorem pathEndsWith_iff {p : Path} {name : Name} {s : Str} :
    pathEndsWith (p ++ [name]) s = true ↔ s <:+ name := by
  unfold pathEndsWith
  rw [List.getLast?_append]
  simp

theorem objectTime_eq (p : Path) (name : Name) (b : Bytes) :
    objectTime (p ++ [name]) b = ownTime name b := by
  unfold objectTime ownTime
  by_cases h1 : ".cer".toList <:+ name
  · rw [if_pos h1, if_pos (pathEndsWith_iff.2 h1)]
  · rw [if_neg h1, if_neg (fun h => h1 (pathEndsWith_iff.1 h))]
    by_cases h2 : ".crl".toList <:+ name
    · rw [if_pos h2, if_pos (pathEndsWith_iff.2 h2)]
    · rw [if_neg h2, if_neg (fun h => h2 (pathEndsWith_iff.1 h))]

theorem setMtime_run {p : Path} {b : Bytes} {t t' : Time} (hf : NoFaults env)
    (h : w.cur.get p = some (.file b t)) :
    ∃ w', setMtime p t' env w = (.ok (), w') ∧ w'.cur = w.cur.set p (.file b t') := by
  unfold setMtime
  rw [io_bind, if_neg (by rw [hf w.tick]; simp), getFs_bind]
  dsimp only
  rw [h]
  exact ⟨_, rfl, rfl⟩

theorem setMtime_file {p : Path} {b : Bytes} {t t' : Time} (hp : p ≠ [])
    (h : w.cur.get p = some (.file b t)) :
    ∃ t'', (setMtime p t' env w).2.cur.get p = some (.file b t'') := by
  unfold setMtime
  rw [io_bind]
  by_cases hf : env.fault w.tick = true
  · rw [if_pos hf]; exact ⟨t, h⟩
  · rw [if_neg hf, getFs_bind]
    dsimp only
    rw [h]
    exact ⟨t', FS.get_set_self _ hp _⟩

/-- Publication of an object which succeeds. -/
theorem publishObject_run {out : Path} {ih : Bool} {e : RsyncUri × Bytes}
    (h : publishObject out ih e env w = (.ok (), w')) :
    (writeBuf (objectPath out ih e.1) e.2 >>= fun _ => fixSince (objectPath out ih e.1) e.2) env w =
      (.ok (), w') := by
  unfold publishObject at h
  dsimp only at h
  by_cases hn : endsInName e.1.path = true
  · rwa [if_pos hn] at h
  · rw [if_neg hn] at h
    obtain ⟨_, _, _, h2⟩ := M.bind_ok.1 h
    cases h2

theorem publishObject_ok {out : Path} {ih : Bool} {e : RsyncUri × Bytes}
    (h : publishObject out ih e env w = (.ok (), w')) :
    objectPath out ih e.1 ≠ [] ∧ ∃ t, w'.cur.get (objectPath out ih e.1) = some (.file e.2 t) ∧
      (NoFaults env → ∀ t', objectTime (objectPath out ih e.1) e.2 = some t' → t = t') := by
  have h := publishObject_run h
  obtain ⟨_, w1, h1, h2⟩ := M.bind_ok.1 h
  obtain ⟨hp, ⟨t, h3⟩, _⟩ := writeBuf_ok h1
  refine ⟨hp, ?_⟩
  unfold fixSince at h2
  match ho : objectTime (objectPath out ih e.1) e.2 with
  | none =>
    rw [ho] at h2
    cases h2
    exact ⟨t, h3, fun _ t' h => by cases h⟩
  | some t0 =>
    rw [ho] at h2
    dsimp only at h2
    rw [attempt_bind] at h2
    cases h2
    obtain ⟨t'', h4⟩ := setMtime_file (env := env) (t' := t0) hp h3
    refine ⟨t'', h4, fun hf t' ht => ?_⟩
    cases ht
    obtain ⟨w2, h5, h6⟩ := setMtime_run (w := w1) (t' := t0) hf h3
    rw [h5] at h4
    dsimp only at h4
    rw [h6, FS.get_set_self _ hp] at h4
    cases h4
    rfl

theorem lastObject_snoc (ih : Bool) (els : List (RsyncUri × Bytes)) (e : RsyncUri × Bytes) (q : Path) :
    lastObject ih (els ++ [e]) q =
      if comps (objectRel ih e.1) = q then some e else lastObject ih els q := by
  unfold lastObject
  rw [List.reverse_append]
  simp only [List.reverse_cons, List.reverse_nil, List.nil_append, List.singleton_append,
    List.find?_cons]
  by_cases h : comps (objectRel ih e.1) = q
  · simp [h]
  · simp [h]

theorem TreeIs.step {out : Path} {ih : Bool} {els : List (RsyncUri × Bytes)} {e : RsyncUri × Bytes}
    (hc : StaysBelow (objectRel ih e.1)) (hw : w.cur.WF) (ht : TreeIs w.cur out ih els)
    (h : publishObject out ih e env w = (.ok (), w')) :
    w'.cur.WF ∧ TreeIs w'.cur out ih (els ++ [e]) := by
  have hpe := objectPath_below (out := out) hc
  have hin := publishObject_in (E := Eff.only (· = objectPath out ih e.1)) (out := out) (ih := ih)
    (e := e) rfl env w
  rw [h] at hin
  obtain ⟨hp, t, hg, _⟩ := publishObject_ok h
  have hw' := hin.wf hw
  refine ⟨hw', ?_, fun q => ?_⟩
  · by_cases hq : comps (objectRel ih e.1) = []
    · -- cannot happen: the directory itself is no file
      obtain ⟨_, w1, h1, _⟩ := M.bind_ok.1 (publishObject_run h)
      unfold writeBuf createFile at h1
      rw [M.bind_assoc] at h1
      obtain ⟨_, w2, h2, h3⟩ := M.bind_ok.1 h1
      obtain ⟨_, w3, h4, _⟩ := M.bind_ok.1 h3
      have h5 : objectPath out ih e.1 = out := by rw [hpe, hq, List.append_nil]
      rw [h5] at h2 h4
      have h6 := createPathForFile_mkdirs out env w
      rw [h2] at h6
      have h7 := h6.mkdirs out
      obtain ⟨_, _, h8, _⟩ := fileCreate_ok h4
      rw [ht.1] at h7
      rcases h7 with h7 | ⟨_, h7, _⟩
      · exact absurd h7 h8
      · cases h7
    · have hx : w'.cur.get (out ++ comps (objectRel ih e.1)) ≠ none := by rw [← hpe, hg]; simp
      refine hw'.above (List.prefix_append _ _) ?_ hx
      intro h'
      exact hq (List.self_eq_append_right.1 h')
  · rw [lastObject_snoc]
    by_cases hq : comps (objectRel ih e.1) = q
    · rw [if_pos hq]
      refine Or.inr ⟨e, t, rfl, ?_⟩
      rw [← hq, ← hpe]
      exact FS.leaf_eq_some_file.2 hg
    · rw [if_neg hq]
      have : w'.cur.leaf (out ++ q) = w.cur.leaf (out ++ q) := hin.frame hw _ (by
        show ¬ out ++ q = objectPath out ih e.1
        rw [hpe]
        exact fun h' => hq (List.append_cancel_left h').symm)
      rw [this]
      exact ht.2 q

theorem forEach_tree {out : Path} {ih : Bool} {els : List (RsyncUri × Bytes)} :
    ∀ {done : List (RsyncUri × Bytes)} {w w' : World},
    (∀ e ∈ els, StaysBelow (objectRel ih e.1)) → w.cur.WF → TreeIs w.cur out ih done →
    M.forEach els (publishObject out ih) env w = (.ok (), w') → 
    w'.cur.WF ∧ TreeIs w'.cur out ih (done ++ els) := by
  induction els with
  | nil => intro done w w' _ hw ht h; cases h; simpa using ⟨hw, ht⟩
  | cons e els ih' =>
    intro done w w' hc hw ht h
    obtain ⟨w1, h1, h2⟩ := forEach_cons_ok.1 h
    obtain ⟨hw1, ht1⟩ := ht.step (hc e (by simp)) hw h1
    have := ih' (fun x hx => hc x (by simp [hx])) hw1 ht1 h2
    simpa using this

theorem TimesAre.step {out : Path} {ih : Bool} {e : RsyncUri × Bytes} (hf : NoFaults env)
    (hc : StaysBelow (objectRel ih e.1)) (hw : w.cur.WF) (ht : TimesAre w.cur out)
    (h : publishObject out ih e env w = (.ok (), w')) : TimesAre w'.cur out := by
  have hpe := objectPath_below (out := out) hc
  have hin := publishObject_in (E := Eff.only (· = objectPath out ih e.1)) (out := out) (ih := ih)
    (e := e) rfl env w
  rw [h] at hin
  obtain ⟨hp, t, hg, hto⟩ := publishObject_ok h
  intro q name b t1 h1 t' h2
  by_cases hq : out ++ q ++ [name] = objectPath out ih e.1
  · rw [hq, hg] at h1
    cases h1
    refine hto hf t' ?_
    rw [← hq, objectTime_eq]
    exact h2
  · refine ht q name b t1 ?_ t' h2
    rw [← FS.leaf_eq_some_file] at h1 ⊢
    rw [← hin.frame hw _ hq]
    exact h1

theorem forEach_times {out : Path} {ih : Bool} {els : List (RsyncUri × Bytes)} (hf : NoFaults env) :
    ∀ {w w' : World}, (∀ e ∈ els, StaysBelow (objectRel ih e.1)) → w.cur.WF → TimesAre w.cur out →
    M.forEach els (publishObject out ih) env w = (.ok (), w') → TimesAre w'.cur out := by
  induction els with
  | nil => intro w w' _ _ ht h; cases h; exact ht
  | cons e els ih' =>
    intro w w' hc hw ht h
    obtain ⟨w1, h1, h2⟩ := forEach_cons_ok.1 h
    have ht1 := ht.step hf (hc e (by simp)) hw h1
    refine ih' (fun x hx => hc x (by simp [hx])) ?_ ht1 h2
    have hin := publishObject_in (E := Eff.only (· = objectPath out ih e.1)) (out := out) (ih := ih)
      (e := e) rfl env w
    rw [h1] at hin
    exact hin.wf hw

theorem exists?_none {fs : FS} {p : Path} (h : fs.get p = none) : fs.exists? p = false := by
  unfold FS.exists? FS.resolve
  rw [h]
  rfl

theorem createOutPath_ok {out : Path} (hn : w.cur.leaf out = none)
    (h : createOutPath out env w = (.ok (), w')) :
    MkDirs out w.cur w'.cur ∧ w'.cur.get out = some .dir := by
  unfold createOutPath at h
  rw [getFs_bind] at h
  by_cases he : w.cur.exists? out = true
  · rw [if_pos he] at h
    cases h
    refine ⟨MkDirs.refl _ _, ?_⟩
    unfold FS.leaf at hn
    unfold FS.exists? FS.resolve at he
    match hg : w.cur.get out with
    | none => rw [hg] at he; simp at he
    | some .dir => rfl
    | some (.file _ _) => rw [hg] at hn; cases hn
    | some (.link _) => rw [hg] at hn; cases hn
  · rw [if_neg he] at h
    have := createDirAll_mkdirs out env w
    rw [h] at this
    exact ⟨this.mkdirs, (createDirAll_ok h).1⟩

/-- Filling a directory without files. -/
theorem makeRevision_ok {rev : RsyncRevision} {c : Config} {src : Path} {b : Bytes}
    (ho : CleanObjects c.rsyncIncludeHost) (hw : w.cur.WF)
    (hn : ∀ q, rev.path c <+: q → w.cur.leaf q = none)
    (hb : w.cur.file? src = some b) (h : makeRevision rev c src env w = (.ok (), w')) :
    w'.cur.WF ∧ (Ext.streamSnapshot b).2 = true ∧
    TreeIs w'.cur (rev.path c) c.rsyncIncludeHost (Ext.streamSnapshot b).1 ∧
    (NoFaults env → TimesAre w'.cur (rev.path c)) := by
  unfold makeRevision at h
  obtain ⟨_, w1, h1, h2⟩ := M.bind_ok.1 h
  obtain ⟨hm, hd⟩ := createOutPath_ok (hn _ (List.prefix_refl _)) h1
  have hw1 : w1.cur.WF := by
    have := (createOutPath_in (E := anyEff) (out := rev.path c) trivial env w).wf hw
    rw [h1] at this
    exact this
  unfold writeSnapshotTree at h2
  obtain ⟨b', w2, h3, h4⟩ := M.bind_ok.1 h2
  obtain ⟨h5, h6, _⟩ := readFile_ok h3
  have hb1 : w1.cur.file? src = some b := by rw [FS.file?_of_leaf (hm.leaf src)]; exact hb
  rw [FS.read_of_file hb1] at h5
  cases h5
  obtain ⟨_, w3, h7, h8⟩ := M.bind_ok.1 h4
  have hw2 : w2.cur = w1.cur := by rw [h6]
  have below : ∀ q, w2.cur.leaf (rev.path c ++ q) = none := by
    intro q
    rw [hw2, hm.leaf]
    exact hn _ (List.prefix_append _ _)
  have h9 : (Ext.streamSnapshot b).2 = true ∧ w' = w3 := by
    have h8' : (if (Ext.streamSnapshot b).2 = true then (pure () : M Unit) else M.throw .parse) env w3 =
      (.ok (), w') := h8
    by_cases hc : (Ext.streamSnapshot b).2 = true
    · rw [if_pos hc] at h8'
      cases h8'
      exact ⟨hc, rfl⟩
    · rw [if_neg hc] at h8'
      cases h8'
  obtain ⟨h9, rfl⟩ := h9
  have h10 := forEach_tree (done := []) (fun e he => ho b e he) (by rw [hw2]; exact hw1)
    ⟨by rw [hw2]; exact hd, fun q => Or.inl ⟨below q, rfl⟩⟩ h7
  refine ⟨h10.1, h9, by simpa using h10.2, fun hf => ?_⟩
  refine forEach_times hf (fun e he => ho b e he) (by rw [hw2]; exact hw1) ?_ h7
  intro q name b1 t h11
  have := below (q ++ [name])
  rw [← List.append_assoc] at this
  rw [← FS.leaf_eq_some_file, this] at h11
  cases h11

/-! ## Switching -/

/-- The only entry that changes is that at `p`. -/
theorem OnlyAt.leaf {p q : Path} {f f' : FS} (h : OnlyAt p f f') (hq : q ≠ p) :
    f'.leaf q = f.leaf q := by
  unfold FS.leaf
  rw [h q hq]

theorem symlink_only (t : Name) (p : Path) : Does (OnlyAt p) (symlink t p) := by
  unfold symlink
  refine io_getFs_does (fun n env w => ?_)
  by_cases h : p = [] ∨ w.cur.get p.dropLast ≠ some .dir
  · rw [if_pos h]; exact Steps.refl
  · rw [if_neg h]
    split
    · exact Steps.refl
    · exact Steps.of_push (env := env) (fun q hq => FS.get_set_ne _ _ hq)

theorem symlink_ok {t : Name} {p : Path} (h : symlink t p env w = (.ok (), w')) :
    p ≠ [] ∧ w.cur.get p = none ∧ w'.cur.get p = some (.link t) := by
  unfold symlink at h
  obtain ⟨k, w2, h2, h3⟩ := M.bind_ok.1 h
  obtain ⟨_, h2, _⟩ := io_ok h2
  subst h2
  rw [getFs_bind] at h3
  dsimp only at h3
  by_cases hc : p = [] ∨ w.cur.get p.dropLast ≠ some .dir
  · rw [if_pos hc] at h3; cases h3
  · rw [if_neg hc] at h3
    rw [not_or] at hc
    split at h3
    · cases h3
    · rename_i hg
      cases h3
      exact ⟨hc.1, hg, FS.get_set_self _ hc.1 _⟩

theorem tmp_ne_current (c : Config) : c.rsyncTmp ≠ c.rsyncCurrent := by
  unfold Config.rsyncTmp Config.rsyncCurrent
  intro h
  have := List.append_cancel_left h
  revert this
  decide

/-- The link changes in one step, everything else except the temporary name stays. -/
def Switching (c : Config) (t : Name) (f f' : FS) : Prop :=
  (∀ q, q ≠ c.rsyncTmp → q ≠ c.rsyncCurrent → f'.get q = f.get q) ∧
  (f'.get c.rsyncCurrent = f.get c.rsyncCurrent ∨
    (f.get c.rsyncCurrent ≠ some .dir ∧ f'.get c.rsyncCurrent = some (.link t)))

theorem OnlyAt.switching {c : Config} {t : Name} {f f' : FS} (h : OnlyAt c.rsyncTmp f f') :
    Switching c t f f' :=
  ⟨fun q h1 _ => h q h1, Or.inl (h _ (fun h' => tmp_ne_current c h'.symm))⟩

theorem symlinkCurrent_steps {rev : RsyncRevision} {c : Config} :
    Does (Switching c rev.dirName) (symlinkCurrent rev c) := by
  intro env w
  unfold symlinkCurrent
  dsimp only
  rw [cur_tmp_path]
  show Steps _ w ((getFs >>= fun fs => (if fs.exists? c.rsyncTmp = true then removeFile c.rsyncTmp
    else pure ()) >>= fun _ => symlink rev.dirName c.rsyncTmp >>= fun _ =>
      rename c.rsyncTmp c.rsyncCurrent) env w).2
  rw [getFs_bind]
  refine Tr.bindAt (T := Steps (Switching c rev.dirName)) ?_ (fun _ w1 h1 =>
    Tr.bindAt (T := Steps (Switching c rev.dirName)) ?_ (fun _ w2 h2 => ?_))
  · split
    · exact (removeFile_only c.rsyncTmp env w).mono (fun _ _ => OnlyAt.switching)
    · exact Steps.refl
  · exact (symlink_only _ c.rsyncTmp env w1).mono (fun _ _ => OnlyAt.switching)
  · obtain ⟨hp, _, hl⟩ := symlink_ok h2
    have h := rename_end c.rsyncTmp c.rsyncCurrent env w2
    generalize rename c.rsyncTmp c.rsyncCurrent env w2 = r at h
    cases h with
    | failed e => exact .same rfl rfl
    | noop h => exact absurd h (tmp_ne_current c)
    | movedDir _ _ _ h => rw [hl] at h; cases h
    | movedFile n _ h4 _ h5 _ h7 =>
      rw [hl] at h5
      cases h5
      refine .push .refl ⟨fun q h1 h2 => ?_, Or.inr ⟨h7, ?_⟩⟩ rfl
      · show ((w2.cur.del c.rsyncTmp).set c.rsyncCurrent _).get q = _
        rw [FS.get_set_ne _ _ h2, FS.get_del_ne _ h1]
      · exact FS.get_set_self _ h4 _

theorem symlinkCurrent_ok {rev : RsyncRevision} {c : Config}
    (h : symlinkCurrent rev c env w = (.ok (), w')) :
    w'.cur.get c.rsyncCurrent = some (.link rev.dirName) := by
  unfold symlinkCurrent at h
  dsimp only at h
  rw [cur_tmp_path] at h
  have h : (getFs >>= fun fs => (if fs.exists? c.rsyncTmp = true then removeFile c.rsyncTmp
    else pure ()) >>= fun _ => symlink rev.dirName c.rsyncTmp >>= fun _ =>
      rename c.rsyncTmp c.rsyncCurrent) env w = (.ok (), w') := h
  rw [getFs_bind] at h
  obtain ⟨_, w1, _, h⟩ := M.bind_ok.1 h
  obtain ⟨_, w2, h2, h⟩ := M.bind_ok.1 h
  obtain ⟨hp, _, hl⟩ := symlink_ok h2
  have h3 := rename_end c.rsyncTmp c.rsyncCurrent env w2
  generalize rename c.rsyncTmp c.rsyncCurrent env w2 = r at h h3
  cases h3 with
  | failed e => cases h
  | noop k => exact absurd k (tmp_ne_current c)
  | movedDir _ _ _ k => rw [hl] at k; cases k
  | movedFile n _ h4 _ h5 _ h7 =>
    rw [hl] at h5
    cases h5
    cases h
    exact FS.get_set_self _ h4 _

/-! ## Moving directories -/

theorem rename_dir_cases {src dst : Path} (hs : w.cur.get src = some .dir) :
    (∃ e, rename src dst env w = (.error e, { w with tick := w.tick + 1 })) ∨
    (rename src dst env w = (.ok (), { w with
        tick := w.tick + 1, cur := w.cur.moveTree src dst, past := w.cur :: w.past }) ∧
      src ≠ [] ∧ dst ≠ [] ∧ w.cur.get dst.dropLast = some .dir ∧ ¬ src <+: dst ∧ ¬ dst <+: src ∧
      (w.cur.get dst = none ∨ (w.cur.get dst = some .dir ∧ w.cur.hasChild dst = false))) := by
  have h := rename_end src dst env w
  generalize rename src dst env w = r at h
  cases h with
  | failed e => exact Or.inl ⟨e, rfl⟩
  | noop _ _ h => exact absurd hs h
  | movedDir h1 h2 h3 _ h5 h6 h7 => exact Or.inr ⟨rfl, h1, h2, h3, h5, h6, h7⟩
  | movedFile n _ _ _ h4 h5 => rw [hs] at h4; cases h4; exact absurd rfl h5

/-- Moving the previous revision out of the way and the new one in place. -/
theorem renameCurrent_cases {rev old : RsyncRevision} {st : RsyncDirState} {c : Config}
    (ho : st.current = some old) (hc : w.cur.get c.rsyncCurrent = some .dir)
    (hr : w.cur.get (rev.path c) = some .dir) (hne : old ≠ rev) :
    (∃ e, renameCurrent rev st c env w = (.error e, { w with tick := w.tick + 1 })) ∨
    ((w.cur.get (old.path c) = none ∨
        (w.cur.get (old.path c) = some .dir ∧ w.cur.hasChild (old.path c) = false)) ∧
      ((∃ e, renameCurrent rev st c env w = (.error e, { w with
          tick := w.tick + 2,
          cur := w.cur.moveTree c.rsyncCurrent (old.path c), past := w.cur :: w.past })) ∨
        renameCurrent rev st c env w = (.ok (), { w with
          tick := w.tick + 2,
          cur := (w.cur.moveTree c.rsyncCurrent (old.path c)).moveTree (rev.path c) c.rsyncCurrent,
          past := w.cur.moveTree c.rsyncCurrent (old.path c) :: w.cur :: w.past }))) := by
  have he : w.cur.exists? c.rsyncCurrent = true := by
    unfold FS.exists? FS.resolve; rw [hc]; rfl
  have heq : renameCurrent rev st c env w =
      (rename c.rsyncCurrent (old.path c) >>= fun _ => rename (rev.path c) c.rsyncCurrent) env w := by
    unfold renameCurrent
    dsimp only
    rw [getFs_bind, ho]
    dsimp only
    rw [if_pos he]
  rw [heq]
  rcases rename_dir_cases (env := env) (dst := old.path c) hc with ⟨e, h1⟩ | ⟨h1, h2, h3, h4, h5, h6, h7⟩
  · exact Or.inl ⟨e, M.bind_of_error h1⟩
  · refine Or.inr ⟨h7, ?_⟩
    rw [M.bind_of_ok h1]
    have hr' : (w.cur.moveTree c.rsyncCurrent (old.path c)).get (rev.path c) = some .dir := by
      rw [FS.get_moveTree _ h2 h3, if_neg (fun h => hne (rev_apart h (List.prefix_refl _))),
        if_neg (rev_not_current (List.prefix_refl _)), hr]
    rcases rename_dir_cases (env := env) (w := { w with
        tick := w.tick + 1, cur := w.cur.moveTree c.rsyncCurrent (old.path c), past := w.cur :: w.past })
        (dst := c.rsyncCurrent) hr' with ⟨e, k⟩ | ⟨k, _⟩
    · exact Or.inl ⟨e, k⟩
    · exact Or.inr k

/-- Moving the first revision in place. -/
theorem renameCurrent_first {rev : RsyncRevision} {st : RsyncDirState} {c : Config}
    (hc : w.cur.exists? c.rsyncCurrent = false ∨ st.current = none)
    (hr : w.cur.get (rev.path c) = some .dir) :
    (∃ e, renameCurrent rev st c env w = (.error e, { w with tick := w.tick + 1 })) ∨
    renameCurrent rev st c env w = (.ok (), { w with
      tick := w.tick + 1,
      cur := w.cur.moveTree (rev.path c) c.rsyncCurrent, past := w.cur :: w.past }) := by
  have heq : renameCurrent rev st c env w = rename (rev.path c) c.rsyncCurrent env w := by
    unfold renameCurrent
    dsimp only
    rw [getFs_bind]
    rcases hc with h | h
    · rw [h]
      cases st.current <;> rfl
    · rw [h]
      rfl
  rw [heq]
  rcases rename_dir_cases (env := env) (dst := c.rsyncCurrent) hr with ⟨e, k⟩ | ⟨k, _⟩
  · exact Or.inl ⟨e, k⟩
  · exact Or.inr k

theorem TreeIs.moveTree {f : FS} {d d' : Path} {ih : Bool} {els : List (RsyncUri × Bytes)}
    (h : TreeIs f d ih els) (hd : d ≠ []) (hd' : d' ≠ []) : TreeIs (f.moveTree d d') d' ih els := by
  have : ∀ q, (f.moveTree d d').get (d' ++ q) = f.get (d ++ q) := by
    intro q
    rw [FS.get_moveTree _ hd hd', if_pos (List.prefix_append _ _), List.drop_left]
  refine ⟨?_, fun q => ?_⟩
  · have := this []
    simp only [List.append_nil] at this
    rw [this]
    exact h.1
  · unfold FS.leaf
    rw [this]
    exact h.2 q

theorem TreeIs.of_get {f f' : FS} {d : Path} {ih : Bool} {els : List (RsyncUri × Bytes)}
    (h : TreeIs f d ih els) (hg : ∀ q, d <+: q → f'.get q = f.get q) : TreeIs f' d ih els := by
  refine ⟨by rw [hg _ (List.prefix_refl _)]; exact h.1, fun q => ?_⟩
  unfold FS.leaf
  rw [hg _ (List.prefix_append _ _)]
  exact h.2 q

/-! ## Cleaning up -/

theorem unlink1_shrinks (p : Path) : Does Shrinks (unlink1 p) := by
  unfold unlink1
  refine io_getFs_does (fun n env w => ?_)
  split
  · exact Steps.refl
  · refine Steps.of_push (env := env) (fun q => ?_)
    rw [FS.get_del]
    split
    · exact Or.inr rfl
    · exact Or.inl rfl

theorem unlink1_gone {p : Path} (hp : p ≠ []) (h : unlink1 p env w = (.ok (), w')) :
    w'.cur.get p = none := by
  unfold unlink1 at h
  obtain ⟨k, w2, h2, h3⟩ := M.bind_ok.1 h
  rw [getFs_bind] at h3
  split at h3
  · cases h3
  · cases h3
    exact FS.get_del_self _ hp

theorem Shrinks.keeps_none {f f' : FS} (h : Shrinks f f') {q : Path} (hq : f.get q = none) :
    f'.get q = none := by
  rcases h q with h | h
  · rw [h, hq]
  · exact h

theorem forEach_unlink_gone {l : List Path} : ∀ {w w' : World}, (∀ p ∈ l, p ≠ []) →
    M.forEach l unlink1 env w = (.ok (), w') → ∀ p ∈ l, w'.cur.get p = none := by
  induction l with
  | nil => intro w w' _ _ p hp; cases hp
  | cons a l ih =>
    intro w w' hl h p hp
    obtain ⟨w1, h1, h2⟩ := forEach_cons_ok.1 h
    rcases List.mem_cons.1 hp with rfl | hp
    · have h3 := unlink1_gone (hl p (by simp)) h1
      have h4 : Does Shrinks (M.forEach l unlink1) := Rel.forEach (fun q _ => unlink1_shrinks q)
      have h5 := h4 env w1
      rw [h2] at h5
      exact (h5.ends Shrinks.refl (fun _ _ _ => Shrinks.trans)).keeps_none h3
    · exact ih (fun q hq => hl q (by simp [hq])) h2 p hp

theorem removeDirAll_shrinks (p : Path) : Does Shrinks (removeDirAll p) := by
  unfold removeDirAll
  refine Rel.bind Rel.getFs (fun fs => ?_)
  split
  · refine Rel.bind (Rel.quiet tick_same) (fun n => Rel.bind Rel.askEnv (fun e => ?_))
    exact Rel.forEach (fun q _ => unlink1_shrinks q)
  · exact Rel.throw _

theorem removeDirAll_gone {p : Path} (h : removeDirAll p env w = (.ok (), w')) :
    w'.cur.get p = none := by
  unfold removeDirAll at h
  rw [getFs_bind] at h
  by_cases hc : p ≠ [] ∧ w.cur.get p = some .dir
  · rw [if_pos hc] at h
    obtain ⟨n, w1, h1, h2⟩ := M.bind_ok.1 h
    obtain ⟨e, w2, h3, h4⟩ := M.bind_ok.1 h2
    refine forEach_unlink_gone (fun q hq => ?_) h4 p ?_
    · rw [List.mem_reverse, mem_sortBy, FS.mem_tree _ _ _ hc.1] at hq
      rintro rfl
      exact hc.1 (List.prefix_nil.1 hq.1)
    · rw [List.mem_reverse, mem_sortBy, FS.mem_tree _ _ _ hc.1]
      exact ⟨List.prefix_refl _, by rw [hc.2]; simp⟩
  · rw [if_neg hc] at h
    cases h

theorem Shrinks.exists? {f f' : FS} (h : Shrinks f f') {p : Path} (hp : f.exists? p = false) :
    f'.exists? p = false := by
  unfold FS.exists? FS.resolve at *
  rcases h p with h1 | h1
  · rw [h1]
    match hg : f.get p with
    | none => rfl
    | some .dir => rw [hg] at hp; simp at hp
    | some (.file _ _) => rw [hg] at hp; simp at hp
    | some (.link t) =>
      rw [hg] at hp
      dsimp only at hp ⊢
      rw [h.keeps_none (by simpa using hp)]
      rfl
  · rw [h1]
    rfl

theorem cleanRevision_shrinks (c : Config) (d : DeprecatedRevision) : Does Shrinks (cleanRevision c d) := by
  unfold cleanRevision
  refine Rel.bind Rel.getFs (fun fs => ?_)
  split
  · exact removeDirAll_shrinks _
  · exact Rel.pure _

theorem cleanRevision_gone {c : Config} {d : DeprecatedRevision}
    (h : cleanRevision c d env w = (.ok (), w')) : w'.cur.exists? (d.revision.path c) = false := by
  unfold cleanRevision at h
  rw [getFs_bind] at h
  by_cases he : w.cur.exists? (d.revision.path c) = true
  · rw [if_pos he] at h
    exact exists?_none (removeDirAll_gone h)
  · rw [if_neg he] at h
    cases h
    simpa using he

theorem forEach_clean_gone {c : Config} {l : List DeprecatedRevision} : ∀ {w w' : World},
    M.forEach l (cleanRevision c) env w = (.ok (), w') →
    ∀ d ∈ l, w'.cur.exists? (d.revision.path c) = false := by
  induction l with
  | nil => intro w w' _ p hp; cases hp
  | cons a l ih =>
    intro w w' h p hp
    obtain ⟨w1, h1, h2⟩ := forEach_cons_ok.1 h
    rcases List.mem_cons.1 hp with rfl | hp
    · have h3 := cleanRevision_gone h1
      have h4 : Does Shrinks (M.forEach l (cleanRevision c)) :=
        Rel.forEach (fun q _ => cleanRevision_shrinks c q)
      have h5 := h4 env w1
      rw [h2] at h5
      exact (h5.ends Shrinks.refl (fun _ _ _ => Shrinks.trans)).exists? h3
    · exact ih h2 p hp

/-- Only what is due is touched. -/
theorem cleanOld_within {st : RsyncDirState} {c : Config} {env : Env} {w : World} :
    Within (Eff.only (fun q => ∃ d ∈ st.old, d.since + c.cleanupAfter ≤ env.clock w.tick ∧
      d.revision.path c <+: q)) w (st.cleanOld c env w).2 := by
  unfold RsyncDirState.cleanOld
  refine Within.bindAt (secondsAgo_in _ env w) (fun t w1 h => ?_)
  cases h
  refine Within.bindAt ?_ (fun _ w2 _ => Rel.pure (T := Within _) _ env w2)
  refine Rel.forEach (T := Within _) (fun d hd => ?_) env _
  refine cleanRevision_in (fun q hq => ?_)
  rw [List.mem_filter] at hd
  refine ⟨d, hd.1, ?_, hq⟩
  have := hd.2
  simp only [decide_eq_true_eq] at this
  have h' : d.since ≤ env.clock w.tick - c.cleanupAfter := this
  exact Int.add_le_of_le_sub_right h'

theorem cleanOld_ok {st st2 : RsyncDirState} {c : Config} (h : st.cleanOld c env w = (.ok st2, w')) :
    st2.current = st.current ∧
    (∀ d, d ∈ st2.old ↔ d ∈ st.old ∧ env.clock w.tick < d.since + c.cleanupAfter) ∧
    ∀ d ∈ st.old, d.since + c.cleanupAfter ≤ env.clock w.tick →
      w'.cur.exists? (d.revision.path c) = false := by
  unfold RsyncDirState.cleanOld at h
  obtain ⟨t, w1, h1, h2⟩ := M.bind_ok.1 h
  cases h1
  obtain ⟨_, w2, h3, h4⟩ := M.bind_ok.1 h2
  cases h4
  refine ⟨rfl, fun d => ?_, fun d hd hs => ?_⟩
  · dsimp only
    rw [List.mem_filter]
    refine and_congr_right (fun _ => ?_)
    simp only [gt_iff_lt, decide_eq_true_eq]
    show (env.clock w.tick - c.cleanupAfter : Int) < d.since ↔ _
    exact Int.sub_lt_iff
  · refine forEach_clean_gone h3 d ?_
    rw [List.mem_filter]
    refine ⟨hd, ?_⟩
    simp only [decide_eq_true_eq]
    show d.since ≤ (env.clock w.tick - c.cleanupAfter : Int)
    exact Int.le_sub_right_of_add_le hs

/-! ## Directories that stay -/

/-- Directories stay. -/
def KeepsDirs (f f' : FS) : Prop := ∀ q, f.get q = some .dir → f'.get q = some .dir

theorem KeepsDirs.refl (f : FS) : KeepsDirs f f := fun _ h => h

theorem KeepsDirs.trans {a b c : FS} (h : KeepsDirs a b) (h' : KeepsDirs b c) : KeepsDirs a c :=
  fun q hq => h' q (h q hq)

theorem MkDirs.keepsDirs {p : Path} {f f' : FS} (h : MkDirs p f f') : KeepsDirs f f' := by
  intro q hq
  rcases h q with h1 | ⟨_, h1, _⟩
  · rw [h1, hq]
  · rw [hq] at h1; cases h1

theorem writeBuf_keepsDirs {p : Path} {b : Bytes} (h : writeBuf p b env w = (.ok (), w')) :
    KeepsDirs w.cur w'.cur := by
  unfold writeBuf createFile at h
  rw [M.bind_assoc] at h
  obtain ⟨⟨⟩, w1, h1, h2⟩ := M.bind_ok.1 h
  obtain ⟨⟨⟩, w2, h3, h4⟩ := M.bind_ok.1 h2
  obtain ⟨hp, _, hd, t, h5⟩ := fileCreate_ok h3
  obtain ⟨t', h6⟩ := writeAll_ok h4
  have h7 := createPathForFile_mkdirs p env w
  rw [h1] at h7
  intro q hq
  have h8 := h7.mkdirs.keepsDirs q hq
  have hne : q ≠ p := by rintro rfl; exact hd h8
  rw [h6, FS.get_set_ne _ _ hne, h5, FS.get_set_ne _ _ hne]
  exact h8

/-- Renaming a file. -/
theorem rename_file_keepsDirs {src dst : Path} (hs : w.cur.get src ≠ some .dir)
    (h : rename src dst env w = (.ok (), w')) : KeepsDirs w.cur w'.cur := by
  have h1 := rename_end src dst env w
  generalize rename src dst env w = r at h h1
  cases h1 with
  | failed e => cases h
  | noop => cases h; exact KeepsDirs.refl _
  | movedDir _ _ _ k => exact absurd k hs
  | movedFile n k1 k2 k3 k4 k5 k6 k7 =>
    cases h
    intro q hq
    show ((w.cur.del src).set dst n).get q = _
    rw [FS.get_set_ne _ _ (by rintro rfl; exact k6 hq), FS.get_del_ne _ (by rintro rfl; exact hs hq), hq]

/-- Removal of a directory changes nothing outside it. -/
theorem removeDirAll_get (p : Path) :
    Does (fun f f' => ∀ q, ¬ p <+: q → f'.get q = f.get q) (removeDirAll p) := by
  unfold removeDirAll
  intro env w
  rw [getFs_bind]
  by_cases hc : p ≠ [] ∧ w.cur.get p = some .dir
  · rw [if_pos hc]
    refine Tr.bindAt (T := Steps _) ((tick_same env w).steps) (fun n w1 h1 => ?_)
    refine Tr.bindAt (T := Steps _) Steps.refl (fun e w2 h2 => ?_)
    refine Rel.forEach (T := Steps _) (fun a ha => ?_) env w2
    rw [List.mem_reverse, mem_sortBy, FS.mem_tree _ _ _ hc.1] at ha
    unfold unlink1
    refine io_getFs_does (fun n env w => ?_)
    split
    · exact Steps.refl
    · refine Steps.of_push (env := env) (fun q hq => FS.get_del_ne _ ?_)
      rintro rfl
      exact hq ha.1
  · rw [if_neg hc]
    exact Steps.refl

theorem cleanOld_get {st : RsyncDirState} {c : Config} {r : RsyncRevision}
    (hr : ∀ d ∈ st.old, d.revision ≠ r) :
    Does (fun f f' => ∀ q, (r.path c <+: q ∨ c.rsyncCurrent <+: q) → f'.get q = f.get q)
      (st.cleanOld c) := by
  unfold RsyncDirState.cleanOld
  refine Rel.bind (Rel.quiet (secondsAgo_same _)) (fun t => Rel.bind ?_ (fun _ => Rel.pure _))
  refine Rel.forEach (fun d hd => ?_)
  rw [List.mem_filter] at hd
  unfold cleanRevision
  refine Rel.bind Rel.getFs (fun fs => ?_)
  split
  · refine Does.mono (removeDirAll_get (d.revision.path c)) (fun f f' h q hq => h q (fun h' => ?_))
    rcases hq with hq | hq
    · exact hr d hd.1 (rev_apart h' hq)
    · exact rev_not_current h' hq
  · exact Rel.pure _

end KSync
