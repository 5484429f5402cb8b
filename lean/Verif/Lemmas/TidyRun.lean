import Verif.Lemmas.TidyPlan
import Verif.Lemmas.Quiet
import Verif.Lemmas.RsyncWhole
import Verif.Lemmas.LifetimeRun

/-! # A run follows the plan -/

set_option linter.unusedSectionVars false
set_option linter.unusedVariables false

namespace KSync

variable [Ext]

theorem Rel.quietly {R : FS → FS → Prop} {α : Type} {m : M α} (h : Rel Same m) : Does R m :=
  fun env w => (h env w).steps

section Stage
variable {P : Plan}

theorem fetch_tidy (hP : P.Sound) {src : FetchSource} {hash : Option Hash} {etag : Option Str} {t : Path}
    (ht : P.file t) : Does P.Step (src.fetch hash etag (some t)) := by
  unfold FetchSource.fetch
  have h1 : Does P.Step (src.raw etag) := (raw_same src etag).quietly
  have h2 := writeBuf_tidy hP ht
  rel_auto

theorem retrieve_tidy (hP : P.Sound) {f : Fetcher} {uri : Str} {hash : Hash} {t : Path} (ht : P.file t) :
    Does P.Step (f.retrieve uri hash t) := by
  unfold Fetcher.retrieve
  split
  case isFalse =>
    unfold Fetcher.retrieveNowhere
    refine bind_lift_in (fun src hs => ?_)
    have h1 : Does P.Step (src.fetch (some hash) none none) := fetch_same.quietly
    have h2 := createPathForFile_tidy hP ht
    rel_auto
  unfold Fetcher.retrieveTo
  have h1 : Does P.Step (readFile t) := (readFile_same t).quietly
  have h2 : Does P.Step (M.lift (f.resolve uri) >>= fun src =>
      src.fetch (some hash) none (some t) >>= fun _ => pure ()) := by
    refine bind_lift_in (fun src hs => ?_)
    have := fetch_tidy (src := src) (hash := some hash) (etag := none) hP ht
    rel_auto
  rel_auto

theorem deltasStage_tidy (hP : P.Sound) {s : RrdpState} {reset : Bool} {f : Fetcher} {c : Config}
    {ds : List DeltaInfo}
    (hf : ∀ d ∈ ds, ∀ rel, s.mappings.relative d.uri = .ok rel → P.file (c.stagingPath rel)) :
    Does P.Step (s.deltasStage reset f c ds) := by
  induction ds with
  | nil => exact Rel.pure _
  | cons d ds ih =>
    unfold RrdpState.deltasStage
    have h1 := ih (fun d' hd => hf d' (List.mem_cons_of_mem _ hd))
    split
    · refine bind_lift_in (fun rel hr => ?_)
      have h2 := retrieve_tidy (f := f) (uri := d.uri) (hash := d.hash) hP (hf d (List.mem_cons_self ..) rel hr)
      have h3 : Does P.Step now := now_same.quietly
      rel_auto
    · exact h1

theorem stage_tidy (hP : P.Sound) {s : RrdpState} {c : Config} {n : Notif} {etag : Option Str} {reset : Bool}
    (h : StageBound ⟨P.file, fun _ => True, fun _ => True, fun _ => True,
      fun _ => True, fun _ => True⟩ s c n) :
    Does P.Step (s.stage c n etag reset) := by
  unfold RrdpState.stage
  have h1 := writeBuf_tidy hP h.name (Ext.writeNotif n)
  have h2 : Does P.Step (s.snapshotStage n c.fetcher c) := by
    unfold RrdpState.snapshotStage
    refine bind_lift_in (fun rel hr => ?_)
    have h2 := retrieve_tidy (f := c.fetcher) (uri := n.snapUri) (hash := n.snapHash) hP (h.snapFile rel hr)
    have h3 : Does P.Step now := now_same.quietly
    rel_auto
  have h3 := deltasStage_tidy (reset := reset) (f := c.fetcher) hP h.deltaFile
  rel_auto

end Stage

section
variable {T : SourceTree} {c : Config} {base name : Str}

theorem planOf_staging {rel : Str} (hc : CleanRel rel) (h : T.files (comps rel)) :
    (planOf T c name).file (c.stagingPath rel) := by
  refine ⟨.staging, comps rel, Or.inl h, ?_⟩
  exact joinPath_clean hc

theorem planOf_pub {rel : Str} (h : T.files (comps rel)) : (planOf T c name).file (c.pubPath rel) :=
  ⟨.rrdp, comps rel, Or.inl h, rfl⟩

theorem planOf_notif : (planOf T c name).file (c.notifPath name) :=
  ⟨.rrdp, [name], Or.inr (Or.inl rfl), rfl⟩

theorem planOf_notifTmp : (planOf T c name).file (c.rrdpDir ++ [name ++ ".tmp".toList]) :=
  ⟨.rrdp, _, Or.inr (Or.inr rfl), rfl⟩

theorem planOf_state : (planOf T c name).file c.rrdpStatePath :=
  ⟨.state, [], rfl, (List.append_nil _).symm⟩

theorem planOf_rsyncState : (planOf T c name).file c.rsyncStatePath :=
  ⟨.rsyncState, [], rfl, (List.append_nil _).symm⟩

theorem planOf_object {rev : RsyncRevision} {o : Path} (h : T.objects rev o) :
    (planOf T c name).file (rev.path c ++ o) := by
  refine ⟨.rsync, rev.dirName :: o, ⟨rev, o, h, rfl⟩, ?_⟩
  unfold RsyncRevision.path Place.root
  rw [List.append_assoc]; rfl

theorem planOf_rev (rev : RsyncRevision) : (planOf T c name).dir (rev.path c) :=
  Or.inr ⟨rev, List.prefix_refl _⟩

theorem SourceTree.Has.limited {n n' : Notif} (h : T.Has c base n) (hn : Limited c n n') : T.Has c base n' := by
  have hm := fun d => hn.mem (d := d)
  obtain ⟨ds, h1, rfl⟩ := hn
  have hsub : ∀ r, r ∈ Notif.refs { n with deltas := ds } → r ∈ n.refs := fun r hr => ?_
  · exact ⟨fun r hr rel he => h.files r (hsub r hr) rel he, h.objects, fun r hr => h.names r (hsub r hr),
      h.objectNames⟩
  rcases List.mem_cons.1 hr with rfl | hr
  · exact List.mem_cons_self ..
  · obtain ⟨d, hd, rfl⟩ := List.mem_map.1 hr
    exact List.mem_cons_of_mem _ (List.mem_map.2 ⟨d, hm d hd, rfl⟩)

theorem stageBound_tidy {s : RrdpState} {n : Notif} (hu : NotifUri c base name) (hs : Sane c base name s)
    (hg : GoodNotif base name n) (hT : T.Has c base n) :
    StageBound ⟨(planOf T c name).file, fun _ => True, fun _ => True, fun _ => True,
      fun _ => True, fun _ => True⟩ s c n := by
  have key : ∀ r ∈ n.refs, ∀ rel, s.mappings.relative r.1 = .ok rel →
      (planOf T c name).file (c.stagingPath rel) := by
    intro r hr rel h
    rw [relative_ok, hs.mappings] at h
    exact planOf_staging (hg r hr rel h).clean (hT.files r hr rel h)
  refine ⟨?_, fun _ _ => trivial, ?_, fun _ _ _ _ => trivial, ?_⟩
  · show (planOf T c name).file (joinPath c.stagingDir s.source.name)
    rw [hs.fileName, hu.joinName]
    exact ⟨.staging, [name], Or.inr (Or.inl rfl), rfl⟩
  · exact key (n.snapUri, n.snapHash) (by simp [Notif.refs])
  · intro d hd
    exact key (d.uri, d.hash) (by
      unfold Notif.refs
      exact List.mem_cons_of_mem _ (List.mem_map.2 ⟨d, hd, rfl⟩))

theorem updateStaged_tidy {s : RrdpState} {env : Env} {w : World} (hP : (planOf T c name).Sound)
    (hu : NotifUri c base name) (hs : Sane c base name s) (hg : GoodSource c base name env w.cur)
    (hT : ∀ etag n, Offers c env w.cur etag n → T.Has c base n) :
    Steps (planOf T c name).Step w (s.updateStaged c env w).2 := by
  rcases updateStaged_cases s c env w with ⟨e, w1, h1, h2, h3⟩ | ⟨w1, h1, h2, h3, _⟩ |
    ⟨n, etag, ds, reset, w1, h1, h2, h3, h4, h5, h6⟩
  · rw [h1]; exact h2.steps
  · rw [h1]; exact h2.steps
  · rw [h6]
    exact Tr.trans h4.steps (stage_tidy hP (stageBound_tidy hu hs ((hg _ _ h1).limited h2)
      ((hT _ _ h1).limited ⟨ds, sortVerify_limit h2, rfl⟩)) env w1)

theorem prepare_tidy {depth : Nat} {env : Env} {w : World} (hP : (planOf T c name).Sound)
    (hc : RunConds c base name env w.cur)
    (hT : ∀ etag n, Offers c env w.cur etag n → T.Has c base n) :
    Steps (planOf T c name).Step w (prepare depth c env w).2 := by
  unfold prepare
  refine Tr.bindAt (T := Steps (planOf T c name).Step) (loadState_same c env w).steps (fun s w1 h1 => ?_)
  have hw : w1.cur = w.cur := (loadState_ok h1).1.1
  have hsane := (loadState_inUse hc.uri h1).sane hc.state
  refine Tr.bindAt (T := Steps (planOf T c name).Step)
    (updateStaged_tidy hP hc.uri hsane (hw ▸ hc.source) (hw ▸ hT)) (fun st w2 h2 => ?_)
  cases st with
  | none => exact Tr.refl _
  | some st =>
    dsimp only
    refine Tr.bindAt (T := Steps (planOf T c name).Step) (preValidate_same depth s c env w2).steps
      (fun s' w3 h3 => ?_)
    exact Tr.bindAt (T := Steps (planOf T c name).Step) (scriptGate_same c env w3).steps
      (fun _ w4 _ => Tr.refl _)

/-! ## Publication -/

theorem moveStaged_tidy {st : StagedChanges} (hP : (planOf T c name).Sound)
    (h1 : GoodRel name st.snapshot.relPath) (h2 : ∀ d ∈ st.deltas, GoodRel name d.relPath)
    (h3 : T.files (comps st.snapshot.relPath)) (h4 : ∀ d ∈ st.deltas, T.files (comps d.relPath)) :
    Does (planOf T c name).Step (moveStaged c st) := by
  have key : ∀ rel, GoodRel name rel → T.files (comps rel) →
      Does (planOf T c name).Step (moveFile c.stagingDir c.rrdpDir rel) := fun rel g1 g2 =>
    moveFile_tidy hP (planOf_staging g1.clean g2) (by
      have := planOf_pub (c := c) (name := name) g2
      rw [joinPath_clean g1.clean]; exact this)
  unfold moveStaged
  exact Rel.bind (key _ h1 h3) (fun _ => Rel.forEach (fun d hd => key _ (h2 d hd) (h4 d hd)))

theorem cleanFile_tidy {s : RrdpState} (hl : Layout c base name) (hs : Sane c base name s)
    {d : DeprecatedFile} (hd : d ∈ s.deprecated) : Does (planOf T c name).Step (cleanFile d) := by
  obtain ⟨rel, g1, g2⟩ := hs.deprecated d hd
  unfold cleanFile
  refine Rel.bind Rel.getFs (fun fs => ?_)
  split
  · unfold removeFileAndEmptyParents
    refine removeUp_tidy (fun t ht => ?_)
    rw [g2] at ht
    exact hl.rrdpRsync.not_both (List.prefix_append _ _) ((List.prefix_append _ _).trans ht)
  · exact Rel.pure _

theorem clean_tidy {s : RrdpState} (hl : Layout c base name) (hs : Sane c base name s) :
    Does (planOf T c name).Step (s.clean c) := by
  unfold RrdpState.clean
  refine Rel.bind (secondsAgo_same _).quietly (fun before => ?_)
  exact Rel.bind (Rel.forEach (fun d hd => cleanFile_tidy hl hs (List.mem_filter.1 hd).1))
    (fun _ => Rel.pure _)

theorem writeNotification_tidy {s : RrdpState} {d : Nat} (hP : (planOf T c name).Sound) (hu : NotifUri c base name)
    (hs : Sane c base name s) : Does (planOf T c name).Step (s.writeNotification d) := by
  unfold RrdpState.writeNotification
  refine Rel.bind (notifyDelay_same d).quietly (fun _ => ?_)
  refine Rel.bind (Rel.lift _) (fun n => ?_)
  rw [hs.tmpPath hu, hs.notifPath hu]
  exact Rel.bind (writeBuf_tidy hP planOf_notifTmp _) (fun _ => rename_tidy hP planOf_notifTmp planOf_notif)

/-! ## The rsync directory -/

theorem createOutPath_tidy {P : Plan} (hP : P.Sound) {p : Path} (hp : P.dir p) :
    Does P.Step (createOutPath p) := by
  unfold createOutPath
  have h := createDirAll_tidy hP hp
  rel_auto

theorem fixSince_tidy {P : Plan} (hP : P.Sound) {p : Path} (hp : P.file p) (b : Bytes) :
    Does P.Step (fixSince p b) := by
  unfold fixSince
  have h := setMtime_tidy hP hp
  split
  · exact Rel.pure _
  · rel_auto

theorem object_file {rev : RsyncRevision} {ih : Bool} {u : RsyncUri} (hs : StaysBelow (objectRel ih u))
    (h : T.objects rev (comps (objectRel ih u))) :
    (planOf T c name).file (objectPath (rev.path c) ih u) := by
  rw [objectPath_below hs]
  exact planOf_object h

theorem createOutPath_there {P : Plan} {p : Path} {env : Env} {w w' : World} (hg : P.Good w.cur)
    (hp : P.dir p) (h : createOutPath p env w = (.ok (), w')) : w'.cur.get p = some .dir := by
  unfold createOutPath at h
  rw [getFs_bind] at h
  by_cases he : w.cur.exists? p = true
  · rw [if_pos he] at h
    cases h
    refine hg.parentDir hp (fun hn => ?_)
    unfold FS.exists? FS.resolve at he
    rw [hn] at he
    simp at he
  · rw [if_neg he] at h
    exact (createDirAll_ok h).1

theorem writeSnapshotTree_tidy {rev : RsyncRevision} {src : Path} {env : Env} {w : World}
    (hP : (planOf T c name).Sound) (ho : CleanObjects c.rsyncIncludeHost)
    (hb : ∀ b, w.cur.read src = some b → ∀ e ∈ (Ext.streamSnapshot b).1,
      T.objects rev (comps (objectRel c.rsyncIncludeHost e.1))) :
    Steps (planOf T c name).Step w (writeSnapshotTree (rev.path c) c.rsyncIncludeHost src env w).2 := by
  unfold writeSnapshotTree
  refine Tr.bindAt (T := Steps (planOf T c name).Step) (readFile_same src env w).steps (fun b w2 h2 => ?_)
  have hels := hb b (readFile_ok h2).1
  have hfor : Does (planOf T c name).Step (M.forEach (Ext.streamSnapshot b).1
      (publishObject (rev.path c) c.rsyncIncludeHost)) := by
    refine Rel.forEach (fun e he => ?_)
    have hf : (planOf T c name).file (objectPath (rev.path c) c.rsyncIncludeHost e.1) :=
      object_file (ho b e he) (hels e he)
    have h3 := writeBuf_tidy hP hf e.2
    have h4 := fixSince_tidy hP hf e.2
    have h5 := createPathForFile_tidy hP hf
    unfold publishObject
    rel_auto
  refine (Rel.bind hfor (fun _ => ?_) : Does (planOf T c name).Step _) env w2
  split
  · exact Rel.pure _
  · exact Rel.throw _

/-- What the snapshot at `src` contains keeps to the names. -/
def SourceTree.Objects (T : SourceTree) (c : Config) (rev : RsyncRevision) (src : Path) (f : FS) : Prop :=
  f.link? src = none ∧ (∀ b, f.file? src = some b → ∀ e ∈ (Ext.streamSnapshot b).1,
    T.objects rev (comps (objectRel c.rsyncIncludeHost e.1))) ∧
  ∀ b, f.file? src = some b → ∀ e ∈ (Ext.streamSnapshot b).1, EndsInName e.1.path

theorem SourceTree.Objects.out {rev : RsyncRevision} {src p : Path} {env : Env} {w w1 : World}
    (h : T.Objects c rev src w.cur) (hw : w.cur.WF) (h1 : createOutPath p env w = (.ok (), w1)) :
    ∀ b, w1.cur.read src = some b → ∀ e ∈ (Ext.streamSnapshot b).1,
      T.objects rev (comps (objectRel c.rsyncIncludeHost e.1)) := by
  have hlf := createOutPath_leaf (env := env) p hw src
  rw [h1] at hlf
  intro b hb
  rw [FS.read_of_leaf h.1 hlf] at hb
  exact h.2.1 b (FS.file_of_read hb h.1)

theorem SourceTree.Objects.named {rev : RsyncRevision} {src p : Path} {env : Env} {w w1 : World}
    (h : T.Objects c rev src w.cur) (hw : w.cur.WF) (h1 : createOutPath p env w = (.ok (), w1)) :
    ∀ b, w1.cur.read src = some b → ∀ e ∈ (Ext.streamSnapshot b).1, EndsInName e.1.path := by
  have hlf := createOutPath_leaf (env := env) p hw src
  rw [h1] at hlf
  intro b hb
  rw [FS.read_of_leaf h.1 hlf] at hb
  exact h.2.2 b (FS.file_of_read hb h.1)

/-- The plan is followed and the directory to be linked to is there. -/
def Plan.Linkable (P : Plan) (t : Name) (f : FS) : Prop := P.Good f ∧ f.get (P.hold ++ [t]) = some .dir

theorem makeRevision_tidy {rev : RsyncRevision} {src : Path} {env : Env} {w : World}
    (hP : (planOf T c name).Sound) (ho : CleanObjects c.rsyncIncludeHost)
    (hb : T.Objects c rev src w.cur) (hw : w.cur.WF) :
    Steps (planOf T c name).Step w (makeRevision rev c src env w).2 :=
  Tr.bindAt (T := Steps (planOf T c name).Step) (createOutPath_tidy hP (planOf_rev rev) env w)
    (fun _ w1 h1 => writeSnapshotTree_tidy hP ho (hb.out hw h1))

theorem makeRevision_dir {rev : RsyncRevision} {src : Path} {env : Env} {w w' : World}
    (hP : (planOf T c name).Sound) (hg : (planOf T c name).Good w.cur)
    (ho : CleanObjects c.rsyncIncludeHost) (hb : T.Objects c rev src w.cur) (hw : w.cur.WF)
    (h : makeRevision rev c src env w = (.ok (), w')) :
    (planOf T c name).Linkable rev.dirName w'.cur := by
  unfold makeRevision at h
  obtain ⟨_, w1, h1, h2⟩ := M.bind_ok.1 h
  have s1 := createOutPath_tidy hP (planOf_rev (T := T) (c := c) (name := name) rev) env w
  rw [h1] at s1
  have g1 := (s1.plan hg).1
  have s2 := writeSnapshotTree_tidy (env := env) hP ho (hb.out hw h1)
  rw [h2] at s2
  obtain ⟨g2, g3⟩ := s2.plan g1
  exact ⟨g2, g3 _ (createOutPath_there hg (planOf_rev rev) h1)⟩

/-! ### Links -/

theorem Plan.Good.delLink {P : Plan} {f : FS} (h : P.Good f) {q : Path} (hq : P.link q) :
    P.Good (f.del q) ∧ P.Holds f (f.del q) := by
  have hh : P.Holds f (f.del q) := fun t ht => by
    by_cases he : P.hold ++ [t] = q
    · obtain ⟨x, hx⟩ := (h.fits _ _ ht).2.2 (he ▸ hq)
      cases hx
    · rw [FS.get_del_ne _ he]; exact ht
  refine ⟨⟨fun r m hr => ?_, fun t ht => ?_⟩, hh⟩
  · rw [FS.get_del] at hr
    split at hr
    · cases hr
    · exact h.fits r m hr
  · rw [FS.get_del] at ht
    split at ht
    · cases ht
    · exact hh t (h.anchored t ht)

theorem Plan.Good.setLink {P : Plan} (hP : P.Sound) {f : FS} (h : P.Good f) {q : Path} {t : Name}
    (hq : P.link q) (ht : f.get (P.hold ++ [t]) = some .dir) :
    P.Good (f.set q (.link t)) ∧ P.Holds f (f.set q (.link t)) := by
  have hh : P.Holds f (f.set q (.link t)) := fun t ht => by
    by_cases he : P.hold ++ [t] = q
    · obtain ⟨x, hx⟩ := (h.fits _ _ ht).2.2 (he ▸ hq)
      cases hx
    · rw [FS.get_set_ne _ _ he]; exact ht
  refine ⟨⟨fun r m hr => ?_, fun t' ht' => ?_⟩, hh⟩
  · by_cases he : r = q
    · subst he
      rw [FS.get_set_self _ (hP.linkRoot _ hq)] at hr
      cases hr
      exact hP.fitsLink hq t
    · rw [FS.get_set_ne _ _ he] at hr
      exact h.fits r m hr
  · by_cases he : P.tmp = q
    · rw [he, FS.get_set_self _ (hP.linkRoot _ hq)] at ht'
      cases ht'
      exact hh t ht
    · rw [FS.get_set_ne _ _ he] at ht'
      exact hh t' (h.anchored t' ht')

theorem symlinkCurrent_tidy {rev : RsyncRevision} {env : Env} {w : World} (hP : (planOf T c name).Sound) :
    Keeps ((planOf T c name).Linkable rev.dirName) w (symlinkCurrent rev c env w).2 := by
  have htmp : (planOf T c name).link c.rsyncTmp := Or.inr rfl
  have hcur : (planOf T c name).link c.rsyncCurrent := Or.inl rfl
  refine Keeps.of_steps (R := fun f f' => (planOf T c name).Linkable rev.dirName f →
    (planOf T c name).Linkable rev.dirName f') ?_ (fun f f' h h' => h' h)
  unfold symlinkCurrent
  dsimp only
  rw [cur_tmp_path]
  show Steps _ w ((getFs >>= fun fs => (if fs.exists? c.rsyncTmp = true then removeFile c.rsyncTmp
    else pure ()) >>= fun _ => symlink rev.dirName c.rsyncTmp >>= fun _ =>
      rename c.rsyncTmp c.rsyncCurrent) env w).2
  rw [getFs_bind]
  refine Tr.bindAt (T := Steps _) ?_ (fun _ w1 h1 => Tr.bindAt (T := Steps _) ?_ (fun _ w2 h2 => ?_))
  · split
    · unfold removeFile
      refine (io_getFs_does (fun n env w => ?_) : Does _ _) env w
      split
      · exact Steps.of_push (env := env) (fun h => ⟨(h.1.delLink htmp).1, (h.1.delLink htmp).2 _ h.2⟩)
      · exact Steps.of_push (env := env) (fun h => ⟨(h.1.delLink htmp).1, (h.1.delLink htmp).2 _ h.2⟩)
      · exact Steps.refl
    · exact Steps.refl
  · unfold symlink
    refine (io_getFs_does (fun n env w => ?_) : Does _ _) env w1
    by_cases h : c.rsyncTmp = [] ∨ w.cur.get c.rsyncTmp.dropLast ≠ some .dir
    · rw [if_pos h]; exact Steps.refl
    · rw [if_neg h]
      split
      · exact Steps.refl
      · exact Steps.of_push (env := env) (fun h =>
          ⟨(h.1.setLink hP htmp h.2).1, (h.1.setLink hP htmp h.2).2 _ h.2⟩)
  · obtain ⟨hp, _, hl⟩ := symlink_ok h2
    have h := rename_end c.rsyncTmp c.rsyncCurrent env w2
    generalize rename c.rsyncTmp c.rsyncCurrent env w2 = r at h
    cases h with
    | failed e => exact .same rfl rfl
    | noop h => exact absurd h (tmp_ne_current c)
    | movedDir _ _ _ h => rw [hl] at h; cases h
    | movedFile n _ h4 _ h5 _ h7 =>
      rw [hl] at h5
      cases h5
      refine .push .refl (fun h => ?_) rfl
      obtain ⟨g1, g2⟩ := h.1.delLink htmp
      obtain ⟨g3, g4⟩ := g1.setLink hP hcur (g2 _ h.2)
      exact ⟨g3, g4 _ (g2 _ h.2)⟩

theorem symlinkCurrent_noTmp {rev : RsyncRevision} {env : Env} {w w' : World}
    (h : symlinkCurrent rev c env w = (.ok (), w')) : w'.cur.get c.rsyncTmp = none := by
  unfold symlinkCurrent at h
  dsimp only at h
  rw [cur_tmp_path] at h
  have h : (getFs >>= fun fs => (if fs.exists? c.rsyncTmp = true then removeFile c.rsyncTmp
    else pure ()) >>= fun _ => symlink rev.dirName c.rsyncTmp >>= fun _ =>
      rename c.rsyncTmp c.rsyncCurrent) env w = (.ok (), w') := h
  rw [getFs_bind] at h
  obtain ⟨_, w1, _, h⟩ := M.bind_ok.1 h
  obtain ⟨_, w2, h2, h⟩ := M.bind_ok.1 h
  obtain ⟨hp, _, hl⟩ := symlink_ok h2
  have h3 := rename_end c.rsyncTmp c.rsyncCurrent env w2
  generalize rename c.rsyncTmp c.rsyncCurrent env w2 = r at h h3
  cases h3 with
  | failed e => cases h
  | noop k => exact absurd k (tmp_ne_current c)
  | movedDir _ _ _ k => rw [hl] at k; cases k
  | movedFile n h3 h4 _ h5 _ h7 =>
    cases h
    show ((w2.cur.del c.rsyncTmp).set c.rsyncCurrent _).get c.rsyncTmp = none
    rw [FS.get_set_ne _ _ (tmp_ne_current c), FS.get_del_self _ h3]

theorem Plan.Good.shrinks {P : Plan} {f f' : FS} (h : P.Good f) (ht : f.get P.tmp = none)
    (hs : Shrinks f f') : P.Good f' ∧ f'.get P.tmp = none := by
  refine ⟨⟨fun q n hq => ?_, fun t h' => ?_⟩, hs.keeps_none ht⟩
  · rcases hs q with h1 | h1
    · exact h.fits q n (h1 ▸ hq)
    · rw [h1] at hq; cases hq
  · rw [hs.keeps_none ht] at h'; cases h'

theorem cleanOld_shrinks (c : Config) (st : RsyncDirState) : Does Shrinks (st.cleanOld c) := by
  unfold RsyncDirState.cleanOld
  refine Rel.bind (secondsAgo_same _).quietly (fun before => ?_)
  exact Rel.bind (Rel.forEach (fun d _ => cleanRevision_shrinks c d)) (fun _ => Rel.pure _)

theorem updateRsync_good {s : RrdpState} {x : SnapshotState} {env : Env} {w : World}
    (hP : (planOf T c name).Sound) (hl : c.rsyncUseSymlinks = true) (hx : s.snapshot = some x)
    (ho : CleanObjects c.rsyncIncludeHost)
    (hb : T.Objects c x.rev (s.mappings.path x.relPath) w.cur) (hw : w.cur.WF)
    (hg : (planOf T c name).Good w.cur) :
    Keeps (planOf T c name).Good w (updateRsync s c env w).2 := by
  have hgk : ∀ {w w' : World}, Steps (planOf T c name).Step w w' → Keeps (planOf T c name).Good w w' :=
    fun h => Keeps.of_steps h (fun f f' h1 h2 => (h2 h1).1)
  have hsw : ∀ st, switchTo x.rev st c = symlinkCurrent x.rev c := fun st => by
    unfold switchTo
    rw [if_pos hl]
  have after : ∀ {st w1 w2}, RsyncDirState.recover c env w = (.ok st, w1) →
      makeRevision x.rev c (s.mappings.path x.relPath) env w1 = (.ok (), w2) →
      (planOf T c name).Linkable x.rev.dirName w2.cur := by
    intro st w1 w2 e1 e2
    have hs := recover_same c env w
    rw [e1] at hs
    exact makeRevision_dir hP (hs.cur ▸ hg) ho (hs.cur ▸ hb) (hs.cur ▸ hw) e2
  refine updateRsync_tr hx ?_ ?_ ?_ ?_ ?_ ?_
  · exact Keeps.of_same (recover_same c env w)
  · intro st w1 e1
    have hs := recover_same c env w
    rw [e1] at hs
    exact hgk (makeRevision_tidy hP ho (hs.cur ▸ hb) (hs.cur ▸ hw))
  · intro st w1 w2 e1 e2
    rw [hsw]
    exact Keeps.via (symlinkCurrent_tidy hP) (after e1 e2) (fun f hf => hf.1)
  · exact fun st w1 w2 w3 _ _ _ => Keeps.of_same (updateCurrent_same st x.rev env w3)
  · intro st w1 w2 w3 st1 w4 e1 e2 e3 e4
    rw [hsw] at e3
    have hs := updateCurrent_same st x.rev env w3
    rw [e4] at hs
    have h3 := symlinkCurrent_tidy (T := T) (name := name) (env := env) (w := w2) (rev := x.rev) hP
    rw [e3] at h3
    have hg3 := (h3 (after e1 e2)).1.1
    have ht := symlinkCurrent_noTmp e3
    have : Keeps (fun f => (planOf T c name).Good f ∧ f.get (planOf T c name).tmp = none) w4
        (st1.cleanOld c env w4).2 :=
      Keeps.of_steps (cleanOld_shrinks c st1 env w4) (fun f f' h1 h2 => h1.1.shrinks h1.2 h2)
    refine Keeps.via this ?_ (fun f hf => hf.1)
    rw [hs.cur]
    exact ⟨hg3, ht⟩
  · exact fun st w1 w2 w3 st1 w4 st2 w5 _ _ _ _ _ => hgk (writeBuf_tidy hP planOf_rsyncState _ env w5)

/-! ## Whole runs -/

variable {life : SourceLife} {p p' : Progress}

theorem RsyncReady.objects {env : Env} {f0 : FS} {s : RrdpState} {x : SnapshotState} {w : World}
    (h : RsyncReady c base name env f0 s x w) (hc : CleanSource c base env f0)
    (hT : ∀ etag n, Offers c env f0 etag n → T.Has c base n) :
    T.Objects c x.rev (s.mappings.path x.relPath) w.cur := by
  obtain ⟨g1, g2⟩ := h.source hc
  rw [h.path]
  obtain ⟨n, ⟨s0, _, hn, _⟩, h1, h2, _⟩ := h.version
  refine ⟨g1, fun b hb e he => ?_, fun b hb e he => (hT _ _ hn).objectNames b ((g2 b hb).trans h2) e he⟩
  rw [h1]
  exact (hT _ _ hn).objects b ((g2 b hb).trans h2) e he

theorem publish_good {depth : Nat} {env : Env} {f0 : FS} {s0 s : RrdpState} {n0 n : Notif}
    {st : StagedChanges} {w : World} (hP : (planOf T c name).Sound)
    (hsym : c.rsyncEnabled = true → c.rsyncUseSymlinks = true)
    (h : Ready life depth c base name p p' env f0 s0 s n0 n st w)
    (hT : ∀ etag n, Offers c env f0 etag n → T.Has c base n) (hn : T.Has c base n) :
    Keeps (planOf T c name).Good w (publish c s st env w).2 := by
  have hgk : ∀ {w w' : World}, Steps (planOf T c name).Step w w' → Keeps (planOf T c name).Good w w' :=
    fun h => Keeps.of_steps h (fun f f' h1 h2 => (h2 h1).1)
  have hcs : CleanSource c base env f0 :=
    ⟨h.run.no304, h.before.links, fun etag n hn => (h.run.lists _ _ hn).oneHash⟩
  have hrefs := h.step.staged
  refine publish_by (T := Keeps (planOf T c name).Good) h.pub h.at_.wf ?_ ?_ ?_ ?_ ?_ ?_
  · refine fun _ => hgk (moveStaged_tidy hP h.pub.goodSnap h.pub.goodDeltas ?_ ?_ env w)
    · exact hn.files (n.snapUri, n.snapHash) (List.mem_cons_self ..) _ hrefs.snapUri
    · intro d hd
      have h1 : (⟨d.serial, base ++ d.relPath, d.hash⟩ : DeltaInfo) ∈ n.deltas := by
        have : (⟨d.serial, base ++ d.relPath, d.hash⟩ : DeltaInfo) ∈
            n.deltas.filter (fun d => s.deltaIsNew st.sessionReset d.serial) := by
          rw [← hrefs.deltas]
          exact List.mem_map.2 ⟨d, hd, rfl⟩
        exact (List.mem_filter.1 this).1
      exact hn.files (base ++ d.relPath, d.hash)
        (List.mem_cons_of_mem _ (List.mem_map.2 ⟨_, h1, rfl⟩)) _ rfl
  · exact fun w1 _ _ _ => Keeps.of_same (absorb_same s st env w1)
  · exact fun w1 s1 w2 _ _ _ hs _ => hgk (clean_tidy h.layout hs env w2)
  · intro w1 s1 w2 s2 w3 e1 e2 e3 hw hs _
    have hr := rsyncReady h.layout h.conds h.at_ e1 e2 e3
    unfold rsyncPart
    by_cases he : c.rsyncEnabled = true
    · rw [if_pos he]
      exact fun hg => updateRsync_good hP (hsym he) hr.snapshot (h.conds.objects he)
        (hr.objects hcs hT) hw hg hg
    · rw [if_neg he]
      exact Tr.refl _
  · exact fun w1 s1 w2 s2 w3 w4 _ _ _ _ _ hs _ _ => hgk (writeNotification_tidy hP h.conds.uri hs env w4)
  · exact fun w1 s1 w2 s2 w3 w4 w5 _ _ _ _ _ _ _ _ _ _ => hgk (writeBuf_tidy hP planOf_state _ env w5)

theorem run_good {depth : Nat} {env : Env} {f0 : FS} (hP : (planOf T c name).Sound)
    (hl : Layout c base name) (ho : c.rsyncEnabled = true → CleanObjects c.rsyncIncludeHost)
    (hsym : c.rsyncEnabled = true → c.rsyncUseSymlinks = true)
    (hk : Kept life c base name p f0) (hr : TidyRun life T c base name p p' depth env f0)
    (hg : (planOf T c name).Good f0) :
    ∀ f ∈ (process depth c env (World.start f0)).2.crashPoints, (planOf T c name).Good f := by
  have hc : RunConds c base name env f0 :=
    ⟨hl.uri, hk.wf, fun s hs => (hk.state s hs).sane, hr.good.source, ho⟩
  have hpre : Keeps (planOf T c name).Good (World.start f0) (prepare depth c env (World.start f0)).2 :=
    Keeps.of_steps (prepare_tidy hP hc hr.has) (fun f f' h1 h2 => (h2 h1).1)
  rcases run_cases (depth := depth) (w := World.start f0) hc with ⟨_, h1⟩ | ⟨s, st, w, n, h1, h2⟩
  · have : (process depth c env (World.start f0)).2 = (prepare depth c env (World.start f0)).2 := by
      rw [process_eq]
      match h3 : prepare depth c env (World.start f0) with
      | (.error e, w1) => rw [M.bind_of_error h3]
      | (.ok none, w1) => rw [M.bind_of_ok h3]; rfl
      | (.ok (some (s, st)), w1) => exact (h1 _ _ _ h3).elim
    rw [this]
    exact hpre.start hg
  · obtain ⟨s0, n0, hrd, hof⟩ := readyAt hl hc hk hr.good h1
    rw [h1.prep] at hpre
    rw [h2]
    exact (Tr.trans hpre (publish_good hP hsym hrd hr.has ((hr.has _ _ hof).limited hrd.step.limited))).start hg

end

end KSync
