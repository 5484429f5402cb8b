import Verif.Lemmas.Whole

/-! # What is in the staging directory after staging -/

set_option linter.unusedSectionVars false
set_option linter.unusedSimpArgs false
set_option linter.unusedVariables false

namespace KSync

variable [Ext]

/-- Only `t` changes, and if so it is a regular file afterwards. -/
def ToFile (t : Path) (f f' : FS) : Prop :=
  Frame (· = t) f f' ∧ (f'.leaf t = f.leaf t ∨ ∃ b τ, f'.leaf t = some (.file b τ))

theorem ToFile.refl (t : Path) (f : FS) : ToFile t f f := ⟨Frame.refl _, Or.inl rfl⟩

theorem ToFile.trans {t : Path} {f g h : FS} (h1 : ToFile t f g) (h2 : ToFile t g h) :
    ToFile t f h := by
  refine ⟨h1.1.trans h2.1, ?_⟩
  rcases h2.2 with h3 | h3
  · rw [h3]; exact h1.2
  · exact Or.inr h3

theorem Steps.toFile {t : Path} {w w' : World} (h : Steps (ToFile t) w w') :
    ToFile t w.cur w'.cur :=
  h.ends (ToFile.refl t) (fun _ _ _ => ToFile.trans)

theorem retrieve_toFile {f : Fetcher} {uri : Str} {hash : Hash} {target : Path} :
    Rel (Steps (ToFile target)) (f.retrieve uri hash target) := by
  intro env w
  unfold Fetcher.retrieve
  split
  case isFalse =>
    unfold Fetcher.retrieveNowhere
    refine bind_lift_in (fun src hs => ?_) env w
    have h1 : Rel (Steps (ToFile target)) (src.fetch (some hash) none none) :=
      Rel.quiet fetch_same
    have h2 : Rel (Steps (ToFile target)) (createPathForFile target) :=
      Does.mono (createPathForFile_mkdirs target) (fun f f' h => ⟨fun q _ => h.leaf q, Or.inl (h.leaf _)⟩)
    rel_auto
  unfold Fetcher.retrieveTo
  have hd : Rel (Steps (ToFile target)) (M.lift (f.resolve uri) >>= fun src =>
      src.fetch (some hash) none (some target) >>= fun _ => (pure () : M Unit)) := by
    refine Rel.bind (fun env w => ?_) (fun src => Rel.bind (fun env w => ?_) (fun _ => Rel.pure _))
    · cases f.resolve uri with
      | error e => exact Steps.refl
      | ok a => exact Steps.refl
    · refine Steps.mono ?_ fetch_saving
      rintro f f' ⟨h1, h2⟩
      refine ⟨h1, h2.imp id ?_⟩
      rintro ⟨b, e, k, τ, _, _, h3⟩
      exact ⟨_, _, h3⟩
  have h1 : Rel (Steps (ToFile target)) (M.attempt (readFile target)) := by
    refine Rel.attempt (fun env w => ?_)
    rw [readFile_world]
    exact Steps.same rfl rfl
  refine Rel.bind h1 (fun r => ?_) env w
  cases r with
  | error e => exact hd
  | ok b =>
    dsimp only
    split
    · exact hd
    · exact Rel.pure _

theorem ToFile.noLinks {t d : Path} {f f' : FS} (h : ToFile t f f') (hn : NoLinks f d) :
    NoLinks f' d := by
  intro q hq
  by_cases hqt : q = t
  · subst hqt
    rcases h.2 with h1 | ⟨b, τ, h1⟩
    · rw [FS.link?_of_leaf h1]; exact hn q hq
    · unfold FS.link?
      unfold FS.leaf at h1
      split at h1
      · cases h1
      · rw [h1]
  · rw [FS.link?_of_leaf (h.1 q hqt)]; exact hn q hq

theorem retrieve_staged {f : Fetcher} {uri : Str} {hash : Hash} {target : Path} {env : Env}
    {w w' : World} (h0 : No304 env) (hl : w.cur.link? target = none)
    (h : f.retrieve uri hash target env w = (.ok (), w')) :
    FileHas w'.cur target hash ∧ ToFile target w.cur w'.cur := by
  have ht : ToFile target w.cur w'.cur := by
    have := (retrieve_toFile (f := f) (uri := uri) (hash := hash) (target := target) env w).toFile
    rw [h] at this; exact this
  refine ⟨?_, ht⟩
  obtain ⟨b, h1, h2⟩ := retrieve_ok h0 h
  rcases h2 with ⟨h2, h3⟩ | ⟨h2, _⟩
  · refine ⟨b, ?_, h1⟩
    rw [h3.1]
    exact FS.file_of_read h2 hl
  · exact ⟨b, h2, h1⟩

/-- What is known while the files are being staged. -/
structure StagingInv (c : Config) (done : List (Str × Hash)) (f : FS) : Prop where
  links : NoLinks f c.stagingDir
  have_ : ∀ r ∈ done, FileHas f (c.stagingDir ++ comps r.1) r.2

theorem StagingInv.retrieve {c : Config} {done : List (Str × Hash)} {fet : Fetcher} {uri : Str}
    {hash : Hash} {rel : Str} {env : Env} {w w' : World} (h0 : No304 env) (hr : CleanRel rel)
    (hI : StagingInv c done w.cur)
    (hsame : ∀ r ∈ done, comps r.1 = comps rel → r.2 = hash)
    (h : fet.retrieve uri hash (c.stagingPath rel) env w = (.ok (), w')) :
    StagingInv c ((rel, hash) :: done) w'.cur := by
  have hp : c.stagingPath rel = c.stagingDir ++ comps rel := joinPath_clean hr
  rw [hp] at h
  obtain ⟨h1, h2⟩ := retrieve_staged h0 (hI.links _ (List.prefix_append _ _)) h
  refine ⟨h2.noLinks hI.links, fun r hr' => ?_⟩
  rcases List.mem_cons.1 hr' with rfl | hr'
  · exact h1
  · by_cases hc : comps r.1 = comps rel
    · rw [hc, hsame r hr' hc]; exact h1
    · exact (hI.have_ r hr').of_leaf (h2.1 _ (fun h => hc (List.append_cancel_left h)))

theorem deltasStage_staged {c : Config} {s : RrdpState} {reset : Bool} {fet : Fetcher}
    {env : Env} (h0 : No304 env) {ds : List DeltaInfo} :
    ∀ {done : List (Str × Hash)} {l : List DeltaState} {w w' : World},
    (∀ d ∈ ds, ∀ rel, d.uri = s.mappings.baseUri ++ rel → CleanRel rel) →
    (∀ d ∈ ds, ∀ rel, d.uri = s.mappings.baseUri ++ rel → ∀ r ∈ done, comps r.1 = comps rel →
      r.2 = d.hash) →
    (∀ d ∈ ds, ∀ d' ∈ ds, ∀ rel rel', d.uri = s.mappings.baseUri ++ rel →
      d'.uri = s.mappings.baseUri ++ rel' → comps rel = comps rel' → d.hash = d'.hash) →
    StagingInv c done w.cur →
    s.deltasStage reset fet c ds env w = (.ok l, w') →
    StagingInv c (done ++ l.map (fun d => (d.relPath, d.hash))) w'.cur := by
  induction ds with
  | nil =>
    intro done l w w' _ _ _ hI h
    rw [deltasStage_nil, M.pure_ok] at h
    obtain ⟨rfl, rfl⟩ := h
    simpa using hI
  | cons d ds ih =>
    intro done l w w' hc hd hdd hI h
    rcases deltasStage_cons_ok h with ⟨h1, h2⟩ | ⟨h1, rel, t, w1, w2, rest, h2, rfl, h3, h4, h5⟩
    · exact ih (fun d hd => hc d (by simp [hd])) (fun d hd' => hd d (by simp [hd']))
        (fun a ha b hb => hdd a (by simp [ha]) b (by simp [hb])) hI h2
    · have hI1 := hI.retrieve h0 (hc d (by simp) rel h2) (hd d (by simp) rel h2) h3
      rw [← h4.cur] at hI1
      have hI2 := ih (done := (rel, d.hash) :: done) (fun d hd => hc d (by simp [hd])) (by
        intro d' hd' rel' hrel' r hr hcomp
        rcases List.mem_cons.1 hr with rfl | hr
        · exact hdd d (by simp) d' (by simp [hd']) rel rel' h2 hrel' hcomp
        · exact hd d' (by simp [hd']) rel' hrel' r hr hcomp)
        (fun a ha b hb => hdd a (by simp [ha]) b (by simp [hb])) hI1 h5
      refine ⟨hI2.links, fun r hr => hI2.have_ r ?_⟩
      simp only [List.map_cons, List.mem_append, List.mem_cons] at hr ⊢
      rcases hr with hr | rfl | hr
      · exact Or.inl (Or.inr hr)
      · exact Or.inl (Or.inl rfl)
      · exact Or.inr hr

/-- The staged files with their hashes. -/
def StagedChanges.refs (st : StagedChanges) : List (Str × Hash) :=
  (st.snapshot.relPath, st.snapshot.hash) :: st.deltas.map (fun d => (d.relPath, d.hash))

theorem StagedChanges.refs_rels (st : StagedChanges) : st.refs.map (·.1) = st.rels := by
  unfold StagedChanges.refs StagedChanges.rels
  rw [List.map_cons, List.map_map]
  rfl

theorem stage_staged {c : Config} {base name : Str} {s : RrdpState} {n : Notif} {etag : Option Str}
    {reset : Bool} {env : Env} {w w' : World} {st : StagedChanges} (h0 : No304 env)
    (hu : NotifUri c base name)
    (hs : Sane c base name s) (hg : GoodNotif base name n) (ho : OneHashPerPath base n)
    (hl : NoLinks w.cur c.stagingDir)
    (h : s.stage c n etag reset env w = (.ok (some st), w')) :
    NoLinks w'.cur c.stagingDir ∧
    ∀ r ∈ st.refs,
      FileHas w'.cur (c.stagingDir ++ comps r.1) r.2 := by
  obtain ⟨st', w1, w2, h1, h2, h3, h4, h5, h6, h7⟩ := stage_ok h
  cases h1
  have hb : s.mappings.baseUri = base := by rw [hs.mappings]
  have hl1 : NoLinks w1.cur c.stagingDir := by
    have := (Steps.mono (fun f f' (h : Writing _ _ f f') => (⟨h.1, h.2.imp id (fun ⟨k, t, h⟩ => ⟨_, t, h⟩)⟩ : ToFile _ f f'))
      (writeBuf_writing (c.stagingPath s.source.name) (Ext.writeNotif n) env w)).toFile
    rw [h5] at this
    exact this.noLinks hl
  obtain ⟨rel, t, w3, h8, h9, h10, h11⟩ := snapshotStage_ok h6
  rw [hb] at h8
  have hrel := (hg (n.snapUri, n.snapHash) (by simp [Notif.refs]) rel h8).clean
  have hI0 : StagingInv c [] w1.cur := ⟨hl1, by simp⟩
  have hI1 := hI0.retrieve h0 hrel (by simp) h10
  rw [← h11.cur] at hI1
  have hmem : ∀ d ∈ n.deltas, (d.uri, d.hash) ∈ n.refs := fun d hd => by
    unfold Notif.refs
    exact List.mem_cons_of_mem _ (List.mem_map.2 ⟨d, hd, rfl⟩)
  have hI2 := deltasStage_staged h0 (c := c) (done := [(rel, n.snapHash)]) (s := s)
    (fun d hd rel' hr' => (hg _ (hmem d hd) rel' (hb ▸ hr')).clean)
    (fun d hd rel' hr' r hr hcomp => by
      rw [List.mem_singleton] at hr
      subst hr
      exact ho (n.snapUri, n.snapHash) (by simp [Notif.refs]) _ (hmem d hd) rel rel' h8 (hb ▸ hr') hcomp)
    (fun d hd d' hd' rel rel' hr hr' hcomp =>
      ho _ (hmem d hd) _ (hmem d' hd') rel rel' (hb ▸ hr) (hb ▸ hr') hcomp) hI1 h7
  refine ⟨hI2.links, fun r hr => hI2.have_ r ?_⟩
  unfold StagedChanges.refs at hr
  rw [h9] at hr
  exact hr

theorem OneHashPerPath.limited {base : Str} {max : Option Nat} {n : Notif} {ds : List DeltaInfo}
    (ho : OneHashPerPath base n) (h : sortVerify max n.deltas = .ok ds) :
    OneHashPerPath base { n with deltas := ds } :=
  fun r hr r' hr' => ho r (refs_limited h r hr) r' (refs_limited h r' hr')

/-- After the preparation everything staged has the announced hash. -/
theorem prepare_staged {depth : Nat} {c : Config} {base name : Str} {env : Env} {w w' : World}
    {s : RrdpState} {st : StagedChanges} (hc : RunConds c base name env w.cur) (h0 : No304 env)
    (ho : ∀ etag n, Offers c env w.cur etag n → OneHashPerPath base n)
    (hl : NoLinks w.cur c.stagingDir)
    (h : prepare depth c env w = (.ok (some (s, st)), w')) :
    ∀ r ∈ st.refs, FileHas w'.cur (c.stagingDir ++ comps r.1) r.2 := by
  unfold prepare at h
  obtain ⟨s0, w1, h1, h2⟩ := M.bind_ok.1 h
  obtain ⟨staged, w2, h3, h4⟩ := M.bind_ok.1 h2
  cases staged with
  | none => dsimp only at h4; rw [M.pure_ok] at h4; cases h4.1
  | some st' =>
    dsimp only at h4
    obtain ⟨s', w3, h5, h6⟩ := M.bind_ok.1 h4
    obtain ⟨_, w4, h7, h8⟩ := M.bind_ok.1 h6
    rw [M.pure_ok] at h8
    obtain ⟨h8, rfl⟩ := h8
    cases h8
    have hcur : w1.cur = w.cur := (loadState_ok h1).1.1
    obtain ⟨n, etag, ds, w5, h9, h10, h11, h12, h13, h14⟩ := updateStaged_some h3
    rw [hcur] at h9
    have hsane := (loadState_inUse hc.uri h1).sane hc.state
    have hl5 : NoLinks w5.cur c.stagingDir := by rw [h13.cur, hcur]; exact hl
    obtain ⟨_, h15⟩ := stage_staged h0 hc.uri hsane ((hc.source _ _ h9).limited h10)
      ((ho _ _ h9).limited h10) hl5 h14
    have hw2 : w2.cur.WF := by
      have := (updateStaged_within hc.uri hsane (w := w1) (env := env) (hcur ▸ hc.source)).wf
        (hcur ▸ hc.wf)
      rw [h3] at this; exact this
    have e0 := preValidate_in (E := noFilesEff)
      (fun _ => trivial) depth s0 c env w2
    rw [h5] at e0
    have hw3 := e0.wf hw2
    have e1 := (preValidate_in (E := noFilesEff)
      (fun _ => trivial) depth s0 c env w2).frame hw2
    rw [h5] at e1
    have e2 := (scriptGate_in (c := c) (E := noFilesEff)
      (fun _ _ => trivial) env w3).frame hw3
    rw [h7] at e2
    intro r hr
    exact ((h15 r hr).of_leaf (e1 _ id)).of_leaf (e2 _ id)

/-- After the moves everything staged is published. -/
theorem moveStaged_published {c : Config} {name : Str} (hap : Apart c.rrdpDir c.stagingDir)
    {st : StagedChanges} {env : Env} {w w' : World}
    (g1 : GoodRel name st.snapshot.relPath) (g2 : ∀ d ∈ st.deltas, GoodRel name d.relPath)
    (hst : ∀ r ∈ st.refs, FileHas w.cur (c.stagingDir ++ comps r.1) r.2)
    (h : moveStaged c st env w = (.ok (), w')) :
    ∀ r ∈ st.refs, FileHas w'.cur (c.pubPath r.1) r.2 := by
  rw [moveStaged_eq, ← StagedChanges.refs_rels] at h
  have hc : ∀ r ∈ st.refs, CleanRel r.1 := by
    intro r hr
    unfold StagedChanges.refs at hr
    rcases List.mem_cons.1 hr with rfl | hr
    · exact g1.clean
    · obtain ⟨d, hd, rfl⟩ := List.mem_map.1 hr
      exact (g2 d hd).clean
  exact (moves_ok hap hc (fun r hr => hr) (fun r hr => Or.inl (hst r hr)) h).2.2

end KSync

namespace KSync

variable [Ext]

/-- A run ends during preparation or goes on to publish. -/
theorem run_cases {depth : Nat} {c : Config} {base name : Str} {env : Env} {w : World}
    (h : RunConds c base name env w.cur) :
    (Within (prepEff c) w (process depth c env w).2 ∧
      ∀ s st w1, prepare depth c env w ≠ (.ok (some (s, st)), w1)) ∨
    ∃ s st w1 n, AtPublish depth c base name env w s st w1 n ∧
      process depth c env w = publish c s st env w1 := by
  have hp := prepare_within (depth := depth) h.uri h.state h.source
  rw [process_eq]
  rcases M.bind_cases (prepare depth c) (publishIf c) env w with ⟨e, w1, h3, h4⟩ | ⟨r, w1, h3, h4⟩
  · refine Or.inl ⟨?_, fun s st w2 h5 => ?_⟩
    · rw [h4]; rw [h3] at hp; exact hp
    · rw [h3] at h5; cases h5
  · match r with
    | none =>
      refine Or.inl ⟨?_, fun s st w2 h5 => ?_⟩
      · rw [h4]; rw [h3] at hp; exact hp
      · rw [h3] at h5; cases h5
    | some (s, st) =>
      obtain ⟨n, hn⟩ := atPublish h h3
      exact Or.inr ⟨s, st, w1, n, hn, h4⟩

theorem Within.crash_dirs {E : Eff} {fs : FS} {w' : World} (h : Within E (World.start fs) w') :
    ∀ f ∈ w'.crashPoints, DirFrame E.files E.emptied fs f := by
  have := h.dirs.crash (I := DirFrame E.files E.emptied fs) (fun _ _ => DirFrame.trans) (DirFrame.refl _)
  intro f hf
  rcases List.mem_cons.1 hf with rfl | hf
  · exact this.1
  · rcases this.2 f hf with h' | h'
    · exact absurd h' List.not_mem_nil
    · exact h'

theorem Within.crash_frame {E : Eff} {fs : FS} {w' : World} (h : Within E (World.start fs) w')
    (hw : fs.WF) : ∀ f ∈ w'.crashPoints, f.WF ∧ Frame E.files fs f := by
  intro f hf
  rcases h.frame_all hw f hf with h1 | h1
  · have : f = fs := by simpa [World.crashPoints, World.start] using h1
    subst this
    exact ⟨hw, Frame.refl _⟩
  · exact h1

/-- Facts about a run from facts about its two halves. -/
theorem run_keeps {P : FS → Prop} {depth : Nat} {c : Config} {base name : Str} {env : Env}
    {w : World} (h : RunConds c base name env w.cur)
    (h1 : ∀ f f', P f → Change (prepEff c).files f f' → P f')
    (h2 : ∀ s st w1 n, AtPublish depth c base name env w s st w1 n →
      Keeps P w1 (publish c s st env w1).2) :
    Keeps P w (process depth c env w).2 := by
  refine process_tr (T := Keeps P) (Keeps.of_within (prepare_within h.uri h.state h.source) h1) ?_
  intro s st w1 e
  obtain ⟨n, hn⟩ := atPublish h e
  exact h2 s st w1 n hn

theorem AtPublish.offered {depth : Nat} {c : Config} {base name : Str} {env : Env} {w w1 : World}
    {s : RrdpState} {st : StagedChanges} {n : Notif}
    (h : AtPublish depth c base name env w s st w1 n) :
    ∃ etag n0, Offers c env w.cur etag n0 ∧ Limited c n0 n := by
  obtain ⟨s0, _, _, n0, h1, ds, h2, rfl⟩ := h.prepared.before
  exact ⟨_, n0, h1, ds, sortVerify_limit h2, rfl⟩

/-- The version in the new notification is the source's. -/
theorem newNotif_version {c : Config} {base name : Str} {s : RrdpState} {st : StagedChanges}
    {n : Notif} (hu : NotifUri c base name) (hs : Sane c base name s) (h : StagedAs base s n st) :
    (newNotif s st).session = n.session ∧ (newNotif s st).serial = n.serial ∧
    (newNotif s st).snapUri = n.snapUri ∧ (newNotif s st).snapHash = n.snapHash := by
  refine ⟨h.snapSession, h.snapSerial, ?_, h.snapHash⟩
  rw [h.snapUri]
  exact hs.uriOf hu _

/-- What is recorded is unique. -/
theorem Recorded.unique {c : Config} {fs : FS} {s s' : RrdpState} (h : Recorded c fs s)
    (h' : Recorded c fs s') : s = s' := by
  obtain ⟨b, h1, h2⟩ := h
  obtain ⟨b', h3, h4⟩ := h'
  rw [h1] at h3; cases h3
  rw [h2] at h4; cases h4; rfl

theorem sameVersion_newNotif {depth : Nat} {c : Config} {base name : Str} {env : Env}
    {w w1 : World} {s : RrdpState} {st : StagedChanges} {n : Notif}
    (hu : NotifUri c base name) (h : AtPublish depth c base name env w s st w1 n) :
    ∃ etag n0, Offers c env w.cur etag n0 ∧ SameVersion n0 (newNotif s st) := by
  obtain ⟨etag, n0, h1, ds, h2, rfl⟩ := h.offered
  obtain ⟨h3, h4, h5, h6⟩ := newNotif_version hu h.sane h.staged
  exact ⟨etag, n0, h1, h3, h4, h5, h6⟩

end KSync
