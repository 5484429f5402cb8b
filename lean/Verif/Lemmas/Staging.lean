import Verif.Spec.Staging
import Verif.Lemmas.Ledger
import Verif.Lemmas.Unobtained
import Verif.Lemmas.RsyncRun
import Verif.Lemmas.Quiet

/-! # What is in the staging area (C63) -/

set_option linter.unusedSectionVars false
set_option linter.unusedVariables false

namespace KSync

variable [Ext]

/-! ## Directories stay while files are fetched -/

/-- `q` is a directory. -/
def DirAt (q : Path) (f : FS) : Prop := f.get q = some .dir

theorem createPathForFile_dirAt (q p : Path) : Rel (Keeps (DirAt q)) (createPathForFile p) :=
  fun env w => Keeps.of_steps (createPathForFile_mkdirs _ env w) (fun f f' h hm => by
    rcases hm q with h1 | ⟨_, h1, _⟩
    · exact h1.trans h
    · rw [show f.get q = some .dir from h] at h1; cases h1)

theorem writeBuf_dirAt (q p : Path) (b : Bytes) : Rel (Keeps (DirAt q)) (writeBuf p b) := by
  by_cases he : q = p
  · subst he
    intro env w
    unfold writeBuf createFile
    refine Tr.bindAt (T := Keeps (DirAt q)) ?_ (fun _ w1 h1 => ?_)
    · refine Tr.bindAt (T := Keeps (DirAt q)) (Keeps.of_steps (createPathForFile_mkdirs _ env w) ?_)
        (fun _ w1 _ => ?_)
      · intro f f' h hm
        rcases hm q with h1 | ⟨_, h1, _⟩
        · exact h1.trans h
        · rw [show f.get q = some .dir from h] at h1; cases h1
      · have : Does (fun f f' : FS => DirAt q f → DirAt q f') (fileCreate q) := by
          unfold fileCreate
          refine io_getFs_does (fun n env w => ?_)
          by_cases h : q = [] ∨ w.cur.get q.dropLast ≠ some .dir
          · rw [if_pos h]; exact Steps.refl
          · rw [if_neg h]
            split
            · exact Steps.refl
            · exact Steps.refl
            · rename_i hnd _
              exact Steps.of_push (env := env) (fun hd => absurd hd hnd)
        exact Keeps.of_steps (this env w1) (fun f f' h hm => hm h)
    · intro hd
      exfalso
      obtain ⟨_, w2, h2, h3⟩ := M.bind_ok.1 h1
      obtain ⟨h4, _, _, t, h5⟩ := fileCreate_ok h3
      unfold DirAt at hd
      rw [h5, FS.get_set_self _ h4] at hd
      cases hd
  · intro env w
    exact Keeps.of_steps (writeBuf_keepsDirsBut p b env w) (fun f f' h hm => hm q he h)

theorem Rel.keeps_quiet {P : FS → Prop} {m : M α} (h : Rel Same m) : Rel (Keeps P) m :=
  fun env w => Keeps.of_same (h env w)

theorem fetch_dirAt (q : Path) (src : FetchSource) (hash : Option Hash) (etag : Option Str)
    (target : Option Path) : Rel (Keeps (DirAt q)) (src.fetch hash etag target) := by
  unfold FetchSource.fetch
  have h1 : Rel (Keeps (DirAt q)) (src.raw etag) := Rel.keeps_quiet (raw_same src etag)
  have h2 := writeBuf_dirAt q
  rel_auto

theorem retrieve_dirAt (q : Path) (f : Fetcher) (uri : Str) (hash : Hash) (target : Path) :
    Rel (Keeps (DirAt q)) (f.retrieve uri hash target) := by
  unfold Fetcher.retrieve Fetcher.retrieveTo Fetcher.retrieveNowhere
  have h1 := fetch_dirAt q
  have h3 := createPathForFile_dirAt q target
  have h2 : Rel (Keeps (DirAt q)) (readFile target) := Rel.keeps_quiet (readFile_same target)
  rel_auto

theorem deltasStage_dirAt (q : Path) (s : RrdpState) (reset : Bool) (f : Fetcher) (c : Config)
    (ds : List DeltaInfo) : Rel (Keeps (DirAt q)) (s.deltasStage reset f c ds) := by
  induction ds with
  | nil => exact Rel.pure _
  | cons x ds ih =>
    unfold RrdpState.deltasStage
    have h1 := retrieve_dirAt q f x.uri x.hash
    have h2 : Rel (Keeps (DirAt q)) now := Rel.keeps_quiet now_same
    rel_auto

theorem stage_dirAt (q : Path) (s : RrdpState) (c : Config) (n : Notif) (etag : Option Str)
    (reset : Bool) : Rel (Keeps (DirAt q)) (s.stage c n etag reset) := by
  unfold RrdpState.stage RrdpState.snapshotStage
  have h1 := retrieve_dirAt q c.fetcher n.snapUri n.snapHash
  have h2 : Rel (Keeps (DirAt q)) now := Rel.keeps_quiet now_same
  have h3 := writeBuf_dirAt q
  have h4 := deltasStage_dirAt q s reset c.fetcher c n.deltas
  rel_auto

theorem updateStaged_dirAt (q : Path) (s : RrdpState) (c : Config) :
    Rel (Keeps (DirAt q)) (s.updateStaged c) := by
  unfold RrdpState.updateStaged
  have h1 : Rel (Keeps (DirAt q)) (c.fetcher.readNotification s.source.etag) :=
    Rel.keeps_quiet (readNotification_same _ _)
  have h2 := stage_dirAt q s c
  rel_auto
  dsimp only
  rel_auto

theorem prepare_dirAt (q : Path) (depth : Nat) (c : Config) :
    Rel (Keeps (DirAt q)) (prepare depth c) := by
  unfold prepare
  have quiet : ∀ {α : Type} {m : M α}, Rel (Within noFilesEff) m → Rel (Keeps (DirAt q)) m :=
    fun h env w => Keeps.of_steps (h env w).dirs
      (fun f f' hp h1 => (h1.1 q (fun p hp => hp.elim)).2 hp)
  have h1 := quiet (loadState_in (E := noFilesEff) c)
  have h2 := fun s => updateStaged_dirAt q s c
  have h3 := fun s => quiet (preValidate_in (E := noFilesEff) (fun _ => trivial) depth s c)
  have h4 := quiet (scriptGate_in (c := c) (E := noFilesEff) (fun _ _ => trivial))
  rel_auto

/-! ## What is written while files are fetched -/

/-- What a run may do until it publishes. -/
def stageEff (c : Config) (base name : Str) (env : Env) (fs : FS) : Eff :=
  ⟨fun q => q = c.stagingDir ++ [name] ∨ StagedFor c base env fs q, fun _ => True, fun _ => True,
    fun _ => False, fun _ => False, fun _ => False⟩

theorem prepare_stageEff {depth : Nat} {c : Config} {base name : Str} {env : Env} {w : World}
    (hc : RunConds c base name env w.cur) :
    Within (stageEff c base name env w.cur) w (prepare depth c env w).2 := by
  have ask : ∀ etag, (askNotif c etag).Le (stageEff c base name env w.cur) := fun etag =>
    ⟨fun _ h => h.elim, fun _ _ => trivial, fun _ h => h.elim, fun _ h => h.elim, fun _ h => h.elim,
      fun _ h => h.elim⟩
  unfold prepare
  refine Within.bindAt (loadState_in c env w) (fun s w1 h1 => ?_)
  have hcur : w1.cur = w.cur := (loadState_ok h1).1.1
  have hs := (loadState_inUse hc.uri h1).sane hc.state
  refine Within.bindAt ?_ (fun st w2 h2 => ?_)
  · rcases updateStaged_cases s c env w1 with ⟨e, w2, h1, h2, h3⟩ | ⟨w2, h1, h2, h3, _⟩ |
      ⟨n, etag, ds, reset, w2, h1, h2, h3, h4, h5, h6⟩
    · rw [h1]; exact h3.mono (ask _)
    · rw [h1]; exact h3.mono (ask _)
    · rw [h6]
      refine Tr.trans (h5.mono (ask _)) (stage_in ?_ env w2)
      rw [hcur] at h1
      have hg := (hc.source _ _ h1).limited h2
      have hlim : Limited c n { n with deltas := ds } := ⟨ds, sortVerify_limit h2, rfl⟩
      have key : ∀ r ∈ ({ n with deltas := ds } : Notif).refs, r ∈ n.refs →
          ∀ rel, s.mappings.relative r.1 = .ok rel →
          (stageEff c base name env w.cur).files (c.stagingPath rel) := by
        intro r hr hr' rel h
        rw [relative_ok, hs.mappings] at h
        refine Or.inr ⟨_, n, h1, r, hr', rel, h, ?_⟩
        exact joinPath_clean (hg r hr rel h).clean
      refine ⟨?_, fun _ _ => trivial, ?_, fun _ _ _ _ => trivial, ?_⟩
      · left
        show joinPath c.stagingDir s.source.name = _
        rw [hs.fileName, hc.uri.joinName]
      · exact key (n.snapUri, n.snapHash) (List.mem_cons_self ..) (List.mem_cons_self ..)
      · intro d hd
        exact key (d.uri, d.hash) (List.mem_cons_of_mem _ (List.mem_map.2 ⟨d, hd, rfl⟩))
          (List.mem_cons_of_mem _ (List.mem_map.2 ⟨d, hlim.mem hd, rfl⟩))
  · cases st with
    | none => exact Tr.refl _
    | some st =>
      dsimp only
      refine Within.bindAt (preValidate_in (fun _ => trivial) depth s c env w2) (fun s' w3 h3 => ?_)
      exact Within.bindAt (scriptGate_in (fun p hp => trivial) env w3) (fun _ w4 _ => Tr.refl _)

/-- Staging deltas writes what is in the list handed over. -/
theorem deltasStage_leaf {s : RrdpState} {reset : Bool} {f : Fetcher} {c : Config} {env : Env}
    {ds : List DeltaInfo} {l : List DeltaState} {w w' : World}
    (h : s.deltasStage reset f c ds env w = (.ok l, w')) {q : Path}
    (hq : ∀ d ∈ l, q ≠ c.stagingPath d.relPath) : w'.cur.leaf q = w.cur.leaf q := by
  induction ds generalizing w l with
  | nil =>
    rw [deltasStage_nil] at h
    rw [(M.pure_ok.1 h).2]
  | cons d ds ih =>
    rcases deltasStage_cons_ok h with ⟨_, h2⟩ | ⟨_, rel, t, w1, w2, rest, h2, rfl, h3, h4, h5⟩
    · exact ih h2 hq
    · rw [ih h5 (fun d hd => hq d (List.mem_cons_of_mem _ hd)), h4.cur,
        retrieve_leaf h3 (hq _ (List.mem_cons_self ..))]

/-- What is written on the way to a publication is published, but for the notification. -/
theorem prepare_leaf {depth : Nat} {c : Config} {base name : Str} {env : Env} {w w' : World}
    {s : RrdpState} {st : StagedChanges} (hc : RunConds c base name env w.cur)
    (h : prepare depth c env w = (.ok (some (s, st)), w')) {q : Path}
    (hn : q ≠ c.stagingDir ++ [name]) (hq : ∀ r ∈ st.rels, q ≠ c.stagingPath r) :
    w'.cur.leaf q = w.cur.leaf q := by
  obtain ⟨s0, w1, w2, w3, h1, h2, h3, h4⟩ := prepare_parts h
  have hs := (loadState_inUse hc.uri h1).sane hc.state
  obtain ⟨n, etag, ds, w5, h9, h10, h11, h12, h13, h14⟩ := updateStaged_some h2
  obtain ⟨st2, w6, w7, h15, _, _, _, h16, h17, h18⟩ := stage_ok h14
  cases h15
  obtain ⟨rel, t, w8, h19, h20, h21, h22⟩ := snapshotStage_ok h17
  have e3 := preValidate_same depth s0 c env w2
  rw [h3] at e3
  have e4 := scriptGate_same c env w3
  rw [h4] at e4
  have hw := (writeBuf_writing (c.stagingPath s0.source.name) (Ext.writeNotif { n with deltas := ds }) env w5)
  rw [h16] at hw
  have q6 : w6.cur.leaf q = w5.cur.leaf q :=
    (hw.mono (fun _ _ h => h.1)).ends (R := Frame _) (Frame.refl) (fun _ _ _ => Frame.trans) q (by
      show q ≠ joinPath c.stagingDir s0.source.name
      rw [hs.fileName, hc.uri.joinName]; exact hn)
  rw [e4.cur, e3.cur, deltasStage_leaf h18 (fun d hd => hq _ (List.mem_cons_of_mem _ (List.mem_map_of_mem hd))),
    h22.cur, retrieve_leaf h21 (hq rel (by rw [StagedChanges.rels, h20]; exact List.mem_cons_self ..)), q6,
    h13.cur, (loadState_ok h1).1.cur]

/-! ## Moving -/

/-- What moving can do to the staging area: `f0` is the file system before. -/
def Unloading (c : Config) (rels : List Str) (f0 f : FS) : Prop :=
  ∀ q, c.stagingDir <+: q →
    f.get q = f0.get q ∨ (f.get q = none ∧ ∃ r ∈ rels, q = c.stagingDir ++ comps r)

theorem Unloading.onlyAway {c : Config} {rels : List Str} {f0 f f' : FS} (h : Unloading c rels f0 f)
    (hm : ∀ q, c.stagingDir <+: q → f'.get q = f.get q) : Unloading c rels f0 f' := by
  intro q hq
  rw [hm q hq]
  exact h q hq

theorem Unloading.del {c : Config} {rels : List Str} {f0 f : FS} (h : Unloading c rels f0 f) {r : Str}
    (hr : r ∈ rels) : Unloading c rels f0 (f.del (c.stagingDir ++ comps r)) := by
  intro q hq
  by_cases he : q = c.stagingDir ++ comps r
  · by_cases h0 : q = []
    · left; subst h0; unfold FS.get; simp
    · right
      rw [← he]
      exact ⟨FS.get_del_self _ h0, r, hr, he⟩
  · rw [FS.get_del_ne _ he]
    exact h q hq

theorem moveFile_unloading {c : Config} (hap : Apart c.rrdpDir c.stagingDir) {f0 : FS}
    {rels : List Str} (hc : ∀ r ∈ rels, CleanRel r)
    (h0 : ∀ r ∈ rels, f0.get (c.stagingDir ++ comps r) ≠ some .dir) {r : Str} (hr : r ∈ rels) :
    Rel (Keeps (Unloading c rels f0)) (moveFile c.stagingDir c.rrdpDir r) := by
  have hcl := hc r hr
  have hne : ∀ q, c.stagingDir <+: q → q ≠ c.rrdpDir ++ comps r := by
    rintro q hq rfl
    exact hap.not_both (List.prefix_append _ _) hq
  have hno : ∀ f, Unloading c rels f0 f → f.get (c.stagingDir ++ comps r) ≠ some .dir := by
    intro f h
    rcases h _ (List.prefix_append _ _) with h | ⟨h, _⟩
    · rw [h]; exact h0 r hr
    · rw [h]; simp
  rw [moveFile_eq, joinPath_clean hcl, joinPath_clean hcl]
  have h1 : Rel (Keeps (Unloading c rels f0)) (createPathForFile (c.rrdpDir ++ comps r)) :=
    fun env w => Keeps.of_steps (createPathForFile_mkdirs _ env w) (fun f f' h hm =>
      h.onlyAway (fun q hq => by
        rcases hm q with h2 | ⟨h2, _⟩
        · exact h2
        · exact (hap.not_both (List.prefix_append _ _)
            (hq.trans (h2.trans (List.dropLast_prefix _)))).elim))
  have h3 : Rel (Keeps (Unloading c rels f0))
      (copyFile (c.stagingDir ++ comps r) (c.rrdpDir ++ comps r)) :=
    fun env w => Keeps.of_steps (copyFile_only _ _ env w) (fun f f' h hm =>
      h.onlyAway (fun q hq => hm q (hne q hq)))
  have h4 : Rel (Keeps (Unloading c rels f0)) (removeFile (c.stagingDir ++ comps r)) := by
    intro env w
    refine Keeps.of_steps (R := fun f f' => f' = f.del (c.stagingDir ++ comps r)) ?_
      (fun f f' h hm => hm ▸ h.del hr)
    have : Does (fun f f' => f' = f.del (c.stagingDir ++ comps r))
        (removeFile (c.stagingDir ++ comps r)) := by
      unfold removeFile
      refine io_getFs_does (fun n env w => ?_)
      split
      · exact Steps.of_push (env := env) rfl
      · exact Steps.of_push (env := env) rfl
      · exact Steps.refl
    exact this env w
  have h2 : Rel (Keeps (Unloading c rels f0))
      (rename (c.stagingDir ++ comps r) (c.rrdpDir ++ comps r)) := by
    intro env w hP
    have hend := rename_end (c.stagingDir ++ comps r) (c.rrdpDir ++ comps r) env w
    match hr' : rename (c.stagingDir ++ comps r) (c.rrdpDir ++ comps r) env w with
    | (res, w2) =>
    rw [hr'] at hend
    cases hend with
    | failed e => exact ⟨hP, fun f hf => Or.inl hf⟩
    | noop => exact ⟨hP, fun f hf => Or.inl hf⟩
    | movedDir g1 g2 g3 g4 g5 g6 g7 => exact (hno _ hP g4).elim
    | movedFile n g1 g2 g3 g4 g5 g6 g7 =>
      refine ⟨?_, fun f hf => ?_⟩
      · exact (hP.del hr).onlyAway (fun q hq => FS.get_set_ne _ _ (hne q hq))
      · rcases List.mem_cons.1 hf with rfl | hf
        · exact Or.inr hP
        · exact Or.inl hf
  unfold moveTail
  rel_auto

theorem moveStaged_unloading {c : Config} {name : Str} {st : StagedChanges}
    (hap : Apart c.rrdpDir c.stagingDir) (h1 : GoodRel name st.snapshot.relPath)
    (h2 : ∀ d ∈ st.deltas, GoodRel name d.relPath) {f0 : FS}
    (h0 : ∀ r ∈ st.rels, f0.get (c.stagingDir ++ comps r) ≠ some .dir) :
    Rel (Keeps (Unloading c st.rels f0)) (moveStaged c st) := by
  rw [moveStaged_eq]
  refine Rel.forEach (fun r hr => moveFile_unloading hap ?_ h0 hr)
  intro rel hrel
  unfold StagedChanges.rels at hrel
  rcases List.mem_cons.1 hrel with rfl | h
  · exact h1.clean
  · obtain ⟨d, hd, rfl⟩ := List.mem_map.1 h
    exact (h2 d hd).clean

/-- What was moved is no longer in the staging area. -/
theorem moves_gone {c : Config} (hap : Apart c.rrdpDir c.stagingDir) {refs l : List (Str × Hash)}
    (hc : ∀ r ∈ refs, CleanRel r.1) {env : Env} : ∀ {w w' : World}, (∀ r ∈ l, r ∈ refs) →
    (∀ r ∈ refs, StagedOrMoved c w.cur r.1 r.2) →
    M.forEach (l.map (·.1)) (moveFile c.stagingDir c.rrdpDir) env w = (.ok (), w') →
    ∀ r ∈ l, w'.cur.get (c.stagingDir ++ comps r.1) = none := by
  induction l with
  | nil => intro w w' _ _ _ r hr; cases hr
  | cons a l ih =>
    intro w w' hl hI h
    rw [List.map_cons, forEach_cons_ok] at h
    obtain ⟨w1, h1, h2⟩ := h
    have ha := hl a (List.mem_cons_self ..)
    obtain ⟨k1, k2⟩ := moveFile_keeps hap (hc a ha) (hI a ha) h1
    have hl' : ∀ r ∈ l, r ∈ refs := fun r hr => hl r (List.mem_cons_of_mem _ hr)
    have hI' : ∀ r ∈ refs, StagedOrMoved c w1.cur r.1 r.2 :=
      fun r hr => (k2 r.1 r.2 (hc r hr)).1 (hI r hr)
    intro r hr
    rcases List.mem_cons.1 hr with rfl | hr
    · exact ((moves_ok hap hc hl' hI' h2).2.1 _ ha k1).1
    · exact ih hl' hI' h2 r hr

/-- Both kinds of entries together. -/
theorem get_of_leaf_dir {f f' : FS} {q : Path} (h1 : f'.leaf q = f.leaf q)
    (h2 : f'.get q = some .dir ↔ f.get q = some .dir) : f'.get q = f.get q := by
  unfold FS.leaf at h1
  match hg : f.get q, hg' : f'.get q with
  | some .dir, _ => rw [hg] at h2; rw [← hg']; exact h2.2 rfl
  | _, some .dir => rw [hg'] at h2; rw [← hg]; exact (h2.1 rfl).symm
  | none, none => rfl
  | none, some (.file b t) => rw [hg, hg'] at h1; cases h1
  | none, some (.link t) => rw [hg, hg'] at h1; cases h1
  | some (.file b t), none => rw [hg, hg'] at h1; cases h1
  | some (.link t), none => rw [hg, hg'] at h1; cases h1
  | some (.file b t), some (.file b' t') => rw [hg, hg'] at h1; exact h1
  | some (.file b t), some (.link t') => rw [hg, hg'] at h1; exact h1
  | some (.link t), some (.file b' t') => rw [hg, hg'] at h1; exact h1
  | some (.link t), some (.link t') => rw [hg, hg'] at h1; exact h1

/-- Effects outside the staging area. -/
def Eff.Away (E : Eff) (c : Config) : Prop := ∀ q, c.stagingDir <+: q → ¬ E.files q

theorem Eff.Away.get {E : Eff} {c : Config} (h : E.Away c) {f f' : FS} (hw : f.WF)
    (h1 : Change E.files f f') (h2 : DirFrame E.files E.emptied f f') {q : Path}
    (hq : c.stagingDir <+: q) : f'.get q = f.get q :=
  get_of_leaf_dir ((h1 hw).2 q (h q hq)) (h2.1 q (fun p hp hqp => h p (hq.trans hqp) hp))

theorem Eff.Away.keeps {E : Eff} {c : Config} (h : E.Away c) {rels : List Str} {f0 : FS} {w w' : World}
    (hw : Within E w w') : Keeps (fun f => f.WF ∧ Unloading c rels f0 f) w w' := by
  refine Keeps.of_steps (hw.steps.and hw.dirs) ?_
  rintro f f' ⟨h1, h2⟩ ⟨h3, h4⟩
  exact ⟨(h3 h1).1, h2.onlyAway (fun q hq => h.get h1 h3 h4 hq)⟩

theorem Eff.Away.ends {E : Eff} {c : Config} (h : E.Away c) {w w' : World} (hf : w.cur.WF)
    (hw : Within E w w') : w'.cur.WF ∧ ∀ q, c.stagingDir <+: q → w'.cur.get q = w.cur.get q := by
  obtain ⟨h1, _⟩ := h.keeps (rels := []) (f0 := w.cur) hw ⟨hf, fun q _ => Or.inl rfl⟩
  refine ⟨h1.1, fun q hq => ?_⟩
  rcases h1.2 q hq with h2 | ⟨_, r, hr, _⟩
  · exact h2
  · cases hr

/-- What the cleanup may do. -/
def cleanEff (c : Config) (name : Str) : Eff :=
  ⟨fun q => DataPath c name q, fun _ => False, fun _ => False, fun _ => False, fun _ => False,
    fun q => q <+: c.rrdpDir ∨ c.rrdpDir <+: q⟩

theorem clean_cleanEff {c : Config} {base name : Str} {s : RrdpState} (hs : Sane c base name s) :
    RelWF (cleanEff c name) (s.clean c) := by
  refine clean_in (fun d hd => ?_) (fun d hd q hq => ?_)
  · obtain ⟨rel, hg, hp⟩ := hs.deprecated d hd
    exact hg.dataPath (hp ▸ List.prefix_refl _)
  · obtain ⟨rel, _, hp⟩ := hs.deprecated d hd
    exact List.prefix_or_prefix_of_prefix hq (hp ▸ List.prefix_append _ _)

theorem cleanEff_away {c : Config} {base name : Str} (hl : Layout c base name) :
    (cleanEff c name).Away c := fun q hq hd => hl.rrdpStaging.not_both hd.below hq

theorem rsyncEff_away {c : Config} {base name : Str} (hl : Layout c base name) :
    (rsyncEff c).Away c := by
  rintro q hq ⟨_, hd | rfl⟩
  · exact hl.rsyncStaging.not_both hd hq
  · exact rsyncState_not_staging hq

theorem notifEff_away {c : Config} {base name : Str} (hl : Layout c base name) :
    (notifEff c name).Away c := by
  rintro q hq (hd | hd)
  · exact hl.rrdpStaging.not_both ((List.prefix_append _ _).trans hd) hq
  · exact hl.rrdpStaging.not_both ((List.prefix_append _ _).trans hd) hq

theorem stateEff_away {c : Config} : (Eff.only (· = c.rrdpStatePath)).Away c := by
  rintro q hq rfl
  exact rrdpState_not_staging hq

/-- The staging area at every instant of a publication. -/
theorem publish_unloading {c : Config} {base name : Str} {s : RrdpState} {st : StagedChanges}
    {env : Env} {w : World} (hl : Layout c base name) (hp : PubPre c base name s st) (hw : w.cur.WF)
    (h0 : ∀ r ∈ st.rels, w.cur.get (c.stagingDir ++ comps r) ≠ some .dir) :
    Keeps (fun f => f.WF ∧ Unloading c st.rels w.cur f) w (publish c s st env w).2 := by
  refine publish_by hp hw ?_ ?_ ?_ ?_ ?_ ?_
  · intro h
    have h1 := moveStaged_unloading hl.rrdpStaging hp.goodSnap hp.goodDeltas h0 env w
    have h2 : Keeps (fun f => f.WF) w (moveStaged c st env w).2 :=
      Keeps.of_within h (fun f f' h1 h2 => (h2 h1).1)
    exact h2.and h1
  · intro w1 _ _ h
    exact Eff.Away.keeps (fun _ _ => id) h
  · intro w1 s1 w2 _ _ hw hs _
    exact (cleanEff_away hl).keeps (clean_cleanEff hs env w2 hw)
  · intro _ _ _ _ _ _ _ _ _ _ h
    exact (rsyncEff_away hl).keeps h
  · intro _ _ _ _ _ _ _ _ _ _ _ _ h _
    exact (notifEff_away hl).keeps h
  · intro _ _ _ _ _ _ _ _ _ _ _ _ _ _ _ h _
    exact stateEff_away.keeps h

/-- After a publication what was staged is gone. -/
theorem publish_gone {c : Config} {base name : Str} {s : RrdpState} {st : StagedChanges}
    {env : Env} {w w' : World} (hl : Layout c base name) (hp : PubPre c base name s st) (hw : w.cur.WF)
    (hst : ∀ r ∈ st.refs, FileHas w.cur (c.stagingDir ++ comps r.1) r.2)
    (h : publish c s st env w = (.ok (), w')) :
    ∀ r ∈ st.rels, w'.cur.get (c.stagingDir ++ comps r) = none := by
  obtain ⟨wa, s1, wb, s2, wc, wd, we, e1, e2, e3, e4, e5, e6⟩ := publish_ok h
  have hwa : wa.cur.WF := by
    have := (moveStaged_within (c := c) hp.goodSnap hp.goodDeltas env w).wf hw
    rw [e1] at this; exact this
  have a1 := (absorb_ok e2).1
  have hwb : wb.cur.WF := by rw [a1.cur]; exact hwa
  have hs1 := absorb_sane e2 hp.sane hp.goodSnap hp.goodDeltas
  obtain ⟨hwc, gc⟩ := (cleanEff_away hl).ends hwb (clean_cleanEff hs1 env wb hwb)
  rw [e3] at hwc gc
  have hs2 := clean_sane e3 hs1
  obtain ⟨hwd, gd⟩ := (rsyncEff_away hl).ends hwc (rsyncPart_within (s := s2) hp.objects env wc)
  rw [e4] at hwd gd
  have hn : Within (notifEff c name) wd (s2.writeNotification c.rrdpNotifyDelay env wd).2 :=
    writeNotification_in (fun _ => trivial) (fun q hq => by
      rw [hs2.tmpPath hp.uri] at hq; exact Or.inr hq) (fun q hq => by
      rw [hs2.notifPath hp.uri] at hq; exact Or.inl hq) env wd
  obtain ⟨hwe, ge⟩ := (notifEff_away hl).ends hwd hn
  rw [e5] at hwe ge
  obtain ⟨_, gf⟩ := (stateEff_away (c := c)).ends hwe
    (writeBuf_in (E := Eff.only (· = c.rrdpStatePath)) rfl (Ext.encState s2) env we)
  have e6' : writeBuf c.rrdpStatePath (Ext.encState s2) env we = (.ok (), w') := e6
  rw [e6'] at gf
  rw [moveStaged_eq, ← StagedChanges.refs_rels] at e1
  intro r hr
  have hq : c.stagingDir <+: c.stagingDir ++ comps r := List.prefix_append _ _
  rw [gf _ hq, ge _ hq, gd _ hq, gc _ hq, a1.cur]
  rw [← StagedChanges.refs_rels] at hr
  obtain ⟨x, hx, rfl⟩ := List.mem_map.1 hr
  refine moves_gone hl.rrdpStaging ?_ (fun _ h => h) (fun r hr => Or.inl (hst r hr)) e1 x hx
  intro r hr
  unfold StagedChanges.refs at hr
  rcases List.mem_cons.1 hr with rfl | hr
  · exact hp.goodSnap.clean
  · obtain ⟨d, hd, rfl⟩ := List.mem_map.1 hr
    exact (hp.goodDeltas d hd).clean

/-! ## Runs -/

theorem StagedChanges.ref_of_rel {st : StagedChanges} {r : Str} (hr : r ∈ st.rels) :
    ∃ x, (r, x) ∈ st.refs := by
  unfold StagedChanges.rels at hr
  rcases List.mem_cons.1 hr with rfl | hr
  · exact ⟨_, List.mem_cons_self ..⟩
  · obtain ⟨d, hd, rfl⟩ := List.mem_map.1 hr
    exact ⟨_, List.mem_cons_of_mem _ (List.mem_map.2 ⟨d, hd, rfl⟩)⟩

theorem FileHas.not_dir {f : FS} {q : Path} {x : Hash} (h : FileHas f q x) : f.get q ≠ some .dir := by
  obtain ⟨b, h1, _⟩ := h
  intro hd
  unfold FS.file? at h1
  rw [hd] at h1
  cases h1

theorem AtPublish.stagedFor {depth : Nat} {c : Config} {base name : Str} {env : Env}
    {w w1 : World} {s : RrdpState} {st : StagedChanges} {n : Notif}
    (h : AtPublish depth c base name env w s st w1 n) {r : Str} (hr : r ∈ st.rels) :
    StagedFor c base env w.cur (c.stagingDir ++ comps r) := by
  obtain ⟨s0, n0, _, _, h3, h4, _⟩ := h.origin
  refine ⟨_, n0, h3, ?_⟩
  unfold StagedChanges.rels at hr
  rcases List.mem_cons.1 hr with rfl | hr
  · refine ⟨(n0.snapUri, n0.snapHash), List.mem_cons_self .., st.snapshot.relPath, ?_, rfl⟩
    obtain ⟨ds, _, h5⟩ := h4
    have := h.staged.snapUri
    rw [h5] at this
    exact this
  · obtain ⟨d, hd, rfl⟩ := List.mem_map.1 hr
    have : (⟨d.serial, base ++ d.relPath, d.hash⟩ : DeltaInfo) ∈ n.deltas := by
      have := List.mem_map_of_mem (f := fun d : DeltaState =>
        (⟨d.serial, base ++ d.relPath, d.hash⟩ : DeltaInfo)) hd
      rw [h.staged.deltas] at this
      exact (List.mem_filter.1 this).1
    exact ⟨_, List.mem_cons_of_mem _ (List.mem_map.2 ⟨_, h4.mem this, rfl⟩), d.relPath, rfl, rfl⟩

/-- The staging area at every instant of a run. -/
theorem run_staging {depth : Nat} {c : Config} {base name : Str} {env : Env} {fs f : FS}
    (hl : Layout c base name) (hc : RunConds c base name env fs)
    (hs : SoundSource c base name env fs) (hn : NoLinks fs c.stagingDir)
    (hf : f ∈ (process depth c env (World.start fs)).2.crashPoints) {q : Path}
    (hq : c.stagingDir <+: q) :
    (fs.get q = some .dir → f.get q = some .dir) ∧
    (q ≠ c.stagingDir ++ [name] → ¬ StagedFor c base env fs q → f.leaf q = fs.leaf q) := by
  have p1 := prepare_dirAt q depth c env (World.start fs)
  have p2 := (prepare_stageEff (depth := depth) (w := World.start fs) hc).steps
  have pk : Keeps (fun f => f.WF ∧ (fs.get q = some .dir → f.get q = some .dir) ∧
      (q ≠ c.stagingDir ++ [name] → ¬ StagedFor c base env fs q → f.leaf q = fs.leaf q))
      (World.start fs) (process depth c env (World.start fs)).2 := by
    have key : Keeps (fun f => f.WF ∧ (fs.get q = some .dir → f.get q = some .dir) ∧
        (q ≠ c.stagingDir ++ [name] → ¬ StagedFor c base env fs q → f.leaf q = fs.leaf q))
        (World.start fs) (prepare depth c env (World.start fs)).2 := by
      have k1 : Keeps (fun f => f.WF ∧
        (q ≠ c.stagingDir ++ [name] → ¬ StagedFor c base env fs q → f.leaf q = fs.leaf q))
        (World.start fs) (prepare depth c env (World.start fs)).2 :=
        Keeps.of_steps p2 (fun f f' h1 h2 => ⟨(h2 h1.1).1, fun a b => by
          rw [(h2 h1.1).2 q (by
            rintro (h | h)
            · exact a h
            · exact b h)]
          exact h1.2 a b⟩)
      by_cases hd : fs.get q = some .dir
      · have := p1.and k1
        intro hP
        obtain ⟨g1, g2⟩ := this ⟨hd, hP.1, hP.2.2⟩
        exact ⟨⟨g1.2.1, fun _ => g1.1, g1.2.2⟩, fun f hf => (g2 f hf).imp id
          (fun h => ⟨h.2.1, fun _ => h.1, h.2.2⟩)⟩
      · intro hP
        obtain ⟨g1, g2⟩ := k1 ⟨hP.1, hP.2.2⟩
        exact ⟨⟨g1.1, fun h => absurd h hd, g1.2⟩, fun f hf => (g2 f hf).imp id
          (fun h => ⟨h.1, fun h => absurd h hd, h.2⟩)⟩
    refine process_tr (T := Keeps _) key ?_
    intro s st w1 e
    obtain ⟨n, h⟩ := atPublish hc e
    have hst := prepare_staged hc hs.no304 hs.oneHash hn h.prep
    have h0 : ∀ r ∈ st.rels, w1.cur.get (c.stagingDir ++ comps r) ≠ some .dir := by
      intro r hr
      obtain ⟨x, hx⟩ := StagedChanges.ref_of_rel hr
      exact (hst _ hx).not_dir
    have hk := publish_unloading (env := env) hl (h.pubPre hc) h.wf h0
    intro hP
    have conv : ∀ f, f.WF ∧ Unloading c st.rels w1.cur f → f.WF ∧
        (fs.get q = some .dir → f.get q = some .dir) ∧
        (q ≠ c.stagingDir ++ [name] → ¬ StagedFor c base env fs q → f.leaf q = fs.leaf q) := by
      rintro f ⟨g1, g2⟩
      rcases g2 q hq with g | ⟨g, r, hr, g'⟩
      · refine ⟨g1, fun hd => g.trans (hP.2.1 hd), fun a b => ?_⟩
        rw [← hP.2.2 a b]
        unfold FS.leaf
        rw [g]
      · refine ⟨g1, fun hd => ?_, fun a b => ?_⟩
        · exact absurd (hP.2.1 hd) (g' ▸ h0 r hr)
        · exact absurd (g' ▸ h.stagedFor hr) b
    obtain ⟨g1, g2⟩ := hk ⟨hP.1, fun _ _ => Or.inl rfl⟩
    exact ⟨conv _ g1, fun f hf => (g2 f hf).imp id (conv f)⟩
  exact (pk.start ⟨hc.wf, fun h => h, fun _ _ => rfl⟩ f hf).2

/-- The staging area after a run that ended well. -/
theorem run_swept {depth : Nat} {c : Config} {base name : Str} {env : Env} {fs : FS} {w : World}
    (hl : Layout c base name) (hc : RunConds c base name env fs)
    (hs : SoundSource c base name env fs) (hn : NoLinks fs c.stagingDir)
    (h : process depth c env (World.start fs) = (.ok (), w)) {q : Path} (hq : c.stagingDir <+: q)
    (hne : w.cur.leaf q ≠ none) : q = c.stagingDir ++ [name] ∨ w.cur.leaf q = fs.leaf q := by
  rcases run_ok hc h with ⟨h1, _⟩ | ⟨s, st, w1, n, h1, h2⟩
  · exact Or.inr (by rw [h1.cur]; rfl)
  · by_cases a : q = c.stagingDir ++ [name]
    · exact Or.inl a
    right
    have hst := prepare_staged hc hs.no304 hs.oneHash hn h1.prep
    have h0 : ∀ r ∈ st.rels, w1.cur.get (c.stagingDir ++ comps r) ≠ some .dir := by
      intro r hr
      obtain ⟨x, hx⟩ := StagedChanges.ref_of_rel hr
      exact (hst _ hx).not_dir
    have hgone := publish_gone hl (h1.pubPre hc) h1.wf hst h2
    have hk := (publish_unloading (env := env) hl (h1.pubPre hc) h1.wf h0
      ⟨h1.wf, fun _ _ => Or.inl rfl⟩).1.2 q hq
    rw [h2] at hk
    by_cases b : ∃ r ∈ st.rels, q = c.stagingDir ++ comps r
    · obtain ⟨r, hr, rfl⟩ := b
      refine absurd ?_ hne
      unfold FS.leaf
      rw [hgone r hr]
    · have b' : ∀ r ∈ st.rels, q ≠ c.stagingPath r := by
        intro r hr he
        have hcl : CleanRel r := by
          unfold StagedChanges.rels at hr
          rcases List.mem_cons.1 hr with rfl | hr
          · exact h1.goodSnap.clean
          · obtain ⟨d, hd, rfl⟩ := List.mem_map.1 hr
            exact (h1.goodDeltas d hd).clean
        exact b ⟨r, hr, he.trans (joinPath_clean hcl)⟩
      rcases hk with hk | ⟨_, hk⟩
      · have := prepare_leaf (w := World.start fs) hc h1.prep a b'
        rw [show (World.start fs).cur = fs from rfl] at this
        rw [← this]
        unfold FS.leaf
        rw [hk]
      · exact absurd hk b

/-! ## Histories -/

theorem Workspace.ledger {c : Config} {base name : Str} {A : Path → Prop} {f : FS}
    (h : Workspace c base name A f) : ∃ B, Ledger c base name B f := by
  induction h with
  | start h _ => exact ⟨_, .start h⟩
  | done _ h1 h2 ih => obtain ⟨B, ih⟩ := ih; exact ⟨_, .done ih h1 h2⟩
  | cut _ h1 h2 ih => obtain ⟨B, ih⟩ := ih; exact ⟨_, .cut ih h1 h2⟩

theorem Workspace.swept {c : Config} {base name : Str} {A : Path → Prop} {f : FS}
    (hl : Layout c base name) (ho : c.rsyncEnabled = true → CleanObjects c.rsyncIncludeHost)
    (h : Workspace c base name A f) : Swept c name A f := by
  induction h with
  | start _ h => exact fun q hq hne => absurd (h q hq) hne
  | done h0 h1 h2 ih =>
    obtain ⟨B, hB⟩ := h0.ledger
    have hb := hB.booked hl ho
    intro q hq hne
    rcases run_swept hl (hb.conds hl ho h1) h1 hb.staging h2 hq hne with h | h
    · exact Or.inl h
    · exact ih q hq (by rw [← h]; exact hne)
  | @cut A depth env f f' h0 h1 h2 ih =>
    obtain ⟨B, hB⟩ := h0.ledger
    have hb := hB.booked hl ho
    intro q hq hne
    by_cases a : q = c.stagingDir ++ [name]
    · exact Or.inl a
    by_cases b : StagedFor c base env f q
    · exact Or.inr (Or.inr b)
    rw [(run_staging hl (hb.conds hl ho h1) h1 hb.staging h2 hq).2 a b] at hne
    exact (ih q hq hne).imp id Or.inl

end KSync
