import Verif.Lemmas.Steady

/-! # A run without failures goes through -/

set_option linter.unusedSectionVars false
set_option linter.unusedVariables false

namespace KSync

variable [Ext]

section
variable {env : Env}

theorem Goes.lift {α : Type} {x : Except Err α} {a : α} (h : x = .ok a) {w : World} :
    Goes (M.lift x) env w := ⟨a, w, by rw [h]; rfl⟩

theorem now_goes (w : World) : Goes now env w := ⟨_, _, rfl⟩

theorem secondsAgo_goes (k : Int) (w : World) : Goes (secondsAgo k) env w := ⟨_, _, rfl⟩

theorem Goes.attempt {α : Type} {m : M α} {w : World} : Goes (M.attempt m) env w := ⟨_, _, rfl⟩

theorem readFile_goes (hf : NoFaults env) {p : Path} {b : Bytes} {w : World}
    (h : w.cur.read p = some b) : Goes (readFile p) env w := by
  unfold readFile
  refine Goes.bind ⟨_, _, io_goes hf w⟩ (fun k w1 h1 => ?_)
  rw [io_goes hf w] at h1
  cases h1
  refine Goes.bind (m := getFs) ⟨_, _, rfl⟩ (fun fs w1 h1 => ?_)
  cases h1
  unfold FS.read at h
  dsimp only
  match hr : w.cur.resolve p, h with
  | some (.file b t), _ => exact Goes.pure

/-! ## Before publication -/

theorem raw_goes (hf : NoFaults env) {src : FetchSource} {etag : Option Str} {P : Bytes → Prop} {w : World}
    (h : src.Answers env w.cur etag P) :
    ∃ b e w1, src.raw etag env w = (.ok (.data b e), w1) ∧ P b := by
  cases src with
  | uri u m =>
    obtain ⟨hdr, b, h1, h2, h3⟩ := h w.tick
    unfold FetchSource.raw
    have h4 : httpGet ⟨u, m, etag⟩ env w = (.ok (.ok hdr (some b)),
        { w with tick := w.tick + 1, reqs := ⟨u, m, etag⟩ :: w.reqs }) := by
      rw [← h1]; rfl
    dsimp only
    rw [M.bind_of_ok h4]
    cases hdr with
    | absent => exact ⟨b, none, _, rfl, h3⟩
    | valid s => exact ⟨b, some s, _, rfl, h3⟩
    | invalid => exact (h2 rfl).elim
  | file p =>
    obtain ⟨b, h1, h2⟩ := h
    obtain ⟨b', w1, h3⟩ := readFile_goes hf h1
    have h4 := (readFile_ok h3).1
    rw [h1] at h4
    cases h4
    refine ⟨b, none, w1, ?_, h2⟩
    unfold FetchSource.raw
    dsimp only
    rw [M.bind_of_ok h3]
    rfl

theorem fetch_goes {P : Plan} (hP : P.Sound) (hf : NoFaults env) {src : FetchSource} {hash : Hash} {t : Path}
    {w : World} (ht : P.file t) (hg : P.Good w.cur)
    (h : src.Answers env w.cur none (fun b => Ext.sha b = hash)) :
    Goes (src.fetch (some hash) none (some t)) env w := by
  obtain ⟨b, e, w1, h1, h2⟩ := raw_goes hf h
  unfold FetchSource.fetch
  have hg1 : P.Good w1.cur := by
    have := raw_same src none env w
    rw [h1] at this
    rw [this.cur]; exact hg
  refine Goes.bind ⟨_, _, h1⟩ (fun r w2 h3 => ?_)
  rw [h1] at h3
  cases h3
  dsimp only
  rw [if_neg (by rw [h2]; simp)]
  exact Goes.bind (writeBuf_goes hP ht b hf hg1) (fun _ _ _ => Goes.pure)

theorem retrieve_goes {P : Plan} (hP : P.Sound) (hf : NoFaults env) {f : Fetcher} {uri : Str} {src : FetchSource}
    {hash : Hash} {t : Path} {w : World} (hs : f.resolve uri = .ok src) (ht : P.file t)
    (hn : endsInName uri = true)
    (hg : P.Good w.cur) (h : src.Answers env w.cur none (fun b => Ext.sha b = hash)) :
    Goes (f.retrieve uri hash t) env w := by
  unfold Fetcher.retrieve
  rw [if_pos hn]
  unfold Fetcher.retrieveTo
  refine Goes.bind Goes.attempt (fun r w1 h1 => ?_)
  have hw : w1.cur = w.cur := by
    have := readFile_same t env w
    have h2 : w1 = (readFile t env w).2 := by
      injection h1 with _ h1
      exact h1.symm
    rw [h2]; exact this.cur
  have hd : Goes (M.lift (f.resolve uri) >>= fun src =>
      src.fetch (some hash) none (some t) >>= fun _ => pure ()) env w1 := by
    refine Goes.bind (Goes.lift hs) (fun src' w2 h2 => ?_)
    rw [hs] at h2
    cases h2
    exact Goes.bind (fetch_goes hP hf ht (hw ▸ hg) (hw ▸ h)) (fun _ _ _ => Goes.pure)
  cases r with
  | error e => exact hd
  | ok b =>
    dsimp only
    by_cases hb : Ext.sha b = hash
    · rw [if_neg (fun h => h hb)]; exact Goes.pure
    · rw [if_pos hb]; exact hd

/-- Nothing outside the staging area has changed. -/
def Elsewhere (c : Config) (f0 : FS) (f : FS) : Prop :=
  f.WF ∧ ∀ q, ¬ c.stagingDir <+: q → f.leaf q = f0.leaf q

/-- Changes in the staging area only. -/
def stagingEff (c : Config) : Eff :=
  ⟨fun q => c.stagingDir <+: q, fun _ => True, fun _ => True, fun _ => True,
    fun _ => True, fun _ => True⟩

theorem Elsewhere.within {c : Config} {f0 : FS} {w w' : World} (he : Elsewhere c f0 w.cur)
    (h : Within (stagingEff c) w w') : Elsewhere c f0 w'.cur :=
  ⟨h.wf he.1, fun q hq => (h.frame he.1 q hq).trans (he.2 q hq)⟩

/-- A file of the source can be fetched. -/
def Fetchable (c : Config) (base : Str) (env : Env) (f0 : FS) (r : Str × Hash) : Prop :=
  (∃ rel, r.1 = base ++ rel) ∧ EndsInName r.1 ∧ ∃ src, c.Locates r.1 src ∧
    src.Serves c env f0 (fun b => Ext.sha b = r.2)

theorem deltasStage_goes {P : Plan} (hP : P.Sound) (hf : NoFaults env) {s : RrdpState} {reset : Bool}
    {c : Config} {f0 : FS} {ds : List DeltaInfo}
    (hd : ∀ d ∈ ds, Fetchable c s.mappings.baseUri env f0 (d.uri, d.hash))
    (ht : ∀ d ∈ ds, ∀ rel, s.mappings.relative d.uri = .ok rel → P.file (c.stagingPath rel))
    (hk : ∀ d ∈ ds, ∀ rel, s.mappings.relative d.uri = .ok rel → c.stagingDir <+: c.stagingPath rel)
    {w : World} (hg : P.Good w.cur) (he : Elsewhere c f0 w.cur) :
    Goes (s.deltasStage reset c.fetcher c ds) env w := by
  induction ds generalizing w with
  | nil => exact Goes.pure
  | cons d ds ih =>
    unfold RrdpState.deltasStage
    have ih := fun {w} => ih (w := w) (fun d' h => hd d' (List.mem_cons_of_mem _ h))
      (fun d' h => ht d' (List.mem_cons_of_mem _ h)) (fun d' h => hk d' (List.mem_cons_of_mem _ h))
    split
    · obtain ⟨⟨rel, hrel⟩, hen, src, hl, hs⟩ := hd d (List.mem_cons_self ..)
      have hrel' : s.mappings.relative d.uri = .ok rel := relative_ok.2 hrel
      refine Goes.bind (Goes.lift hrel') (fun rel' w1 h1 => ?_)
      rw [hrel'] at h1
      cases h1
      have htf := ht d (List.mem_cons_self ..) rel hrel'
      refine Goes.bind (retrieve_goes hP hf (resolve_locates.2 hl) htf hen.ends hg (hs _ he.2)) (fun _ w1 h1 => ?_)
      have hg1 := ((retrieve_tidy (f := c.fetcher) (uri := d.uri) (hash := d.hash) hP htf env w).plan hg).1
      have he1 := he.within (retrieve_in (f := c.fetcher) (uri := d.uri) (hash := d.hash)
        (fun _ _ => trivial) (hk d (List.mem_cons_self ..) rel hrel') env w)
      rw [h1] at hg1 he1
      refine Goes.bind (now_goes w1) (fun t w2 h2 => ?_)
      have hw2 : w2.cur = w1.cur := by
        have := now_same env w1
        rw [h2] at this
        exact this.cur
      exact Goes.bind (ih (hw2 ▸ hg1) (hw2 ▸ he1)) (fun _ _ _ => Goes.pure)
    · exact ih hg he

theorem stage_goes {P : Plan} (hP : P.Sound) (hf : NoFaults env) {s : RrdpState} {reset : Bool}
    {c : Config} {f0 : FS} {n : Notif} {etag : Option Str}
    (hd : ∀ r ∈ n.refs, Fetchable c s.mappings.baseUri env f0 r)
    (hb : StageBound ⟨fun q => P.file q ∧ c.stagingDir <+: q, fun _ => True, fun _ => True, fun _ => True,
    fun _ => True, fun _ => True⟩ s c n)
    {w : World} (hg : P.Good w.cur) (he : Elsewhere c f0 w.cur) :
    Goes (s.stage c n etag reset) env w := by
  unfold RrdpState.stage
  refine Goes.bind (writeBuf_goes hP hb.name.1 _ hf hg) (fun _ w1 h1 => ?_)
  have g1 := ((writeBuf_tidy hP hb.name.1 (Ext.writeNotif n) env w).plan hg).1
  have e1 := he.within (writeBuf_in hb.name.2 (Ext.writeNotif n) env w)
  rw [h1] at g1 e1
  have hsnap : Goes (s.snapshotStage n c.fetcher c) env w1 := by
    unfold RrdpState.snapshotStage
    obtain ⟨⟨rel, hrel⟩, hen, src, hl, hs⟩ := hd (n.snapUri, n.snapHash) (List.mem_cons_self ..)
    have hrel' : s.mappings.relative n.snapUri = .ok rel := relative_ok.2 hrel
    refine Goes.bind (Goes.lift hrel') (fun rel' w2 h2 => ?_)
    rw [hrel'] at h2
    cases h2
    refine Goes.bind (retrieve_goes hP hf (resolve_locates.2 hl) (hb.snapFile rel hrel').1 hen.ends g1 (hs _ e1.2))
      (fun _ w2 h2 => ?_)
    exact Goes.bind (now_goes w2) (fun _ _ _ => Goes.pure)
  refine Goes.bind hsnap (fun x w2 h2 => ?_)
  have g2 : P.Good w2.cur := by
    have h3 : Does P.Step (s.snapshotStage n c.fetcher c) := by
      unfold RrdpState.snapshotStage
      refine bind_lift_in (fun rel hr => ?_)
      have h2 := retrieve_tidy (f := c.fetcher) (uri := n.snapUri) (hash := n.snapHash) hP (hb.snapFile rel hr).1
      have h3 : Does P.Step now := now_same.quietly
      rel_auto
    have := ((h3 env w1).plan g1).1
    rw [h2] at this
    exact this
  have e2 := e1.within (snapshotStage_in (f := c.fetcher) (fun _ _ => trivial)
    (fun rel hr => (hb.snapFile rel hr).2) env w1)
  rw [h2] at e2
  exact Goes.bind (deltasStage_goes hP hf (fun d hm => hd _ (List.mem_cons_of_mem _ (List.mem_map.2 ⟨d, hm, rfl⟩)))
    (fun d hm rel hr => (hb.deltaFile d hm rel hr).1) (fun d hm rel hr => (hb.deltaFile d hm rel hr).2) g2 e2)
    (fun _ _ _ => Goes.pure)

/-! ## Publication -/

section
variable {T : SourceTree} {c : Config} {base name : Str}

theorem moves_goes (hT : T.Tidy name) (hl : Layout c base name) (hf : NoFaults env)
    {rels : List Str} (hc : ∀ r ∈ rels, CleanRel r) (hn : ∀ r ∈ rels, T.files (comps r))
    (hd : rels.Pairwise (fun a b => comps a ≠ comps b)) {w : World}
    (hw : w.cur.WF) (hg : (planOf T c name).Good w.cur) (hs : ∀ r ∈ rels, w.cur.leaf (c.stagingDir ++ comps r) ≠ none) :
    Goes (M.forEach rels (moveFile c.stagingDir c.rrdpDir)) env w := by
  have hP := planOf_sound hT hl
  induction rels generalizing w with
  | nil => exact Goes.pure
  | cons r rels ih =>
    have hfa : (planOf T c name).file (joinPath c.stagingDir r) := planOf_staging (hc r (by simp)) (hn r (by simp))
    have hfb : (planOf T c name).file (joinPath c.rrdpDir r) := by
      rw [joinPath_clean (hc r (by simp))]
      exact planOf_pub (hn r (by simp))
    have hthere : w.cur.get (joinPath c.stagingDir r) ≠ none := by
      rw [joinPath_clean (hc r (by simp))]
      intro h0
      refine hs r (by simp) ?_
      unfold FS.leaf
      rw [h0]
    refine Goes.bind (m := moveFile c.stagingDir c.rrdpDir r)
      (f := fun _ => M.forEach rels (moveFile c.stagingDir c.rrdpDir))
      (moveFile_goes hP hfa hfb hf hg hthere) (fun _ w1 h1 => ?_)
    have g1 := ((moveFile_tidy hP hfa hfb env w).plan hg).1
    have i1 := moveFile_in (E := ⟨fun q => joinPath c.stagingDir r <+: q ∨ joinPath c.rrdpDir r <+: q,
      fun _ => True, fun _ => True, fun _ => True, fun _ => True, fun _ => True⟩)
      (a := c.stagingDir) (b := c.rrdpDir) (r := r)
      (fun q h => h) trivial env w
    rw [h1] at g1 i1
    obtain ⟨hd1, hd2⟩ := List.pairwise_cons.1 hd
    refine ih (fun x hx => hc x (List.mem_cons_of_mem _ hx)) (fun x hx => hn x (List.mem_cons_of_mem _ hx))
      hd2 (i1.wf hw) g1 (fun x hx => ?_)
    rw [i1.frame hw]
    · exact hs x (List.mem_cons_of_mem _ hx)
    · rintro (h | h)
      · have hx' := planOf_staging (c := c) (name := name) (hc x (List.mem_cons_of_mem _ hx))
          (hn x (List.mem_cons_of_mem _ hx))
        have he : c.stagingPath x = c.stagingDir ++ comps x :=
          joinPath_clean (hc x (List.mem_cons_of_mem _ hx))
        rw [← he] at h
        have := planOf_file_free hT hl hfa hx' h
        rw [he, joinPath_clean (hc r (by simp))] at this
        exact hd1 x hx (List.append_cancel_left this)
      · rw [joinPath_clean (hc r (by simp))] at h
        exact hl.rrdpStaging.not_both ((List.prefix_append _ _).trans h) (List.prefix_append _ _)

theorem deprecate_goes (m : SourceMappings) (l : List DeltaState) (w : World) : Goes (deprecate m l) env w := by
  induction l generalizing w with
  | nil => exact Goes.pure
  | cons d l ih =>
    unfold deprecate
    exact Goes.bind (now_goes w) (fun _ w1 _ => Goes.bind (ih w1) (fun _ _ _ => Goes.pure))

theorem absorb_goes (s : RrdpState) (st : StagedChanges) (w : World) : Goes (s.absorb st) env w := by
  unfold RrdpState.absorb
  refine Goes.bind ?_ (fun s1 w1 _ => ?_)
  · unfold RrdpState.deprecateSnapshot
    split
    · exact Goes.pure
    · exact Goes.bind (now_goes w) (fun _ _ _ => Goes.pure)
  · dsimp only
    split
    · refine Goes.bind ?_ (fun _ _ _ => Goes.pure)
      unfold RrdpState.deprecateAll
      exact Goes.bind (deprecate_goes _ _ _) (fun _ _ _ => Goes.pure)
    · refine Goes.bind ?_ (fun _ _ _ => Goes.pure)
      unfold RrdpState.deprecateBefore
      split
      · exact Goes.pure
      · exact Goes.bind (deprecate_goes _ _ _) (fun _ _ _ => Goes.pure)

theorem cleanFile_goes (hf : NoFaults env) {P : Plan} {d : DeprecatedFile} (hp : P.file d.path)
    {w : World} (hg : P.Good w.cur) : Goes (cleanFile d) env w := by
  unfold cleanFile
  refine Goes.bind (m := getFs) ⟨_, _, rfl⟩ (fun fs w1 h1 => ?_)
  cases h1
  by_cases h : w.cur.exists? d.path = true
  · rw [if_pos h]
    have hne : w.cur.get d.path ≠ none := by
      intro h0
      unfold FS.exists? FS.resolve at h
      rw [h0] at h
      cases h
    obtain ⟨b, t, hb⟩ := hg.file_of hp hne
    unfold removeFileAndEmptyParents
    exact removeUp_goes hf hb
  · rw [if_neg h]; exact Goes.pure

theorem clean_goes (hf : NoFaults env) {P : Plan} {s : RrdpState}
    (hp : ∀ e ∈ s.deprecated, P.file e.path) {w : World} (hg : P.Good w.cur)
    (ht : ∀ e ∈ s.deprecated, Does P.Step (cleanFile e)) : Goes (s.clean c) env w := by
  unfold RrdpState.clean
  refine Goes.bind (secondsAgo_goes _ w) (fun t w1 h1 => ?_)
  have hw : w1.cur = w.cur := by
    have := secondsAgo_same c.cleanupAfter env w
    rw [h1] at this
    exact this.cur
  refine Goes.bind (Goes.forEach (I := fun w => P.Good w.cur) (fun e he w hg => ?_) (fun e he w hg => ?_)
    (hw ▸ hg)) (fun _ _ _ => Goes.pure)
  · exact cleanFile_goes hf (hp e (List.mem_filter.1 he).1) hg
  · exact ((ht e (List.mem_filter.1 he).1 env w).plan hg).1

/-! ### Rsync -/

theorem recover_goes (hf : NoFaults env) {st : RsyncDirState} {w : World} (h : RsyncRecorded c w.cur st)
    (hg : (planOf T c name).Good w.cur) : Goes (RsyncDirState.recover c) env w := by
  unfold RsyncDirState.recover
  refine Goes.bind (m := getFs) ⟨_, _, rfl⟩ (fun fs w1 h1 => ?_)
  cases h1
  rcases h with ⟨b, h1, h2⟩ | ⟨h1, _⟩
  · have hr : w.cur.read c.rsyncStatePath = some b := by
      unfold FS.file? at h1
      unfold FS.read FS.resolve
      match h3 : w.cur.get c.rsyncStatePath, h1 with
      | some (.file b' t), h1 => simpa using h1
    rw [if_pos (exists_of_read hr)]
    refine Goes.bind (readFile_goes hf hr) (fun b' w1 h3 => ?_)
    have h4 := (readFile_ok h3).1
    rw [hr] at h4
    cases h4
    rw [h2]
    exact Goes.pure
  · have h0 : w.cur.get c.rsyncStatePath = none := by
      refine Decidable.byContradiction (fun hne => ?_)
      obtain ⟨b, t, hb⟩ := hg.file_of planOf_rsyncState hne
      unfold FS.leaf at h1
      rw [hb] at h1
      cases h1
    rw [if_neg (by unfold FS.exists? FS.resolve; rw [h0]; simp)]
    exact Goes.pure

theorem createOutPath_goes {P : Plan} (hP : P.Sound) (hf : NoFaults env) {p : Path} (hp : P.dir p)
    {w : World} (hg : P.Good w.cur) : Goes (createOutPath p) env w := by
  unfold createOutPath
  refine Goes.bind (m := getFs) ⟨_, _, rfl⟩ (fun fs w1 h1 => ?_)
  cases h1
  split
  · exact Goes.pure
  · exact createDirAll_goes hP hp hf hg

theorem fixSince_goes (p : Path) (b : Bytes) (w : World) : Goes (fixSince p b) env w := by
  unfold fixSince
  split
  · exact Goes.pure
  · exact Goes.bind Goes.attempt (fun _ _ _ => Goes.pure)

theorem makeRevision_goes (hP : (planOf T c name).Sound) (hf : NoFaults env) {rev : RsyncRevision} {src : Path}
    {w : World} (ho : CleanObjects c.rsyncIncludeHost) (hb : T.Objects c rev src w.cur) (hw : w.cur.WF)
    (hg : (planOf T c name).Good w.cur) {b : Bytes} (hs : w.cur.read src = some b)
    (hc : (Ext.streamSnapshot b).2 = true) : Goes (makeRevision rev c src) env w := by
  unfold makeRevision
  refine Goes.bind (createOutPath_goes hP hf (planOf_rev rev) hg) (fun _ w1 h1 => ?_)
  have g1 := ((createOutPath_tidy hP (planOf_rev (T := T) (c := c) (name := name) rev) env w).plan hg).1
  have hlf := createOutPath_leaf (env := env) (rev.path c) hw src
  have hout := hb.out hw h1
  rw [h1] at g1 hlf
  have hs1 : w1.cur.read src = some b := by rw [FS.read_of_leaf hb.1 hlf]; exact hs
  unfold writeSnapshotTree
  refine Goes.bind (readFile_goes hf hs1) (fun b' w2 h2 => ?_)
  obtain ⟨h3, h4, _⟩ := readFile_ok h2
  rw [hs1] at h3
  cases h3
  have hpub : ∀ e ∈ (Ext.streamSnapshot b).1, (planOf T c name).file (objectPath (rev.path c) c.rsyncIncludeHost e.1) :=
    fun e he => object_file (ho b e he) (hout b hs1 e he)
  refine Goes.bind (Goes.forEach (I := fun w => (planOf T c name).Good w.cur) (fun e he w hg => ?_)
    (fun e he w hg => ?_) (by rw [h4]; exact g1)) (fun _ _ _ => ?_)
  · unfold publishObject
    dsimp only
    rw [if_pos (hb.named hw h1 b hs1 e he).ends]
    exact Goes.bind (writeBuf_goes hP (hpub e he) e.2 hf hg) (fun _ _ _ => fixSince_goes _ _ _)
  · have : Does (planOf T c name).Step (publishObject (rev.path c) c.rsyncIncludeHost e) := by
      unfold publishObject
      have h1 := writeBuf_tidy hP (hpub e he) e.2
      have h2 := fixSince_tidy hP (hpub e he) e.2
      have h3 := createPathForFile_tidy hP (hpub e he)
      rel_auto
    exact ((this env w).plan hg).1
  · show Goes (if (Ext.streamSnapshot b).2 = true then pure () else M.throw Err.parse) env _
    rw [if_pos hc]
    exact Goes.pure

theorem symlink_goes (hf : NoFaults env) {t : Name} {p : Path} (hp : p ≠ []) {w : World}
    (hd : w.cur.get p.dropLast = some .dir) (h0 : w.cur.get p = none) : Goes (symlink t p) env w := by
  unfold symlink
  refine Goes.bind ⟨_, _, io_goes hf w⟩ (fun k w1 h1 => ?_)
  rw [io_goes hf w] at h1
  cases h1
  refine Goes.bind (m := getFs) ⟨_, _, rfl⟩ (fun fs w1 h1 => ?_)
  cases h1
  dsimp only
  rw [if_neg (fun h => h.elim hp (fun h => h hd)), h0]
  exact ⟨_, _, rfl⟩

theorem symlinkCurrent_goes (hP : (planOf T c name).Sound) (hf : NoFaults env) {rev : RsyncRevision} {w : World}
    (hw : w.cur.WF) (hg : (planOf T c name).Linkable rev.dirName w.cur) : Goes (symlinkCurrent rev c) env w := by
  have hdir : w.cur.get c.rsyncDir = some .dir := by
    refine hw c.rsyncDir rev.dirName ?_
    rw [show c.rsyncDir ++ [rev.dirName] = (planOf T c name).hold ++ [rev.dirName] from rfl, hg.2]
    simp
  have htmp : (planOf T c name).link c.rsyncTmp := Or.inr rfl
  have hcur : (planOf T c name).link c.rsyncCurrent := Or.inl rfl
  have hpar : c.rsyncTmp.dropLast = c.rsyncDir := List.dropLast_concat
  have hpar' : c.rsyncCurrent.dropLast = c.rsyncDir := List.dropLast_concat
  have hne : c.rsyncTmp ≠ [] := by unfold Config.rsyncTmp; simp
  have hne' : c.rsyncCurrent ≠ [] := by unfold Config.rsyncCurrent; simp
  have hrem : ∃ w1, (if w.cur.exists? c.rsyncTmp = true then removeFile c.rsyncTmp else pure ()) env w =
      (.ok (), w1) ∧ w1.cur.get c.rsyncTmp = none ∧ w1.cur.WF ∧
      (planOf T c name).Linkable rev.dirName w1.cur := by
    by_cases hx : w.cur.exists? c.rsyncTmp = true
    · rw [if_pos hx]
      cases hn : w.cur.get c.rsyncTmp with
      | none =>
        unfold FS.exists? FS.resolve at hx
        rw [hn] at hx
        cases hx
      | some m =>
        obtain ⟨t, rfl⟩ := (hg.1.fits _ _ hn).2.2 htmp
        obtain ⟨_, w1, h1⟩ := removeFile_goes hf hn (by simp)
        have h2 := (removeFile_ok h1).1
        refine ⟨w1, h1, removeFile_gone hne h1, ?_, ?_⟩
        · have := (removeFile_wf c.rsyncTmp env w).ends (fun f => KeepsWF.refl f)
            (fun _ _ _ h h' => h' ∘ h) hw
          rw [h1] at this
          exact this
        · rw [h2]
          exact ⟨(hg.1.delLink htmp).1, (hg.1.delLink htmp).2 _ hg.2⟩
    · rw [if_neg hx]
      refine ⟨w, rfl, ?_, hw, hg⟩
      cases hn : w.cur.get c.rsyncTmp with
      | none => rfl
      | some m =>
        obtain ⟨t, rfl⟩ := (hg.1.fits _ _ hn).2.2 htmp
        refine (hx ?_).elim
        have h3 := hg.1.anchored t hn
        unfold FS.exists? FS.resolve
        rw [hn]
        dsimp only
        rw [hpar, show c.rsyncDir ++ [t] = (planOf T c name).hold ++ [t] from rfl, h3]
        rfl
  have hparent : ∀ {f : FS}, f.WF → (planOf T c name).Linkable rev.dirName f → f.get c.rsyncDir = some .dir := by
    intro f hw hg
    refine hw c.rsyncDir rev.dirName ?_
    rw [show c.rsyncDir ++ [rev.dirName] = (planOf T c name).hold ++ [rev.dirName] from rfl, hg.2]
    simp
  unfold symlinkCurrent
  dsimp only
  rw [cur_tmp_path]
  show Goes (getFs >>= fun fs => (if fs.exists? c.rsyncTmp = true then removeFile c.rsyncTmp
    else pure ()) >>= fun _ => symlink rev.dirName c.rsyncTmp >>= fun _ =>
      rename c.rsyncTmp c.rsyncCurrent) env w
  refine Goes.bind (m := getFs) ⟨_, _, rfl⟩ (fun fs w1 h1 => ?_)
  cases h1
  obtain ⟨w1, h1, h2, h3, h4⟩ := hrem
  refine Goes.bind ⟨_, _, h1⟩ (fun _ w1' h1' => ?_)
  rw [h1] at h1'
  cases h1'
  refine Goes.bind (symlink_goes hf hne (by rw [hpar]; exact hparent h3 h4) h2) (fun _ w2 h5 => ?_)
  have hw2 : w2.cur.WF := by
    have := (symlink_wf rev.dirName c.rsyncTmp env w1).ends (fun f => KeepsWF.refl f)
      (fun _ _ _ h h' => h' ∘ h) h3
    rw [h5] at this
    exact this
  obtain ⟨_, _, hl2⟩ := symlink_ok h5
  have ho : ∀ q, q ≠ c.rsyncTmp → w2.cur.get q = w1.cur.get q := by
    have := (symlink_only rev.dirName c.rsyncTmp env w1).ends (fun f => OnlyAt.refl _ f)
      (fun _ _ _ => OnlyAt.trans)
    rw [h5] at this
    exact this
  refine rename_goes hf hl2 (by simp) hne hne' ?_ ?_
  · rw [hpar', ho _ (fun h => by
      have := congrArg List.length h
      unfold Config.rsyncTmp at this
      simp at this)]
    exact hparent h3 h4
  · rw [ho _ (fun h => tmp_ne_current c h.symm)]
    intro hd
    obtain ⟨t, ht⟩ := (h4.1.fits _ _ hd).2.2 hcur
    cases ht

theorem unlink1_goes (hf : NoFaults env) {p : Path} {w : World} (h : w.cur.hasChild p = false) :
    ∃ w', unlink1 p env w = (.ok (), w') ∧ w'.cur = w.cur.del p := by
  unfold unlink1
  rw [M.bind_of_ok (io_goes hf w), getFs_bind]
  dsimp only
  rw [if_neg (by rw [h]; simp)]
  exact ⟨_, rfl, rfl⟩

theorem unlinks_goes (hf : NoFaults env) {k : Path → Nat} (hk : ∀ p q, p <+: q → p ≠ q → k p < k q)
    {l : List Path} (hs : l.Pairwise (fun x y => k y ≤ k x)) (h0 : ∀ q ∈ l, q ≠ []) {w : World}
    (hc : ∀ q ∈ l, ∀ r, q <+: r → r ≠ q → w.cur.get r = none ∨ r ∈ l) :
    Goes (M.forEach l unlink1) env w := by
  induction l generalizing w with
  | nil => exact Goes.pure
  | cons a l ih =>
    obtain ⟨h1, h2⟩ := List.pairwise_cons.1 hs
    have hno : w.cur.hasChild a = false := by
      rw [FS.hasChild_false_iff]
      intro r hr hne
      rcases hc a (by simp) r hr hne with h | h
      · exact h
      · have h3 := h1 r ((List.mem_cons.1 h).resolve_left hne)
        have h4 := hk a r hr (Ne.symm hne)
        omega
    obtain ⟨w1, e1, e2⟩ := unlink1_goes hf hno
    refine Goes.bind (m := unlink1 a) (f := fun _ => M.forEach l unlink1) ⟨_, _, e1⟩ (fun _ w1' h3 => ?_)
    rw [e1] at h3
    cases h3
    refine ih h2 (fun q hq => h0 q (List.mem_cons_of_mem _ hq)) (fun q hq r hr hne => ?_)
    rw [e2]
    by_cases hra : r = a
    · subst hra
      exact Or.inl (FS.get_del_self _ (h0 r (by simp)))
    · rw [FS.get_del_ne _ hra]
      rcases hc q (List.mem_cons_of_mem _ hq) r hr hne with h | h
      · exact Or.inl h
      · exact Or.inr ((List.mem_cons.1 h).resolve_left hra)

theorem removeDirAll_goes (hf : NoFaults env) (hk : ChildrenFirst env) {p : Path} (hp : p ≠ []) {w : World}
    (hd : w.cur.get p = some .dir) : Goes (removeDirAll p) env w := by
  unfold removeDirAll
  refine Goes.bind (m := getFs) ⟨_, _, rfl⟩ (fun fs w1 h1 => ?_)
  cases h1
  rw [if_pos ⟨hp, hd⟩]
  refine Goes.bind (m := tick) ⟨_, _, rfl⟩ (fun n w1 h1 => ?_)
  cases h1
  refine Goes.bind (m := askEnv) ⟨_, _, rfl⟩ (fun e w1 h1 => ?_)
  cases h1
  refine unlinks_goes (k := env.prio w.tick) hf (hk w.tick) ?_ (fun q hq => ?_) (fun q hq r hr hne => ?_)
  · rw [List.pairwise_reverse]
    exact sortBy_sorted _ _
  · have := (FS.mem_tree _ _ _ hp).1 (mem_sortBy.1 (List.mem_reverse.1 hq))
    rintro rfl
    exact hp (List.prefix_nil.1 this.1)
  · have := (FS.mem_tree _ _ _ hp).1 (mem_sortBy.1 (List.mem_reverse.1 hq))
    by_cases h : w.cur.get r = none
    · exact Or.inl h
    · exact Or.inr (List.mem_reverse.2 (mem_sortBy.2 ((FS.mem_tree _ _ _ hp).2 ⟨this.1.trans hr, h⟩)))

theorem cleanRevision_goes (hf : NoFaults env) (hk : ChildrenFirst env) {d : DeprecatedRevision} {w : World}
    (hg : (planOf T c name).Good w.cur) : Goes (cleanRevision c d) env w := by
  unfold cleanRevision
  refine Goes.bind (m := getFs) ⟨_, _, rfl⟩ (fun fs w1 h1 => ?_)
  cases h1
  by_cases h : w.cur.exists? (d.revision.path c) = true
  · rw [if_pos h]
    refine removeDirAll_goes hf hk (by unfold RsyncRevision.path; simp) ?_
    cases hn : w.cur.get (d.revision.path c) with
    | none =>
      unfold FS.exists? FS.resolve at h
      rw [hn] at h
      cases h
    | some m => rw [(hg.fits _ _ hn).2.1 (planOf_rev d.revision)]
  · rw [if_neg h]; exact Goes.pure

theorem cleanOld_goes (hf : NoFaults env) (hk : ChildrenFirst env) (st : RsyncDirState) {w : World}
    (hg : (planOf T c name).Good w.cur) (ht : w.cur.get c.rsyncTmp = none) : Goes (st.cleanOld c) env w := by
  unfold RsyncDirState.cleanOld
  refine Goes.bind (secondsAgo_goes _ w) (fun t w1 h1 => ?_)
  have hw : w1.cur = w.cur := by
    have := secondsAgo_same c.cleanupAfter env w
    rw [h1] at this
    exact this.cur
  refine Goes.bind (Goes.forEach
    (I := fun w => (planOf T c name).Good w.cur ∧ w.cur.get (planOf T c name).tmp = none)
    (fun e he w hg => cleanRevision_goes hf hk hg.1) (fun e he w hg => ?_)
    (by rw [hw]; exact ⟨hg, ht⟩)) (fun _ _ _ => Goes.pure)
  exact hg.1.shrinks hg.2 ((cleanRevision_shrinks c e env w).ends (fun f => Shrinks.refl f)
    (fun _ _ _ => Shrinks.trans))

end

end

end KSync
