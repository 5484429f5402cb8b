import Verif.Lemmas.Effects

/-! # Effects of validation, publication and whole runs -/

set_option linter.unusedSectionVars false
set_option linter.unusedSimpArgs false
set_option linter.unusedVariables false

namespace KSync

variable {E : Eff} [Ext]

/-! ## Staging as a whole -/

/-- What `updateStaged` may do, given what can be in the notification. -/
structure StageBound (E : Eff) (s : RrdpState) (c : Config) (n : Notif) : Prop where
  name : E.files (c.stagingPath s.source.name)
  snapReq : ∀ r, c.fetcher.Asks n.snapUri none r → E.reqs r
  snapFile : ∀ rel, s.mappings.relative n.snapUri = .ok rel → E.files (c.stagingPath rel)
  deltaReq : ∀ d ∈ n.deltas, ∀ r, c.fetcher.Asks d.uri none r → E.reqs r
  deltaFile : ∀ d ∈ n.deltas, ∀ rel, s.mappings.relative d.uri = .ok rel →
    E.files (c.stagingPath rel)

theorem stage_in {s : RrdpState} {c : Config} {n : Notif} {etag : Option Str} {reset : Bool}
    (h : StageBound E s c n) : Rel (Within E) (s.stage c n etag reset) := by
  unfold RrdpState.stage
  have h1 := writeBuf_in (E := E) h.name (Ext.writeNotif n)
  have h2 := snapshotStage_in (E := E) h.snapReq h.snapFile
  have h3 := deltasStage_in (E := E) (reset := reset) h.deltaReq h.deltaFile
  rel_auto

/-- `T` holds of a sequence if it holds of the first part and, given what the first part
returned, of the second. -/
theorem Rel.bindOk' {T : World → World → Prop} [Tr T] {m : M α} {f : α → M β} (hm : Rel T m)
    (hf : ∀ a, (∃ env w w1, m env w = (.ok a, w1)) → Rel T (f a)) : Rel T (m >>= f) :=
  Rel.bindOk hm (fun env w a w1 h => hf a ⟨env, w, w1, h⟩ env w1)

theorem updateStaged_in {s : RrdpState} {c : Config}
    (h0 : ∀ r, c.fetcher.Asks c.fetcher.notificationUri s.source.etag r → E.reqs r)
    (h : ∀ n etag ds, (∃ env w w1, c.fetcher.readNotification s.source.etag env w =
        (.ok (some (n, etag)), w1)) → sortVerify c.rrdpMaxDeltas n.deltas = .ok ds →
      StageBound E s c { n with deltas := ds }) :
    Rel (Within E) (s.updateStaged c) := by
  unfold RrdpState.updateStaged
  refine Rel.bindOk' (readNotification_in h0) (fun r hr => ?_)
  match r with
  | none => exact Rel.pure _
  | some (n, etag) =>
    refine bind_lift_in (fun ds hds => ?_)
    have h1 := stage_in (E := E) (etag := etag) (reset := true) (h n etag ds hr hds)
    have h2 := stage_in (E := E) (etag := etag) (reset := false) (h n etag ds hr hds)
    dsimp only
    split
    · exact Rel.pure _
    · exact Rel.throw _
    · rename_i reset _
      cases reset <;> assumption

/-! ## Validation -/

section Validation

theorem dataFromSnapshot_in (hr : ∀ r, E.reqs r) (n : Notif) (etag : Option Str) (f : Fetcher)
    (t : Time) : Rel (Within E) (dataFromSnapshot n etag f t) := by
  unfold dataFromSnapshot
  have h1 := readBytes_in (E := E) (f := f) (uri := n.snapUri) (hash := n.snapHash)
    (fun r _ => hr r)
  rel_auto

theorem retrieveNew_in (hr : ∀ r, E.reqs r) (f : Fetcher) (t : Time) :
    Rel (Within E) (retrieveNew f t) := by
  unfold retrieveNew
  have h1 := readNotification_in (E := E) (f := f) (etag := none) (fun r _ => hr r)
  have h2 := dataFromSnapshot_in (E := E) hr
  rel_auto

theorem applyDeltas_in (hr : ∀ r, E.reqs r) (f : Fetcher) (d : RepoData) (l : List DeltaInfo) :
    Rel (Within E) (applyDeltas f d l) := by
  induction l generalizing d with
  | nil => exact Rel.pure _
  | cons i l ih =>
    unfold applyDeltas
    have h1 := readBytes_in (E := E) (f := f) (uri := i.uri) (hash := i.hash)
      (fun r _ => hr r)
    rel_auto

theorem updateFromDeltas_in (hr : ∀ r, E.reqs r) (n : Notif) (etag : Option Str) (d : RepoData)
    (f : Fetcher) (t : Time) : Rel (Within E) (updateFromDeltas n etag d f t) := by
  unfold updateFromDeltas
  have h1 := applyDeltas_in (E := E) hr
  rel_auto

theorem getLatest_in (hr : ∀ r, E.reqs r) (v : Visited) (uri : Str) (offline : Bool) (t : Time) :
    Rel (Within E) (v.getLatest uri offline t) := by
  unfold Visited.getLatest
  have h1 := retrieveNew_in (E := E) hr
  have h2 := now_in (E := E)
  have h3 := fun f e => readNotification_in (E := E) (f := f) (etag := e) (fun r _ => hr r)
  have h4 := updateFromDeltas_in (E := E) hr
  have h5 := dataFromSnapshot_in (E := E) hr
  dsimp only
  rel_auto

theorem initStaging_in (hr : ∀ r, E.reqs r) (v : Validator) (uri : Str) :
    Rel (Within E) (v.initStaging uri) := by
  unfold Validator.initStaging
  have h1 := now_in (E := E)
  have h2 := getLatest_in (E := E) hr
  rel_auto

theorem checkEntry_in (objs : List (Str × Bytes)) (issuer : ResCert) (crl : CrlObj) (t : Time)
    (acc : CaAcc) (e : Str × Hash) : Rel (Within E) (checkEntry objs issuer crl t acc e) := by
  unfold checkEntry
  have h1 := now_in (E := E)
  dsimp only
  rel_auto

theorem checkEntries_in (objs : List (Str × Bytes)) (issuer : ResCert) (crl : CrlObj) (t : Time)
    (acc : CaAcc) (l : List (Str × Hash)) :
    Rel (Within E) (checkEntries objs issuer crl t acc l) := by
  induction l generalizing acc with
  | nil => exact Rel.pure _
  | cons e l ih =>
    unfold checkEntries
    have h1 := checkEntry_in (E := E) objs issuer crl t
    rel_auto

theorem checkCa_in (hr : ∀ r, E.reqs r) (v : Visited) (issuer : ResCert) (info : CaInfo)
    (offline : Bool) (t : Time) : Rel (Within E) (checkCa v issuer info offline t) := by
  unfold checkCa
  have h1 := getLatest_in (E := E) hr
  have h2 := tick_in (E := E)
  have h3 := checkEntries_in (E := E)
  dsimp only
  rel_auto

theorem validateKids_in {rec : Visited → ResCert → CaInfo → M (Report × Visited)}
    (h : ∀ v c i, Rel (Within E) (rec v c i)) (v : Visited) (rep : Report)
    (l : List (ResCert × CaInfo)) : Rel (Within E) (validateKids rec v rep l) := by
  induction l generalizing v rep with
  | nil => exact Rel.pure _
  | cons e l ih =>
    unfold validateKids
    rel_auto

theorem validateTree_in (hr : ∀ r, E.reqs r) (offline : Bool) (t : Time) (depth : Nat)
    (v : Visited) (c : ResCert) (i : CaInfo) :
    Rel (Within E) (validateTree offline t depth v c i) := by
  induction depth generalizing v c i with
  | zero => exact Rel.throw _
  | succ depth ih =>
    unfold validateTree
    have h1 := checkCa_in (E := E) hr
    have h2 := validateKids_in (E := E) ih
    rel_auto

theorem validateAt_in (hr : ∀ r, E.reqs r) (tal : Tal) (t : Time) :
    Rel (Within E) (tal.validateAt t) := by
  unfold Tal.validateAt
  have h1 := fetch_in (E := E) (src := tal.source) (hash := none) (etag := none) (target := none)
    (fun r _ => hr r) (by simp)
  have h2 := tryIntoData_in (E := E)
  rel_auto

theorem validateTa_in (hr : ∀ r, E.reqs r) (depth : Nat) (v : Visited) (tal : Tal)
    (offline : Bool) (t : Time) : Rel (Within E) (validateTa depth v tal offline t) := by
  unfold validateTa
  have h1 := validateAt_in (E := E) hr
  have h2 := validateTree_in (E := E) hr
  rel_auto

theorem validateTals_in (hr : ∀ r, E.reqs r) (depth : Nat) (v : Visited) (rep : Report)
    (offline : Bool) (t : Time) (l : List Tal) :
    Rel (Within E) (validateTals depth v rep offline t l) := by
  induction l generalizing v rep with
  | nil => exact Rel.pure _
  | cons tal l ih =>
    unfold validateTals
    have h1 := validateTa_in (E := E) hr
    rel_auto

theorem validate_in (hr : ∀ r, E.reqs r) (depth : Nat) (v : Validator) (offline : Bool) :
    Rel (Within E) (v.validate depth offline) := by
  unfold Validator.validate
  have h1 := now_in (E := E)
  have h2 := validateTals_in (E := E) hr
  rel_auto

theorem readTals_in (l : List Str) : Rel (Within E) (readTals l) := by
  induction l with
  | nil => exact Rel.pure _
  | cons f l ih =>
    unfold readTals
    have h1 := readFile_in (E := E)
    rel_auto

theorem createValidator_in (c : Config) : Rel (Within E) (createValidator c) := by
  unfold createValidator
  have h1 := readTals_in (E := E) c.talFiles
  rel_auto

theorem chooseValidator_in (v : Option Validator) (c : Config) :
    Rel (Within E) (chooseValidator v c) := by
  unfold chooseValidator
  have h1 := createValidator_in (E := E) c
  rel_auto

theorem reconfigureValidator_in (hr : ∀ r, E.reqs r) (v : Option Validator) (c : Config) :
    Rel (Within E) (reconfigureValidator v c) := by
  unfold reconfigureValidator
  have h1 := chooseValidator_in (E := E) v c
  have h2 := initStaging_in (E := E) hr
  rel_auto

theorem preValidate_in (hr : ∀ r, E.reqs r) (depth : Nat) (s : RrdpState) (c : Config) :
    Rel (Within E) (s.preValidate depth c) := by
  unfold RrdpState.preValidate
  have h1 := reconfigureValidator_in (E := E) hr
  have h2 := validate_in (E := E) hr
  rel_auto

end Validation

/-! ## Scripts -/

theorem runScripts_in {l : List Path} (h : ∀ p ∈ l, E.ran p) :
    Rel (Within E) (runScripts l) := by
  induction l with
  | nil => exact Rel.pure _
  | cons p l ih =>
    unfold runScripts
    have h1 := runScript_in (E := E) (h p (by simp))
    have h2 := ih (fun q hq => h q (by simp [hq]))
    rel_auto

theorem scriptGate_in {c : Config} (h : ∀ p ∈ c.scripts, E.ran p) :
    Rel (Within E) (scriptGate c) := by
  unfold scriptGate
  have h1 := runScripts_in (E := E) h
  rel_auto

/-! ## Applying -/

theorem deprecate_in (m : SourceMappings) (l : List DeltaState) :
    Rel (Within E) (deprecate m l) := by
  induction l with
  | nil => exact Rel.pure _
  | cons d l ih =>
    unfold deprecate
    have h1 := now_in (E := E)
    rel_auto

theorem deprecateBefore_in (s : RrdpState) (n : Nat) : Rel (Within E) (s.deprecateBefore n) := by
  unfold RrdpState.deprecateBefore
  have h1 := deprecate_in (E := E)
  rel_auto

theorem deprecateAll_in (s : RrdpState) : Rel (Within E) s.deprecateAll := by
  unfold RrdpState.deprecateAll
  have h1 := deprecate_in (E := E)
  rel_auto

theorem deprecateSnapshot_in (s : RrdpState) : Rel (Within E) s.deprecateSnapshot := by
  unfold RrdpState.deprecateSnapshot
  have h1 := now_in (E := E)
  rel_auto

theorem absorb_in (s : RrdpState) (st : StagedChanges) : Rel (Within E) (s.absorb st) := by
  unfold RrdpState.absorb
  have h1 := deprecateSnapshot_in (E := E)
  have h2 := deprecateBefore_in (E := E)
  have h3 := deprecateAll_in (E := E)
  rel_auto

theorem moveStaged_in {c : Config} {st : StagedChanges}
    (h : ∀ rel, rel = st.snapshot.relPath ∨ rel ∈ st.deltas.map (·.relPath) →
      (∀ q, joinPath c.stagingDir rel <+: q ∨ joinPath c.rrdpDir rel <+: q → E.files q) ∧
      E.copied (joinPath c.rrdpDir rel)) :
    Rel (Within E) (moveStaged c st) := by
  unfold moveStaged
  refine Rel.bind (moveFile_in (h _ (Or.inl rfl)).1 (h _ (Or.inl rfl)).2) (fun _ => ?_)
  refine Rel.forEach (fun d hd => ?_)
  have := h d.relPath (Or.inr (List.mem_map_of_mem hd))
  exact moveFile_in this.1 this.2

/-! ### Removing a file and its empty parents -/

/-- Nothing but directories on the way to `p`: only directories are removed. -/
theorem removeUp_dirs {n : Nat} {p : Path} {env : Env} {w : World}
    (h : ∀ q, q <+: p → w.cur.leaf q = none) :
    Touches (Eff.none) w (removeUp n p env w).2 := by
  induction n generalizing p w with
  | zero =>
    unfold removeUp
    rw [getFs_bind]
    have hn : w.cur.isFile p = false := by
      have := h p (List.prefix_refl _)
      unfold FS.isFile FS.resolve
      unfold FS.leaf at this
      match hg : w.cur.get p with
      | none => rfl
      | some .dir => rfl
      | some (.file _ _) => rw [hg] at this; cases this
      | some (.link _) => rw [hg] at this; cases this
    rw [hn]
    simp only [Bool.false_eq_true, if_false]
    split
    · exact removeDir_touches p env w
    · exact Tr.refl w
  | succ n ih =>
    unfold removeUp
    rw [getFs_bind]
    have hn : w.cur.isFile p = false := by
      have := h p (List.prefix_refl _)
      unfold FS.isFile FS.resolve
      unfold FS.leaf at this
      match hg : w.cur.get p with
      | none => rfl
      | some .dir => rfl
      | some (.file _ _) => rw [hg] at this; cases this
      | some (.link _) => rw [hg] at this; cases this
    rw [hn]
    simp only [Bool.false_eq_true, if_false]
    have key : ∀ m : M Unit, (∀ S, Rel (Touches (Eff.only S)) m) → Writes (fun _ => False) m →
        Touches Eff.none w
          ((m >>= fun _ => M.attempt (removeUp n p.dropLast) >>= fun _ => pure ()) env w).2 := by
      intro m hm hm'
      rcases M.bind_cases m (fun _ => M.attempt (removeUp n p.dropLast) >>= fun _ => pure ())
        env w with ⟨e, w1, h1, h2⟩ | ⟨a, w1, h1, h2⟩
      · rw [h2]; have := hm (fun _ => False) env w; rw [h1] at this; exact this
      · rw [h2]
        have h3 := hm (fun _ => False) env w
        rw [h1] at h3
        refine Tr.trans (T := Touches Eff.none) h3 ?_
        rw [attempt_bind]
        refine ih (fun q hq => ?_)
        have h4 := hm' env w
        rw [h1] at h4
        have h5 := h4.ends (fun f => Frame.refl f) (fun a b c => Frame.trans)
        rw [h5 q (fun hf => hf)]
        exact h q (hq.trans (List.dropLast_prefix p))
    split
    · exact key _ (fun S => removeDir_touches p) (removeDir_writes _ p)
    · exact key _ (fun S => Rel.pure _) (Rel.pure _)

/-- Removing a file with its empty parents changes no other file. -/
theorem removeUp_touches {n : Nat} {p : Path} {env : Env} {w : World} (hw : w.cur.WF)
    (hp : w.cur.get p ≠ none) :
    Touches (Eff.only (· = p)) w (removeUp n p env w).2 := by
  have up : ∀ q, q <+: p → q ≠ p → w.cur.leaf q = none := by
    intro q h1 h2
    unfold FS.leaf
    rw [hw.above h1 h2 hp]
  have key : ∀ n (m : M Unit), Rel (Touches (Eff.only (· = p))) m →
      Touches (Eff.only (· = p)) w
        ((m >>= fun _ => M.attempt (removeUp n p.dropLast) >>= fun _ => pure ()) env w).2 := by
    intro n m hm
    rcases M.bind_cases m (fun _ => M.attempt (removeUp n p.dropLast) >>= fun _ => pure ())
      env w with ⟨e, w1, h1, h2⟩ | ⟨a, w1, h1, h2⟩
    · rw [h2]; have := hm env w; rw [h1] at this; exact this
    · rw [h2]
      have h3 := hm env w
      rw [h1] at h3
      refine Tr.trans (T := Touches _) h3 ?_
      rw [attempt_bind]
      by_cases h0 : p = []
      · subst h0
        refine Touches.mono (Eff.none_le) (removeUp_dirs (fun q hq => ?_))
        have hq' : q = [] := List.prefix_nil.1 hq
        subst hq'; unfold FS.leaf; simp
      · refine Touches.mono (Eff.none_le) (removeUp_dirs (fun q hq => ?_))
        have hne : q ≠ p := by
          rintro rfl
          have := hq.length_le
          have : q.length ≠ 0 := fun h => h0 (List.length_eq_zero_iff.1 h)
          rw [List.length_dropLast] at *
          omega
        have h5 := (h3.steps.crash (I := fun f => f.WF ∧ Frame (· = p) w.cur f)
          (fun f f' hi hr => ⟨(hr hi.1).1, hi.2.trans (hr hi.1).2⟩) ⟨hw, Frame.refl _⟩).1.2
        rw [h5 q hne]
        exact up q (hq.trans (List.dropLast_prefix p)) hne
  have base : Rel (Touches (Eff.only (· = p))) (removeFile p) := fun env w => (removeFile_in (E := Eff.only (· = p)) rfl env w).touches
  have base' : Rel (Touches (Eff.only (· = p))) (removeDir p) := removeDir_touches p
  cases n with
  | zero =>
    unfold removeUp
    rw [getFs_bind]
    split
    · exact base env w
    · split
      · exact base' env w
      · exact Tr.refl w
  | succ n =>
    unfold removeUp
    rw [getFs_bind]
    split
    · exact key n _ base
    · split
      · exact key n _ base'
      · exact key n _ (Rel.pure _)

/-- Files in `S` are removed, with the directories on the way that become empty. -/
def Eff.cleans (S : Path → Prop) : Eff :=
  { Eff.only S with emptied := fun q => ∃ p, S p ∧ q <+: p }

theorem Eff.cleans_le {S : Path → Prop} {E : Eff} (h : ∀ p, S p → E.files p)
    (h' : ∀ q p, S p → q <+: p → E.emptied q) : (Eff.cleans S).Le E :=
  ⟨h, fun _ h => h.elim, fun _ h => h.elim, fun _ h => h.elim, fun _ h => h.elim,
    fun q ⟨p, hp, hq⟩ => h' q p hp hq⟩

/-- The file at `p` is removed, with the directories on the way that become empty. -/
def Eff.cleaning (p : Path) : Eff :=
  ⟨(· = p), fun _ => False, fun _ => False, fun _ => False, fun _ => False, (· <+: p)⟩

theorem removeUp_within {n : Nat} {p : Path} {env : Env} {w : World} (hw : w.cur.WF)
    (hp : w.cur.get p ≠ none) : Within (Eff.cleaning p) w (removeUp n p env w).2 :=
  have h := (removeUp_touches (n := n) (env := env) hw hp).mono (E' := Eff.cleaning p)
    (Eff.only_le (fun _ h => h))
  ⟨h.1, h.2, removeUp_emptied n p env w⟩

theorem exists?_get {fs : FS} {p : Path} (h : fs.exists? p = true) : fs.get p ≠ none := by
  intro hn
  unfold FS.exists? FS.resolve at h
  rw [hn] at h
  simp at h

/-- On a well-formed tree `cleanFile` changes at most the one file. -/
theorem cleanFile_within {d : DeprecatedFile} {env : Env} {w : World} (hw : w.cur.WF) :
    Within (Eff.cleaning d.path) w (cleanFile d env w).2 := by
  unfold cleanFile
  rw [getFs_bind]
  split
  · rename_i h
    exact removeUp_within hw (exists?_get h)
  · exact Tr.refl w

theorem Within.wf {w w' : World} (h : Within E w w') (hw : w.cur.WF) : w'.cur.WF :=
  (h.steps.crash (I := FS.WF) (fun f f' hi hr => (hr hi).1) hw).1

theorem Within.frame {w w' : World} (h : Within E w w') (hw : w.cur.WF) :
    Frame E.files w.cur w'.cur :=
  (h.steps.crash (I := fun f => f.WF ∧ Frame E.files w.cur f)
    (fun f f' hi hr => ⟨(hr hi.1).1, hi.2.trans (hr hi.1).2⟩) ⟨hw, Frame.refl _⟩).1.2

theorem Within.frame_all {w w' : World} (h : Within E w w') (hw : w.cur.WF) :
    ∀ f ∈ w'.crashPoints, f ∈ w.crashPoints ∨ (f.WF ∧ Frame E.files w.cur f) := by
  have := h.steps.crash (I := fun f => f.WF ∧ Frame E.files w.cur f)
    (fun f f' hi hr => ⟨(hr hi.1).1, hi.2.trans (hr hi.1).2⟩) ⟨hw, Frame.refl _⟩
  intro f hf
  rcases List.mem_cons.1 hf with rfl | hf
  · exact Or.inr this.1
  · rcases this.2 f hf with h | h
    · exact Or.inl (List.mem_cons_of_mem _ h)
    · exact Or.inr h

/-- A relation proved for well-formed trees. -/
def RelWF (E : Eff) (m : M α) : Prop := ∀ env w, w.cur.WF → Within E w (m env w).2

theorem Rel.toWF {m : M α} (h : Rel (Within E) m) : RelWF E m := fun env w _ => h env w

theorem RelWF.bind {m : M α} {f : α → M β} (hm : RelWF E m)
    (hf : ∀ env w a w1, w.cur.WF → m env w = (.ok a, w1) → RelWF E (f a)) :
    RelWF E (m >>= f) := by
  intro env w hw
  have h0 := hm env w hw
  rcases M.bind_cases m f env w with ⟨e, w1, h1, h2⟩ | ⟨a, w1, h1, h2⟩
  · rw [h2]; rw [h1] at h0; exact h0
  · rw [h2]; rw [h1] at h0
    exact Tr.trans h0 (hf env w a w1 hw h1 env w1 (h0.wf hw))

theorem RelWF.forEach {l : List α} {f : α → M Unit} (h : ∀ a ∈ l, RelWF E (f a)) :
    RelWF E (M.forEach l f) := by
  induction l with
  | nil => exact fun _ w _ => Tr.refl w
  | cons a l ih =>
    exact RelWF.bind (h a (by simp)) (fun _ _ _ _ _ _ => ih (fun b hb => h b (by simp [hb])))

theorem RelWF.attempt {m : M α} (h : RelWF E m) : RelWF E (M.attempt m) :=
  fun env w hw => h env w hw

theorem RelWF.mono {E' : Eff} {m : M α} (h : RelWF E m) (hle : E.Le E') : RelWF E' m :=
  fun env w hw => (h env w hw).mono hle

theorem clean_in {s : RrdpState} {c : Config} (h : ∀ d ∈ s.deprecated, E.files d.path)
    (h' : ∀ d ∈ s.deprecated, ∀ q, q <+: d.path → E.emptied q) :
    RelWF E (s.clean c) := by
  unfold RrdpState.clean
  refine RelWF.bind (secondsAgo_in _).toWF (fun _ _ _ _ _ _ => ?_)
  refine RelWF.bind (RelWF.forEach (fun d hd => ?_)) (fun _ _ _ _ _ _ => (Rel.pure _).toWF)
  intro env w hw
  refine (cleanFile_within hw).mono (E := Eff.cleaning d.path) ⟨fun p hp => ?_, fun _ h => h.elim, fun _ h => h.elim,
    fun _ h => h.elim, fun _ h => h.elim, h' d (List.mem_filter.1 hd).1⟩
  have hp : p = d.path := hp
  rw [hp]; exact h d (List.mem_filter.1 hd).1

/-! ## Rsync -/

theorem fixSince_in {p : Path} (h : E.files p) (b : Bytes) : Rel (Within E) (fixSince p b) := by
  unfold fixSince
  have h1 := setMtime_in (E := E) h
  rel_auto

theorem publishObject_in {out : Path} {ih : Bool} {e : RsyncUri × Bytes}
    (h : E.files (objectPath out ih e.1)) : Rel (Within E) (publishObject out ih e) := by
  unfold publishObject
  have h1 := writeBuf_in (E := E) h e.2
  have h2 := fixSince_in (E := E) h e.2
  have h3 := createPathForFile_in (E := E) (p := objectPath out ih e.1) ⟨_, h, List.prefix_refl _⟩
  rel_auto

theorem createOutPath_writes (S : Path → Prop) (out : Path) : Writes S (createOutPath out) := by
  unfold createOutPath
  have h1 := createDirAll_writes S out
  rel_auto

theorem createOutPath_in {out : Path} (h : E.files out) : Rel (Within E) (createOutPath out) := by
  unfold createOutPath
  have h1 := createDirAll_in (E := E) ⟨out, h, List.prefix_refl _⟩
  rel_auto

theorem writeSnapshotTree_in {out : Path} {ih : Bool} {snapshot : Path}
    (h : ∀ b, ∀ e ∈ (Ext.streamSnapshot b).1, E.files (objectPath out ih e.1)) :
    Rel (Within E) (writeSnapshotTree out ih snapshot) := by
  unfold writeSnapshotTree
  refine Rel.bind (readFile_in _) (fun b => ?_)
  refine Rel.bind (Rel.forEach (fun e he => publishObject_in (h b e he))) (fun _ => ?_)
  rel_auto

theorem symlinkCurrent_in {r : RsyncRevision} {c : Config}
    (h1 : ∀ q, pathWithExtension c.rsyncCurrent "tmp".toList <+: q → E.files q)
    (h2 : ∀ q, c.rsyncCurrent <+: q → E.files q) : Rel (Within E) (symlinkCurrent r c) := by
  unfold symlinkCurrent
  have k1 := removeFile_in (E := E) (h1 _ (List.prefix_refl _))
  have k2 := symlink_in (E := E) (h1 _ (List.prefix_refl _)) r.dirName
  have k3 : Rel (Within E) (rename (pathWithExtension c.rsyncCurrent "tmp".toList)
    c.rsyncCurrent) := rename_in (fun q hq => hq.elim (h1 q) (h2 q))
  dsimp only
  rel_auto

theorem renameCurrent_in {r : RsyncRevision} {s : RsyncDirState} {c : Config}
    (h1 : ∀ old, s.current = some old → ∀ q, old.path c <+: q → E.files q)
    (h2 : ∀ q, c.rsyncCurrent <+: q → E.files q)
    (h3 : ∀ q, r.path c <+: q → E.files q) : Rel (Within E) (renameCurrent r s c) := by
  unfold renameCurrent
  have k3 : Rel (Within E) (rename (r.path c) c.rsyncCurrent) :=
    rename_in (fun q hq => hq.elim (h3 q) (h2 q))
  refine Rel.bind Rel.getFs (fun fs => ?_)
  cases hs : s.current with
  | none => exact Rel.bind (Rel.pure _) (fun _ => k3)
  | some old =>
    have k1 : Rel (Within E) (rename c.rsyncCurrent (old.path c)) :=
      rename_in (fun q hq => hq.elim (h2 q) (h1 old hs q))
    dsimp only
    rel_auto

theorem rsyncRecover_in (c : Config) : Rel (Within E) (RsyncDirState.recover c) := by
  unfold RsyncDirState.recover
  have h1 := readFile_in (E := E)
  rel_auto

theorem rsyncPersist_in {c : Config} (h : E.files c.rsyncStatePath) (s : RsyncDirState) :
    Rel (Within E) (s.persist c) := writeBuf_in h _

theorem updateCurrent_in (s : RsyncDirState) (r : RsyncRevision) :
    Rel (Within E) (s.updateCurrent r) := by
  unfold RsyncDirState.updateCurrent
  have h1 := now_in (E := E)
  rel_auto

theorem cleanRevision_in {c : Config} {d : DeprecatedRevision}
    (h : ∀ q, d.revision.path c <+: q → E.files q) : Rel (Within E) (cleanRevision c d) := by
  unfold cleanRevision
  have h1 := removeDirAll_in (E := E) h
  rel_auto

theorem cleanOld_in {s : RsyncDirState} {c : Config}
    (h : ∀ d ∈ s.old, ∀ q, d.revision.path c <+: q → E.files q) :
    Rel (Within E) (s.cleanOld c) := by
  unfold RsyncDirState.cleanOld
  refine Rel.bind (secondsAgo_in _) (fun _ => Rel.bind (Rel.forEach (fun d hd => ?_))
    (fun _ => Rel.pure _))
  exact cleanRevision_in (h d (List.mem_filter.1 hd).1)

theorem cur_tmp_path (c : Config) :
    pathWithExtension c.rsyncCurrent "tmp".toList = c.rsyncDir ++ ["current.tmp".toList] := by
  unfold pathWithExtension Config.rsyncCurrent
  rw [List.getLast?_append]
  simp
  decide

/-- Everything the rsync part does is below the rsync directory, or the state file. -/
theorem updateRsync_in {s : RrdpState} {c : Config}
    (h1 : ∀ q, c.rsyncDir <+: q → E.files q) (h2 : E.files c.rsyncStatePath)
    (h3 : ∀ snap, s.snapshot = some snap → ∀ b, ∀ e ∈ (Ext.streamSnapshot b).1,
      E.files (objectPath (RsyncRevision.path ⟨snap.session, snap.serial⟩ c)
        c.rsyncIncludeHost e.1)) :
    Rel (Within E) (updateRsync s c) := by
  have under : ∀ (r : RsyncRevision) q, r.path c <+: q → E.files q := fun r q hq =>
    h1 q ((List.prefix_append _ _).trans hq)
  have cur : ∀ q, c.rsyncCurrent <+: q → E.files q := fun q hq =>
    h1 q ((List.prefix_append _ _).trans hq)
  have tmp : ∀ q, pathWithExtension c.rsyncCurrent "tmp".toList <+: q → E.files q := by
    intro q hq
    rw [cur_tmp_path] at hq
    exact h1 q ((List.prefix_append _ _).trans hq)
  unfold updateRsync
  cases hs : s.snapshot with
  | none => exact Rel.pure _
  | some snap =>
    refine Rel.bind (rsyncRecover_in c) (fun st => ?_)
    have k1 := createOutPath_in (E := E) (under ⟨snap.session, snap.serial⟩ _ (List.prefix_refl _))
    have k2 := writeSnapshotTree_in (E := E) (snapshot := s.mappings.path snap.relPath)
      (h3 snap hs)
    have k3 := symlinkCurrent_in (E := E) (r := ⟨snap.session, snap.serial⟩) tmp cur
    have k4 := renameCurrent_in (E := E) (s := st) (r := ⟨snap.session, snap.serial⟩)
      (fun old _ => under old) cur (under _)
    have k5 := updateCurrent_in (E := E) st ⟨snap.session, snap.serial⟩
    have k6 := fun st1 => cleanOld_in (E := E) (s := st1) (c := c) (fun d _ => under d.revision)
    have k7 := rsyncPersist_in (E := E) h2
    dsimp only
    rel_auto

/-! ## Publishing -/

theorem notifyDelay_in {d : Nat} (h : ∀ x, E.slept x) : Rel (Within E) (notifyDelay d) := by
  unfold notifyDelay
  split
  · exact sleep_in h
  · exact Rel.pure' _

theorem notifyDelay_same (d : Nat) : Rel Same (notifyDelay d) := by
  unfold notifyDelay
  split
  · exact sleep_same d
  · exact Rel.pure' _

theorem notifyDelay_ok (d : Nat) (env : Env) (w : World) :
    (notifyDelay d env w).1 = .ok () := by
  unfold notifyDelay
  split <;> rfl

theorem writeNotification_in {s : RrdpState} {d : Nat} (h0 : ∀ x, E.slept x)
    (h1 : ∀ q, s.mappings.path s.source.tmpName <+: q → E.files q)
    (h2 : ∀ q, s.mappings.path s.source.name <+: q → E.files q) :
    Rel (Within E) (s.writeNotification d) := by
  unfold RrdpState.writeNotification
  have k0 := notifyDelay_in (d := d) h0
  have k1 := writeBuf_in (E := E) (h1 _ (List.prefix_refl _))
  have k2 : Rel (Within E) (rename (s.mappings.path s.source.tmpName)
      (s.mappings.path s.source.name)) := rename_in (fun q hq => hq.elim (h1 q) (h2 q))
  dsimp only
  rel_auto

theorem persist_in {p : Path} (h : E.files p) (s : RrdpState) : Rel (Within E) (s.persist p) :=
  writeBuf_in h _

theorem recover_in (p : Path) : Rel (Within E) (RrdpState.recover p) := by
  unfold RrdpState.recover
  have h1 := readFile_in (E := E) p
  rel_auto

theorem loadState_in (c : Config) : Rel (Within E) (loadState c) := by
  unfold loadState
  have h1 := recover_in (E := E) c.rrdpStatePath
  rel_auto

end KSync
