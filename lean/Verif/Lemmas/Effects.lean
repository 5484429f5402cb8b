import Verif.Lemmas.Dirs

/-!
# Effects of the functions of krill-sync

`Within E`: everything a run does to the world stays within the effect `E` - which files
it may change, which requests it may send, which scripts it may run, which files it may
fill by copying, which directories it may remove when they are empty.
-/

set_option linter.unusedSectionVars false
set_option linter.unusedSimpArgs false
set_option linter.unusedVariables false

namespace KSync

/-- Bounds on what a computation does. -/
structure Eff where
  files : Path → Prop
  reqs : Req → Prop
  ran : Path → Prop
  copied : Path → Prop
  slept : Nat × List FS → Prop
  emptied : Path → Prop

/-- The new entries of a log satisfy `P`. -/
def LogIn (P : α → Prop) (l l' : List α) : Prop := ∃ d, l' = d ++ l ∧ ∀ x ∈ d, P x

theorem LogIn.refl {P : α → Prop} (l : List α) : LogIn P l l := ⟨[], rfl, by simp⟩

theorem LogIn.trans {P : α → Prop} {a b c : List α} (h : LogIn P a b) (h' : LogIn P b c) :
    LogIn P a c := by
  obtain ⟨d, rfl, hd⟩ := h
  obtain ⟨e, rfl, he⟩ := h'
  refine ⟨e ++ d, by simp, fun x hx => ?_⟩
  rcases List.mem_append.1 hx with hx | hx
  · exact he x hx
  · exact hd x hx

theorem LogIn.mono {P Q : α → Prop} (h : ∀ x, P x → Q x) {l l' : List α} (hl : LogIn P l l') :
    LogIn Q l l' := by
  obtain ⟨d, rfl, hd⟩ := hl
  exact ⟨d, rfl, fun x hx => h x (hd x hx)⟩

theorem LogIn.eq_of_false {l l' : List α} (h : LogIn (fun _ => False) l l') : l' = l := by
  obtain ⟨d, rfl, hd⟩ := h
  cases d with
  | nil => rfl
  | cons a d => exact absurd (hd a (by simp)) id

/-- A log that ends empty was empty and nothing was added. -/
theorem LogIn.nil_left {P : α → Prop} {l : List α} (h : LogIn P l []) : l = [] := by
  obtain ⟨d, h1, _⟩ := h
  exact (List.append_eq_nil_iff.1 h1.symm).2

/-- Changes of a well-formed tree within `S`, keeping it well-formed. -/
def Change (S : Path → Prop) (f f' : FS) : Prop := f.WF → f'.WF ∧ Frame S f f'

theorem Change.mono {S S' : Path → Prop} (h : ∀ p, S p → S' p) {f f' : FS}
    (hc : Change S f f') : Change S' f f' := fun hw => ⟨(hc hw).1, (hc hw).2.mono h⟩

structure Logs (E : Eff) (w w' : World) : Prop where
  reqs : LogIn E.reqs w.reqs w'.reqs
  ran : LogIn E.ran w.ran w'.ran
  copied : LogIn E.copied w.copied w'.copied
  tick : w.tick ≤ w'.tick
  slept : LogIn E.slept w.slept w'.slept

instance (E : Eff) : Tr (Logs E) :=
  ⟨fun _ => ⟨.refl _, .refl _, .refl _, Nat.le_refl _, .refl _⟩,
   fun h h' => ⟨h.1.trans h'.1, h.2.trans h'.2, h.3.trans h'.3, Nat.le_trans h.4 h'.4,
     h.5.trans h'.5⟩⟩

/-- Files and logs. -/
structure Touches (E : Eff) (w w' : World) : Prop where
  steps : Steps (Change E.files) w w'
  logs : Logs E w w'

instance (E : Eff) : Tr (Touches E) :=
  ⟨fun _ => ⟨.refl, Tr.refl _⟩, fun h h' => ⟨h.1.trans h'.1, Tr.trans h.2 h'.2⟩⟩

structure Within (E : Eff) (w w' : World) : Prop where
  steps : Steps (Change E.files) w w'
  logs : Logs E w w'
  dirs : Steps (DirFrame E.files E.emptied) w w'

instance (E : Eff) : Tr (Within E) :=
  ⟨fun _ => ⟨.refl, Tr.refl _, .refl⟩,
    fun h h' => ⟨h.1.trans h'.1, Tr.trans h.2 h'.2, h.3.trans h'.3⟩⟩

/-- `E ≤ E'`: the second allows more. -/
structure Eff.Le (E E' : Eff) : Prop where
  files : ∀ p, E.files p → E'.files p
  reqs : ∀ r, E.reqs r → E'.reqs r
  ran : ∀ p, E.ran p → E'.ran p
  copied : ∀ p, E.copied p → E'.copied p
  slept : ∀ x, E.slept x → E'.slept x
  emptied : ∀ p, E.emptied p → E'.emptied p

theorem Logs.mono {E E' : Eff} (h : E.Le E') {w w' : World} (hl : Logs E w w') :
    Logs E' w w' := ⟨hl.1.mono h.2, hl.2.mono h.3, hl.3.mono h.4, hl.4, hl.5.mono h.5⟩

theorem Touches.mono {E E' : Eff} (h : E.Le E') {w w' : World} (hl : Touches E w w') :
    Touches E' w w' := ⟨hl.1.mono (fun _ _ => Change.mono h.1), hl.2.mono h⟩

theorem Within.mono {E E' : Eff} (h : E.Le E') {w w' : World} (hl : Within E w w') :
    Within E' w w' :=
  ⟨hl.1.mono (fun _ _ => Change.mono h.1), hl.2.mono h,
    hl.3.mono (fun _ _ => DirFrame.mono h.files h.emptied)⟩

theorem Within.touches {E : Eff} {w w' : World} (h : Within E w w') : Touches E w w' := ⟨h.1, h.2⟩

theorem Rel.within_mono {E E' : Eff} {m : M α} (hm : Rel (Within E) m) (h : E.Le E') :
    Rel (Within E') m := fun env w => (hm env w).mono h

/-- Any effect. -/
def anyEff : Eff :=
  ⟨fun _ => True, fun _ => True, fun _ => True, fun _ => True, fun _ => True, fun _ => True⟩

/-- Any effect but changes of files. -/
def noFilesEff : Eff :=
  ⟨fun _ => False, fun _ => True, fun _ => True, fun _ => True, fun _ => True, fun _ => True⟩

/-- Only file changes in `S`. -/
def Eff.only (S : Path → Prop) : Eff :=
  ⟨S, fun _ => False, fun _ => False, fun _ => False, fun _ => False, fun _ => False⟩

/-- No effect but time passing. -/
def Eff.none : Eff := Eff.only (fun _ => False)

theorem Eff.only_le {S : Path → Prop} {E : Eff} (h : ∀ p, S p → E.files p) :
    (Eff.only S).Le E :=
  ⟨h, fun _ h => h.elim, fun _ h => h.elim, fun _ h => h.elim, fun _ h => h.elim, fun _ h => h.elim⟩

theorem Eff.none_le {E : Eff} : Eff.none.Le E := Eff.only_le (fun _ h => h.elim)

theorem Rel.within_of {E : Eff} {m : M α} (hf : Writes E.files m) (hw : Does KeepsWF m)
    (hl : Rel (Logs E) m) (hd : Does (DirFrame E.files E.emptied) m) : Rel (Within E) m := fun env w =>
  ⟨((hf env w).and (hw env w)).mono (fun _ _ h hwf => ⟨h.2 hwf, h.1⟩), hl env w, hd env w⟩

theorem Rel.within_quiet {E : Eff} {m : M α} (hf : Rel Same m) (hl : Rel (Logs E) m) :
    Rel (Within E) m := fun env w => ⟨(hf env w).steps, hl env w, (hf env w).steps⟩

/-! ## Primitives -/

section Prim
variable {E : Eff}

theorem io_logs : Rel (Logs E) io := by
  intro env w
  by_cases h : env.fault w.tick <;>
    simp only [io, h, if_true, if_false, Bool.false_eq_true] <;>
    exact ⟨.refl _, .refl _, .refl _, by simp, .refl _⟩

theorem tick_logs : Rel (Logs E) tick :=
  fun _ w => ⟨.refl _, .refl _, .refl _, by simp [tick], .refl _⟩
theorem push_logs (fs : FS) : Rel (Logs E) (push fs) :=
  fun _ w => ⟨.refl _, .refl _, .refl _, by simp, .refl _⟩
theorem pushAll_logs (l : List FS) : Rel (Logs E) (pushAll l) := by
  induction l with
  | nil => exact Rel.pure' _
  | cons a l ih => exact Rel.bind' (push_logs a) (fun _ => ih)
theorem now_logs : Rel (Logs E) now := fun _ w => ⟨.refl _, .refl _, .refl _, by simp, .refl _⟩
theorem secondsAgo_logs (s : Int) : Rel (Logs E) (secondsAgo s) :=
  fun _ w => ⟨.refl _, .refl _, .refl _, by simp, .refl _⟩
theorem logReq_logs {r : Req} (h : E.reqs r) : Rel (Logs E) (logReq r) :=
  fun _ w => ⟨⟨[r], rfl, by simpa using h⟩, .refl _, .refl _, by simp [logReq], .refl _⟩
theorem logRan_logs {p : Path} (h : E.ran p) : Rel (Logs E) (logRan p) :=
  fun _ w => ⟨.refl _, ⟨[p], rfl, by simpa using h⟩, .refl _, by simp [logRan], .refl _⟩
theorem logCopy_logs {p : Path} (h : E.copied p) : Rel (Logs E) (logCopy p) :=
  fun _ w => ⟨.refl _, .refl _, ⟨[p], rfl, by simpa using h⟩, by simp [logCopy], .refl _⟩

theorem readFile_logs (p : Path) : Rel (Logs E) (readFile p) := by
  unfold readFile
  have := io_logs (E := E)
  rel_auto

theorem mkdir1_logs (p : Path) : Rel (Logs E) (mkdir1 p) := by
  unfold mkdir1
  have h1 := io_logs (E := E)
  have h2 := push_logs (E := E)
  rel_auto

theorem createDirAll_logs (p : Path) : Rel (Logs E) (createDirAll p) :=
  Rel.forEach (fun q _ => mkdir1_logs q)

theorem createPathForFile_logs (p : Path) : Rel (Logs E) (createPathForFile p) := by
  unfold createPathForFile
  have := createDirAll_logs (E := E) p.dropLast
  rel_auto

theorem fileCreate_logs (p : Path) : Rel (Logs E) (fileCreate p) := by
  unfold fileCreate
  have h1 := io_logs (E := E)
  have h2 := push_logs (E := E)
  rel_auto

theorem writeAll_logs (p : Path) (b : Bytes) : Rel (Logs E) (writeAll p b) := by
  unfold writeAll
  have h1 := tick_logs (E := E)
  have h2 := pushAll_logs (E := E)
  rel_auto

theorem writeBuf_logs (p : Path) (b : Bytes) : Rel (Logs E) (writeBuf p b) := by
  unfold writeBuf createFile
  have h1 := createPathForFile_logs (E := E) p
  have h2 := fileCreate_logs (E := E) p
  have h3 := writeAll_logs (E := E) p b
  rel_auto

theorem removeFile_logs (p : Path) : Rel (Logs E) (removeFile p) := by
  unfold removeFile
  have h1 := io_logs (E := E)
  have h2 := push_logs (E := E)
  rel_auto

theorem removeDir_logs (p : Path) : Rel (Logs E) (removeDir p) := by
  unfold removeDir
  have h1 := io_logs (E := E)
  have h2 := push_logs (E := E)
  rel_auto

theorem rename_logs (a b : Path) : Rel (Logs E) (rename a b) := by
  unfold rename
  have h1 := io_logs (E := E)
  have h2 := push_logs (E := E)
  rel_auto

theorem copyFile_logs {a b : Path} (h : E.copied b) : Rel (Logs E) (copyFile a b) := by
  unfold copyFile
  have h1 := logCopy_logs (E := E) h
  have h2 := readFile_logs (E := E)
  have h3 := fileCreate_logs (E := E)
  have h4 := writeAll_logs (E := E)
  rel_auto

theorem symlink_logs (t : Name) (p : Path) : Rel (Logs E) (symlink t p) := by
  unfold symlink
  have h1 := io_logs (E := E)
  have h2 := push_logs (E := E)
  rel_auto

theorem setMtime_logs (p : Path) (t : Time) : Rel (Logs E) (setMtime p t) := by
  unfold setMtime
  have h1 := io_logs (E := E)
  have h2 := push_logs (E := E)
  rel_auto

theorem unlink1_logs (p : Path) : Rel (Logs E) (unlink1 p) := by
  unfold unlink1
  have h1 := io_logs (E := E)
  have h2 := push_logs (E := E)
  rel_auto

theorem removeDirAll_logs (p : Path) : Rel (Logs E) (removeDirAll p) := by
  unfold removeDirAll
  have h1 := tick_logs (E := E)
  refine Rel.bind Rel.getFs (fun _ => ?_)
  split
  · refine Rel.bind h1 (fun _ => Rel.bind Rel.askEnv (fun _ => ?_))
    exact Rel.forEach (fun q _ => unlink1_logs q)
  · exact Rel.throw _

theorem removeUp_logs (n : Nat) (p : Path) : Rel (Logs E) (removeUp n p) := by
  induction n generalizing p with
  | zero =>
    unfold removeUp
    have h1 := removeFile_logs (E := E) p
    have h2 := removeDir_logs (E := E) p
    rel_auto
  | succ n ih =>
    unfold removeUp
    have h1 := removeFile_logs (E := E) p
    have h2 := removeDir_logs (E := E) p
    have h3 := ih p.dropLast
    rel_auto

/-! ### As effects -/

theorem now_in : Rel (Within E) now := Rel.within_quiet now_same now_logs
theorem sleep_in {d : Nat} (h : ∀ x, E.slept x) : Rel (Within E) (sleep d) :=
  Rel.within_quiet (sleep_same d)
    (fun _ w => ⟨.refl _, .refl _, .refl _, by simp [sleep], ⟨[(d, w.crashPoints)], rfl, fun x _ => h x⟩⟩)
theorem tick_in : Rel (Within E) tick := Rel.within_quiet tick_same tick_logs
theorem secondsAgo_in (s : Int) : Rel (Within E) (secondsAgo s) :=
  Rel.within_quiet (secondsAgo_same s) (secondsAgo_logs s)
theorem readFile_in (p : Path) : Rel (Within E) (readFile p) :=
  Rel.within_quiet (readFile_same p) (readFile_logs p)
theorem httpGet_in {r : Req} (h : E.reqs r) : Rel (Within E) (httpGet r) := by
  refine Rel.within_quiet (httpGet_same r) ?_
  unfold httpGet
  have h1 := tick_logs (E := E)
  have h2 := logReq_logs (E := E) h
  rel_auto
theorem runScript_in {p : Path} (h : E.ran p) : Rel (Within E) (runScript p) := by
  refine Rel.within_quiet (runScript_same p) ?_
  unfold runScript
  have h1 := tick_logs (E := E)
  have h2 := logRan_logs (E := E) h
  rel_auto
theorem createDirAll_in {p : Path} (h : ∃ x, E.files x ∧ p <+: x) : Rel (Within E) (createDirAll p) :=
  Rel.within_of (createDirAll_writes _ p) (createDirAll_wf p) (createDirAll_logs p)
    (createDirAll_dirs h)
theorem createPathForFile_in {p : Path} (h : ∃ x, E.files x ∧ p <+: x) :
    Rel (Within E) (createPathForFile p) :=
  Rel.within_of (createPathForFile_writes _ p) (createPathForFile_wf p) (createPathForFile_logs p)
    (createPathForFile_dirs h)
theorem writeBuf_in {p : Path} (h : E.files p) (b : Bytes) : Rel (Within E) (writeBuf p b) :=
  Rel.within_of ((writeBuf_writes p b).mono (fun q hq => hq ▸ h)) (writeBuf_wf p b)
    (writeBuf_logs p b) (writeBuf_dirs h b)
theorem removeFile_in {p : Path} (h : E.files p) : Rel (Within E) (removeFile p) :=
  Rel.within_of ((removeFile_writes p).mono (fun q hq => hq ▸ h)) (removeFile_wf p)
    (removeFile_logs p) (removeFile_dirs h)
theorem removeDir_in {p : Path} (h : ∃ x, E.files x ∧ p <+: x) (h' : E.emptied p) :
    Rel (Within E) (removeDir p) :=
  Rel.within_of (removeDir_writes _ p) (removeDir_wf p) (removeDir_logs p) (removeDir_dirs h h')
theorem removeDir_touches (p : Path) : Rel (Touches E) (removeDir p) := fun env w =>
  ⟨((removeDir_writes _ p env w).and (removeDir_wf p env w)).mono (fun _ _ h hwf => ⟨h.2 hwf, h.1⟩),
    removeDir_logs p env w⟩
theorem rename_in {a b : Path} (h : ∀ q, a <+: q ∨ b <+: q → E.files q) :
    Rel (Within E) (rename a b) :=
  Rel.within_of ((rename_writes a b).mono h) (rename_wf a b) (rename_logs a b) (rename_dirs h)
theorem copyFile_in {a b : Path} (h : E.files b) (h' : E.copied b) :
    Rel (Within E) (copyFile a b) :=
  Rel.within_of ((copyFile_writes a b).mono (fun q hq => hq ▸ h)) (copyFile_wf a b)
    (copyFile_logs h') (copyFile_dirs h)
theorem symlink_in {p : Path} (h : E.files p) (t : Name) : Rel (Within E) (symlink t p) :=
  Rel.within_of ((symlink_writes t p).mono (fun q hq => hq ▸ h)) (symlink_wf t p)
    (symlink_logs t p) (symlink_dirs h t)
theorem setMtime_in {p : Path} (h : E.files p) (t : Time) : Rel (Within E) (setMtime p t) :=
  Rel.within_of ((setMtime_writes p t).mono (fun q hq => hq ▸ h)) (setMtime_wf p t)
    (setMtime_logs p t) (setMtime_dirs h t)
theorem removeDirAll_in {p : Path} (h : ∀ q, p <+: q → E.files q) :
    Rel (Within E) (removeDirAll p) :=
  Rel.within_of ((removeDirAll_writes p).mono h) (removeDirAll_wf p) (removeDirAll_logs p)
    (removeDirAll_dirs h)

theorem moveFile_in {a b : Path} {r : Str}
    (h : ∀ q, joinPath a r <+: q ∨ joinPath b r <+: q → E.files q)
    (h' : E.copied (joinPath b r)) : Rel (Within E) (moveFile a b r) := by
  unfold moveFile
  have h1 := createPathForFile_in (E := E) ⟨_, h _ (Or.inr (List.prefix_refl (joinPath b r))), List.prefix_refl _⟩
  have h2 := rename_in (E := E) h
  have h3 := copyFile_in (E := E) (a := joinPath a r) (h _ (Or.inr (List.prefix_refl _))) h'
  have h4 := removeFile_in (E := E) (h _ (Or.inl (List.prefix_refl _)))
  rel_auto

end Prim

/-! ## Fetching -/

section Fetch
variable {E : Eff} [Ext]

/-- The request a source leads to. -/
def FetchSource.Asks (src : FetchSource) (etag : Option Str) (r : Req) : Prop :=
  match src with
  | .uri u m => r = ⟨u, m, etag⟩
  | .file _ => False

theorem raw_in {src : FetchSource} {etag : Option Str} (h : ∀ r, src.Asks etag r → E.reqs r) :
    Rel (Within E) (src.raw etag) := by
  unfold FetchSource.raw
  cases src with
  | uri u m =>
    have h1 := httpGet_in (E := E) (h ⟨u, m, etag⟩ rfl)
    rel_auto
  | file p =>
    have h1 := readFile_in (E := E) p
    rel_auto

theorem fetch_in {src : FetchSource} {hash : Option Hash} {etag : Option Str}
    {target : Option Path} (h : ∀ r, src.Asks etag r → E.reqs r)
    (ht : ∀ t, target = some t → E.files t) :
    Rel (Within E) (src.fetch hash etag target) := by
  unfold FetchSource.fetch
  have h1 := raw_in (E := E) h
  cases target with
  | none => rel_auto
  | some t =>
    have h2 := writeBuf_in (E := E) (ht t rfl)
    rel_auto

theorem tryIntoData_in (r : FetchResponse) : Rel (Within E) r.tryIntoData := by
  unfold FetchResponse.tryIntoData
  split
  · exact Rel.pure _
  · exact Rel.throw _

/-- The requests a fetcher makes for one URI. -/
def Fetcher.Asks (f : Fetcher) (uri : Str) (etag : Option Str) (r : Req) : Prop :=
  ∃ src, f.resolve uri = .ok src ∧ src.Asks etag r

theorem bind_lift_in {r : Except Err α} {f : α → M β} {T : World → World → Prop} [Tr T]
    (h : ∀ a, r = .ok a → Rel T (f a)) : Rel T (M.lift r >>= f) := by
  cases r with
  | error e => exact fun _ w => Tr.refl w
  | ok a => exact fun env w => h a rfl env w

theorem readNotification_in {f : Fetcher} {etag : Option Str}
    (h : ∀ r, f.Asks f.notificationUri etag r → E.reqs r) :
    Rel (Within E) (f.readNotification etag) := by
  unfold Fetcher.readNotification
  refine bind_lift_in (fun src hs => ?_)
  have h1 := fetch_in (E := E) (src := src) (hash := none) (etag := etag) (target := none)
    (fun r hr => h r ⟨src, hs, hr⟩) (by simp)
  rel_auto

theorem retrieve_in {f : Fetcher} {uri : Str} {hash : Hash} {target : Path}
    (h : ∀ r, f.Asks uri none r → E.reqs r) (ht : E.files target) :
    Rel (Within E) (f.retrieve uri hash target) := by
  unfold Fetcher.retrieve
  split
  case isFalse =>
    unfold Fetcher.retrieveNowhere
    refine bind_lift_in (fun src hs => ?_)
    have h1 := fetch_in (E := E) (src := src) (hash := some hash) (etag := none) (target := none)
      (fun r hr => h r ⟨src, hs, hr⟩) (by rintro t ⟨⟩)
    have h2 := createPathForFile_in (E := E) (p := target) ⟨target, ht, List.prefix_refl _⟩
    rel_auto
  unfold Fetcher.retrieveTo
  have h1 := readFile_in (E := E) target
  have h2 : Rel (Within E) (M.lift (f.resolve uri) >>= fun src =>
      src.fetch (some hash) none (some target) >>= fun _ => pure ()) := by
    refine bind_lift_in (fun src hs => ?_)
    have := fetch_in (E := E) (src := src) (hash := some hash) (etag := none)
      (target := some target) (fun r hr => h r ⟨src, hs, hr⟩) (by rintro t ⟨⟩; exact ht)
    rel_auto
  rel_auto

theorem readBytes_in {f : Fetcher} {uri : Str} {hash : Hash}
    (h : ∀ r, f.Asks uri none r → E.reqs r) : Rel (Within E) (readBytes f uri hash) := by
  unfold readBytes
  refine bind_lift_in (fun src hs => ?_)
  have h1 := fetch_in (E := E) (src := src) (hash := some hash) (etag := none)
    (target := none) (fun r hr => h r ⟨src, hs, hr⟩) (by simp)
  have h2 := tryIntoData_in (E := E)
  rel_auto

end Fetch

/-! ## Staging -/

section Staging
variable {E : Eff} [Ext]

theorem snapshotStage_in {s : RrdpState} {n : Notif} {f : Fetcher} {c : Config}
    (h : ∀ r, f.Asks n.snapUri none r → E.reqs r)
    (hf : ∀ rel, s.mappings.relative n.snapUri = .ok rel → E.files (c.stagingPath rel)) :
    Rel (Within E) (s.snapshotStage n f c) := by
  unfold RrdpState.snapshotStage
  refine bind_lift_in (fun rel hrel => ?_)
  have h1 := retrieve_in (E := E) (hash := n.snapHash) h (hf rel hrel)
  have h2 := now_in (E := E)
  rel_auto

theorem deltasStage_in {s : RrdpState} {reset : Bool} {f : Fetcher} {c : Config}
    {ds : List DeltaInfo} (h : ∀ d ∈ ds, ∀ r, f.Asks d.uri none r → E.reqs r)
    (hf : ∀ d ∈ ds, ∀ rel, s.mappings.relative d.uri = .ok rel → E.files (c.stagingPath rel)) :
    Rel (Within E) (s.deltasStage reset f c ds) := by
  induction ds with
  | nil => exact Rel.pure _
  | cons d ds ih =>
    have ih' := ih (fun d hd => h d (by simp [hd])) (fun d hd => hf d (by simp [hd]))
    unfold RrdpState.deltasStage
    split
    · refine bind_lift_in (fun rel hrel => ?_)
      have h1 := retrieve_in (E := E) (hash := d.hash) (h d (by simp)) (hf d (by simp) rel hrel)
      have h2 := now_in (E := E)
      rel_auto
    · exact ih'

end Staging

end KSync
