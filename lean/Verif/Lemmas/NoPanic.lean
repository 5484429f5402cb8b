import Verif.Lemmas.Paths
import Verif.Model.Process
import Verif.Model.Config

/-!
# Which computations do not panic

`Calm m` says that `m` never ends with a panic, whatever the environment and the world are.
-/

set_option linter.unusedSectionVars false

namespace KSync

variable [Ext]

/-- The computation never ends with a panic. -/
def Calm (m : M α) : Prop := ∀ env w, (m env w).1 ≠ .error .panic

namespace Calm

theorem pure (a : α) : Calm (M.pure a) := fun _ _ h => by cases h

theorem pure' (a : α) : Calm (Pure.pure a : M α) := pure a

theorem throw {e : Err} (h : e ≠ .panic) : Calm (M.throw e : M α) := by
  intro env w h'
  injection h' with h'
  exact h h'

theorem bind {m : M α} {f : α → M β} (hm : Calm m) (hf : ∀ a, Calm (f a)) :
    Calm (M.bind m f) := by
  intro env w h
  simp only [M.bind] at h
  have h1 := hm env w
  match hc : m env w with
  | (.ok a, w') =>
    simp only [hc] at h
    exact hf a env w' h
  | (.error e, w') =>
    simp only [hc] at h h1
    exact h1 (by injection h with h; rw [h])

theorem bind' {m : M α} {f : α → M β} (hm : Calm m) (hf : ∀ a, Calm (f a)) :
    Calm (m >>= f) := bind hm hf

/-- Binding, when the rest is calm on the results that can arise. -/
theorem bindOn {m : M α} {f : α → M β} (P : α → Prop) (hm : Calm m)
    (hp : ∀ env w a w', m env w = (.ok a, w') → P a) (hf : ∀ a, P a → Calm (f a)) :
    Calm (m >>= f) := by
  intro env w h
  have e : (m >>= f) = M.bind m f := rfl
  simp only [e, M.bind] at h
  have h1 := hm env w
  match hc : m env w with
  | (.ok a, w') =>
    simp only [hc] at h
    exact hf a (hp _ _ _ _ hc) env w' h
  | (.error e, w') =>
    simp only [hc] at h h1
    exact h1 (by injection h with h; rw [h])

theorem attempt (m : M α) : Calm (M.attempt m) := fun _ _ h => by
  simp only [M.attempt] at h
  cases h

theorem orThrow {e : Err} (h : e ≠ .panic) (o : Option α) : Calm (M.orThrow e o) := by
  cases o
  · exact throw h
  · exact pure _

theorem lift {r : Except Err α} (h : r ≠ .error .panic) : Calm (M.lift r) := by
  cases r with
  | ok a => exact pure _
  | error e => exact throw (fun he => h (by rw [he]))

theorem forEach {f : α → M Unit} (h : ∀ a, Calm (f a)) : (l : List α) → Calm (M.forEach l f)
  | [] => pure _
  | a :: l => bind (h a) (fun _ => forEach h l)

theorem getFs : Calm getFs := fun _ _ h => by cases h
theorem askEnv : Calm askEnv := fun _ _ h => by cases h
theorem logReq (r : Req) : Calm (logReq r) := fun _ _ h => by cases h
theorem logRan (p : Path) : Calm (logRan p) := fun _ _ h => by cases h
theorem logCopy (p : Path) : Calm (logCopy p) := fun _ _ h => by cases h
theorem sleep (n : Nat) : Calm (sleep n) := fun _ _ h => by cases h
theorem push (fs : FS) : Calm (push fs) := fun _ _ h => by cases h
theorem tick : Calm tick := fun _ _ h => by cases h

theorem io : Calm io := fun env w h => by
  unfold KSync.io at h
  dsimp only at h
  split at h <;> cases h

end Calm

/-- One step in a proof that a computation is calm. -/
syntax "calm_step" : tactic
macro_rules | `(tactic| calm_step) => `(tactic| split)
macro_rules | `(tactic| calm_step) => `(tactic| with_reducible exact Calm.pure _)
macro_rules | `(tactic| calm_step) => `(tactic| with_reducible exact Calm.pure' _)
macro_rules | `(tactic| calm_step) => `(tactic| with_reducible exact Calm.throw (by decide))
macro_rules | `(tactic| calm_step) => `(tactic| with_reducible exact Calm.getFs)
macro_rules | `(tactic| calm_step) => `(tactic| with_reducible exact Calm.askEnv)
macro_rules | `(tactic| calm_step) => `(tactic| with_reducible exact Calm.tick)
macro_rules | `(tactic| calm_step) => `(tactic| with_reducible exact Calm.io)
macro_rules | `(tactic| calm_step) => `(tactic| with_reducible exact Calm.push _)
macro_rules | `(tactic| calm_step) => `(tactic| with_reducible exact Calm.logReq _)
macro_rules | `(tactic| calm_step) => `(tactic| with_reducible exact Calm.logRan _)
macro_rules | `(tactic| calm_step) => `(tactic| with_reducible exact Calm.logCopy _)
macro_rules | `(tactic| calm_step) => `(tactic| with_reducible exact Calm.orThrow (by decide) _)
macro_rules | `(tactic| calm_step) => `(tactic| with_reducible exact Calm.attempt _)
macro_rules | `(tactic| calm_step) => `(tactic| with_reducible refine Calm.forEach (fun _ => ?_) _)
macro_rules | `(tactic| calm_step) => `(tactic| with_reducible refine Calm.bind ?_ (fun _ => ?_))
macro_rules | `(tactic| calm_step) => `(tactic| with_reducible refine Calm.bind' ?_ (fun _ => ?_))
macro_rules | `(tactic| calm_step) => `(tactic| with_reducible solve_by_elim)

/-- Prove a `Calm` goal by following the structure of the program. -/
macro "calm_auto" : tactic => `(tactic| repeat' calm_step)

/-! ## Operations on files -/

theorem pushAll_calm : (l : List FS) → Calm (pushAll l)
  | [] => Calm.pure _
  | f :: l => Calm.bind (Calm.push f) (fun _ => pushAll_calm l)

theorem now_calm : Calm now := by unfold now; calm_auto
theorem secondsAgo_calm (s : Int) : Calm (secondsAgo s) := by
  have h := now_calm
  unfold secondsAgo; calm_auto
theorem httpGet_calm (r : Req) : Calm (httpGet r) := by unfold httpGet; calm_auto
theorem runScript_calm (p : Path) : Calm (runScript p) := by unfold runScript; calm_auto
theorem mkdir1_calm (p : Path) : Calm (mkdir1 p) := by unfold mkdir1; calm_auto
theorem createDirAll_calm (p : Path) : Calm (createDirAll p) := by
  have h := mkdir1_calm
  unfold createDirAll; calm_auto
theorem fileCreate_calm (p : Path) : Calm (fileCreate p) := by unfold fileCreate; calm_auto
theorem writeAll_calm (p : Path) (b : Bytes) : Calm (writeAll p b) := by
  have h := pushAll_calm
  unfold writeAll; calm_auto
theorem readFile_calm (p : Path) : Calm (readFile p) := by unfold readFile; calm_auto
theorem removeFile_calm (p : Path) : Calm (removeFile p) := by unfold removeFile; calm_auto
theorem removeDir_calm (p : Path) : Calm (removeDir p) := by unfold removeDir; calm_auto
theorem rename_calm (p q : Path) : Calm (rename p q) := by unfold rename; calm_auto
theorem copyFile_calm (p q : Path) : Calm (copyFile p q) := by
  have h := readFile_calm
  have h' := fileCreate_calm
  have h'' := writeAll_calm
  unfold copyFile; calm_auto
theorem symlink_calm (n : Name) (p : Path) : Calm (symlink n p) := by unfold symlink; calm_auto
theorem unlink1_calm (p : Path) : Calm (unlink1 p) := by unfold unlink1; calm_auto
theorem removeDirAll_calm (p : Path) : Calm (removeDirAll p) := by
  have h := unlink1_calm
  unfold removeDirAll; calm_auto
theorem createPathForFile_calm (p : Path) : Calm (createPathForFile p) := by
  have h := createDirAll_calm
  unfold createPathForFile; calm_auto
theorem writeBuf_calm (p : Path) (b : Bytes) : Calm (writeBuf p b) := by
  have h := createPathForFile_calm
  have h' := fileCreate_calm
  have h'' := writeAll_calm
  unfold writeBuf createFile; calm_auto
theorem moveFile_calm (s t : Path) (r : Str) : Calm (moveFile s t r) := by
  have h := createPathForFile_calm
  have h' := copyFile_calm
  have h'' := removeFile_calm
  unfold moveFile; calm_auto
theorem removeUp_calm : (n : Nat) → (p : Path) → Calm (removeUp n p)
  | 0, p => by
    have h' := removeDir_calm
    have h'' := removeFile_calm
    unfold removeUp; calm_auto
  | n + 1, p => by
    have h' := removeDir_calm
    have h'' := removeFile_calm
    unfold removeUp; calm_auto

/-! ## Fetching -/

theorem raw_calm (src : FetchSource) (etag : Option Str) : Calm (src.raw etag) := by
  have h := httpGet_calm
  have h' := readFile_calm
  unfold FetchSource.raw; calm_auto

theorem fetch_calm (src : FetchSource) (h : Option Hash) (etag : Option Str) (t : Option Path) :
    Calm (src.fetch h etag t) := by
  have h := raw_calm
  have h' := writeBuf_calm
  unfold FetchSource.fetch; calm_auto

theorem tryIntoData_calm (r : FetchResponse) : Calm r.tryIntoData := by
  unfold FetchResponse.tryIntoData; calm_auto

/-- The request itself does not save anything. -/
theorem raw_not_saved {src : FetchSource} {etag : Option Str} {env : Env} {w w' : World}
    {r : FetchResponse} (h : src.raw etag env w = (.ok r, w')) : r ≠ .saved := by
  rintro rfl
  unfold FetchSource.raw at h
  split at h
  · simp only [bind, M.bind] at h
    split at h
    · split at h
      all_goals first
        | (cases h; done)
        | (repeat' split at h
           all_goals cases h)
    · cases h
  · simp only [bind, M.bind] at h
    split at h
    · cases h
    · cases h

/-- Fetching without a target does not say that something was saved. -/
theorem fetch_not_saved {src : FetchSource} {hash : Option Hash} {etag : Option Str} {env : Env}
    {w w' : World} {r : FetchResponse} (h : src.fetch hash etag none env w = (.ok r, w')) :
    r ≠ .saved := by
  rintro rfl
  unfold FetchSource.fetch at h
  simp only [bind, M.bind] at h
  split at h
  · rename_i resp w1 hr
    have h1 := raw_not_saved hr
    cases resp with
    | data b e =>
      dsimp only at h
      cases hash with
      | none => dsimp only at h; cases h
      | some k =>
        dsimp only at h
        split at h
        · cases h
        · cases h
    | unmodified => cases h
    | saved => exact h1 rfl
  · cases h

theorem resolve_calm (f : Fetcher) (u : Str) : f.resolve u ≠ .error .panic := by
  unfold Fetcher.resolve
  split
  · intro h; cases h
  · unfold FetchMap.source
    split <;> intro h <;> cases h

theorem readNotification_calm (f : Fetcher) (etag : Option Str) :
    Calm (f.readNotification etag) := by
  unfold Fetcher.readNotification
  refine Calm.bind' (Calm.lift (resolve_calm f _)) (fun src => ?_)
  refine Calm.bindOn (· ≠ .saved) (fetch_calm _ _ _ _) (fun _ _ _ _ h => fetch_not_saved h)
    (fun r hr => ?_)
  split
  · calm_auto
  · calm_auto
  · exact absurd rfl hr

theorem retrieve_calm (f : Fetcher) (u : Str) (h : Hash) (t : Path) : Calm (f.retrieve u h t) := by
  have h' := fetch_calm
  have h'' := Calm.lift (resolve_calm f u)
  have h3 := createPathForFile_calm t
  unfold Fetcher.retrieve Fetcher.retrieveTo Fetcher.retrieveNowhere
  dsimp only
  calm_auto

/-! ## The validator -/

theorem sortVerify_calm {limit : Option Nat} (h : limit = some 0 → Ext.zeroLimit ≠ .panic)
    (ds : List DeltaInfo) : sortVerify limit ds ≠ .error .panic := by
  unfold sortVerify
  dsimp only
  have h1 : ∀ l, truncateDeltas limit l ≠ .error .panic := by
    intro l
    unfold truncateDeltas
    split
    · intro h'; cases h'
    · split
      · intro h'; cases h'
      · split
        · intro h'; cases h'
        · intro h'; cases h'
        · rename_i hz
          exact absurd hz (h rfl)
    · intro h'; cases h'
  split
  · rename_i e he
    intro h'
    injection h' with h'
    exact h1 _ (by rw [he, h'])
  · rename_i kept _
    intro h'
    by_cases hc : contiguous
        ((if Ext.verifyFirst then sortBy (·.serial) ds else kept).map (·.serial)) = true
    · rw [if_pos hc] at h'; cases h'
    · rw [if_neg hc] at h'; cases h'

theorem talParse_calm (n : Str) (b : Bytes) : Tal.parse n b ≠ .error .panic := by
  unfold Tal.parse
  split
  · intro h; cases h
  · split <;> (intro h; cases h)

theorem validateAt_calm (t : Tal) (time : Time) : Calm (t.validateAt time) := by
  have h := fetch_calm
  have h' := tryIntoData_calm
  unfold Tal.validateAt; calm_auto

theorem readBytes_calm (f : Fetcher) (u : Str) (h : Hash) : Calm (readBytes f u h) := by
  have h1 := Calm.lift (resolve_calm f u)
  have h2 := fetch_calm
  have h3 := tryIntoData_calm
  unfold readBytes; calm_auto

theorem dataFromSnapshot_calm (n : Notif) (etag : Option Str) (f : Fetcher) (t : Time) :
    Calm (dataFromSnapshot n etag f t) := by
  have h := readBytes_calm
  unfold dataFromSnapshot; calm_auto

theorem retrieveNew_calm (f : Fetcher) (t : Time) : Calm (retrieveNew f t) := by
  have h := readNotification_calm
  have h' := dataFromSnapshot_calm
  unfold retrieveNew; calm_auto

/-- The results of a computation, when there is one. -/
def Ends (P : α → Prop) (m : M α) : Prop :=
  ∀ env w a w', m env w = (.ok a, w') → P a

namespace Ends

theorem pure {P : α → Prop} {a : α} (h : P a) : Ends P (M.pure a) := by
  intro env w a' w' h'
  injection h' with h1 h2
  injection h1 with h1
  exact h1 ▸ h

theorem pure' {P : α → Prop} {a : α} (h : P a) : Ends P (Pure.pure a : M α) := pure h

theorem bind' {P : β → Prop} {m : M α} {f : α → M β} (hf : ∀ a, Ends P (f a)) :
    Ends P (m >>= f) := by
  intro env w b w' h
  have e : (m >>= f) = M.bind m f := rfl
  simp only [e, M.bind] at h
  split at h
  · exact hf _ _ _ _ _ h
  · cases h

theorem bindOn {P : β → Prop} (Q : α → Prop) {m : M α} {f : α → M β} (hm : Ends Q m)
    (hf : ∀ a, Q a → Ends P (f a)) : Ends P (m >>= f) := by
  intro env w b w' h
  have e : (m >>= f) = M.bind m f := rfl
  simp only [e, M.bind] at h
  split at h
  · rename_i a w1 hr
    exact hf _ (hm _ _ _ _ hr) _ _ _ _ h
  · cases h

/-- A caught error of a calm computation is not a panic. -/
theorem attempt {m : M α} (h : Calm m) : Ends (· ≠ .error .panic) (M.attempt m) := by
  intro env w a w' h'
  injection h' with h1 h2
  injection h1 with h1
  rw [← h1]
  exact h env w

end Ends

theorem final_calm (v : Visited) (u : Str) : (v.final u).1 ≠ .error .panic := by
  unfold Visited.final
  split <;> (intro h; cases h)

theorem getLatest_calm (v : Visited) (u : Str) (offline : Bool) (t : Time) :
    Calm (v.getLatest u offline t) := by
  have h := now_calm
  unfold Visited.getLatest
  dsimp only
  have hd : ∀ (f : Fetcher) (is : List DeltaInfo) (d : RepoData), Calm (applyDeltas f d is) := by
    intro f is
    induction is with
    | nil => intro d; unfold applyDeltas; exact Calm.pure' _
    | cons i is ih => intro d; unfold applyDeltas; calm_auto
  have hu : ∀ n e d f, Calm (updateFromDeltas n e d f t) := by
    intro n e d f
    unfold updateFromDeltas; calm_auto
  calm_auto

/-- What `get_latest` reports is not a panic either. -/
theorem getLatest_reports (v : Visited) (u : Str) (offline : Bool) (t : Time) :
    Ends (fun r => r.1 ≠ .error .panic) (v.getLatest u offline t) := by
  unfold Visited.getLatest
  dsimp only
  split
  · split
    · exact Ends.pure' (final_calm _ _)
    · refine Ends.bindOn _ (Ends.attempt (retrieveNew_calm _ _)) (fun r hr => ?_)
      split
      · exact Ends.pure' (final_calm _ _)
      · rename_i e
        refine Ends.pure' (fun h => hr ?_)
        injection h with h
        rw [h]
  · split
    · exact Ends.pure' (final_calm _ _)
    · split
      · exact Ends.pure' (final_calm _ _)
      · refine Ends.bind' (fun t' => ?_)
        split
        · exact Ends.pure' (final_calm _ _)
        · refine Ends.bindOn _ (Ends.attempt (readNotification_calm _ _)) (fun r hr => ?_)
          split
          · rename_i e
            refine Ends.pure' (fun h => hr ?_)
            injection h with h
            rw [h]
          · exact Ends.pure' (final_calm _ _)
          · split
            · exact Ends.pure' (final_calm _ _)
            · refine Ends.bind' (fun x => ?_)
              split
              · exact Ends.pure' (final_calm _ _)
              · refine Ends.bind' (fun s => ?_)
                split
                · exact Ends.pure' (final_calm _ _)
                · exact Ends.pure' (final_calm _ _)

theorem initStaging_calm (v : Validator) (u : Str) : Calm (v.initStaging u) := by
  unfold Validator.initStaging
  refine Calm.bind' now_calm (fun t => ?_)
  refine Calm.bindOn (fun r => r.1 ≠ .error .panic) (getLatest_calm _ _ _ _)
    (getLatest_reports _ _ _ _) (fun r hr => ?_)
  obtain ⟨r, repos⟩ := r
  dsimp only
  split
  · exact Calm.pure' _
  · rename_i e
    exact Calm.throw (fun h => hr (by rw [h]))

theorem checkEntry_calm (objs : List (Str × Bytes)) (issuer : ResCert) (crl : CrlObj) (t : Time)
    (acc : CaAcc) (e : Str × Hash) : Calm (checkEntry objs issuer crl t acc e) := by
  have h := now_calm
  unfold checkEntry
  dsimp only
  calm_auto

theorem checkEntries_calm (objs : List (Str × Bytes)) (issuer : ResCert) (crl : CrlObj) (t : Time) :
    (es : List (Str × Hash)) → (acc : CaAcc) → Calm (checkEntries objs issuer crl t acc es)
  | [], acc => by unfold checkEntries; exact Calm.pure' _
  | e :: es, acc => by
    unfold checkEntries
    exact Calm.bind' (checkEntry_calm _ _ _ _ _ _) (fun _ => checkEntries_calm objs issuer crl t es _)

theorem checkCa_calm (v : Visited) (issuer : ResCert) (info : CaInfo) (offline : Bool) (t : Time) :
    Calm (checkCa v issuer info offline t) := by
  have h := checkEntries_calm
  have h' := getLatest_calm
  unfold checkCa
  dsimp only
  calm_auto

theorem validateKids_calm {rec : Visited → ResCert → CaInfo → M (Report × Visited)}
    (hr : ∀ v c i, Calm (rec v c i)) :
    (ks : List (ResCert × CaInfo)) → (v : Visited) → (rep : Report) →
      Calm (validateKids rec v rep ks)
  | [], v, rep => by unfold validateKids; exact Calm.pure' _
  | (c, i) :: ks, v, rep => by
    unfold validateKids
    exact Calm.bind' (hr _ _ _) (fun _ => validateKids_calm hr ks _ _)

theorem validateTree_calm (offline : Bool) (t : Time) :
    (depth : Nat) → (v : Visited) → (issuer : ResCert) → (info : CaInfo) →
      Calm (validateTree offline t depth v issuer info)
  | 0, _, _, _ => by unfold validateTree; exact Calm.throw (by decide)
  | depth + 1, v, issuer, info => by
    unfold validateTree
    exact Calm.bind' (checkCa_calm _ _ _ _ _)
      (fun _ => validateKids_calm (validateTree_calm offline t depth) _ _ _)

theorem validateTals_calm (depth : Nat) (offline : Bool) (t : Time) :
    (ts : List Tal) → (v : Visited) → (rep : Report) →
      Calm (validateTals depth v rep offline t ts)
  | [], v, rep => by unfold validateTals; exact Calm.pure' _
  | x :: ts, v, rep => by
    have h1 := validateAt_calm
    have h2 := validateTree_calm
    unfold validateTals validateTa
    exact Calm.bind' (by calm_auto) (fun _ => validateTals_calm depth offline t ts _ _)

theorem validate_calm (depth : Nat) (v : Validator) (offline : Bool) :
    Calm (v.validate depth offline) := by
  have h := now_calm
  have h' := validateTals_calm
  unfold Validator.validate; calm_auto

/-! ## The run -/

/-- The parent of a URI is a prefix of it (so the `unwrap` at src/rrdp.rs:607 is safe). -/
theorem httpsParent_prefix {u p : Str} (h : httpsParent u = some p) : ∃ r, u = p ++ r := by
  have h1 : p = upToLastSlash u.dropLast := by
    unfold httpsParent at h
    split at h
    · cases h
    · injection h with h
      exact h.symm
  have h2 : upToLastSlash u.dropLast <+: u.dropLast := by
    unfold upToLastSlash
    have h3 := List.dropWhile_suffix (fun c => decide (c ≠ '/')) (l := u.dropLast.reverse)
    have h4 := List.reverse_prefix.mpr h3
    rw [List.reverse_reverse] at h4
    exact h4
  obtain ⟨r, hr⟩ := (h1 ▸ h2).trans (List.dropLast_prefix u)
  exact ⟨r, hr.symm⟩

theorem create_calm (c : Config) : RrdpState.create c ≠ .error .panic := by
  unfold RrdpState.create NotificationSource.build SourceMappings.build
  match hp : httpsParent c.notificationUri with
  | none => intro h; cases h
  | some p =>
    obtain ⟨r, hr⟩ := httpsParent_prefix hp
    dsimp only
    rw [show stripPrefix p c.notificationUri = some r by rw [hr]; exact stripPrefix_append p r]
    intro h; cases h

theorem loadState_calm (c : Config) : Calm (loadState c) := by
  have h := readFile_calm
  have h' := Calm.lift (create_calm c)
  unfold loadState RrdpState.recover; calm_auto

theorem relative_calm (m : SourceMappings) (u : Str) : m.relative u ≠ .error .panic := by
  unfold SourceMappings.relative
  split <;> (intro h; cases h)

theorem snapshotStage_calm (s : RrdpState) (n : Notif) (f : Fetcher) (c : Config) :
    Calm (s.snapshotStage n f c) := by
  have h := now_calm
  have h' := retrieve_calm
  have h'' := fun m u => Calm.lift (relative_calm m u)
  unfold RrdpState.snapshotStage; calm_auto

theorem deltasStage_calm (s : RrdpState) (reset : Bool) (f : Fetcher) (c : Config) :
    (ds : List DeltaInfo) → Calm (s.deltasStage reset f c ds)
  | [] => by unfold RrdpState.deltasStage; exact Calm.pure' _
  | d :: ds => by
    have h := now_calm
    have h' := retrieve_calm
    have h'' := fun m u => Calm.lift (relative_calm m u)
    have ih := deltasStage_calm s reset f c ds
    unfold RrdpState.deltasStage; calm_auto

theorem updateStaged_calm (s : RrdpState) {c : Config}
    (h0 : c.rrdpMaxDeltas = some 0 → Ext.zeroLimit ≠ .panic) : Calm (s.updateStaged c) := by
  have h := readNotification_calm
  have h' := fun ds => Calm.lift (sortVerify_calm h0 ds)
  have h1 := snapshotStage_calm
  have h2 := deltasStage_calm
  have h3 := writeBuf_calm
  unfold RrdpState.updateStaged RrdpState.stage
  refine Calm.bind' (h _ _) (fun r => ?_)
  split
  · calm_auto
  · refine Calm.bind' (h' _) (fun ds => ?_)
    dsimp only
    calm_auto

theorem readTals_calm : (l : List Str) → Calm (readTals l)
  | [] => by unfold readTals; exact Calm.pure' _
  | f :: l => by
    have h := readFile_calm
    have h' := fun n b => Calm.lift (talParse_calm n b)
    have ih := readTals_calm l
    unfold readTals; calm_auto

theorem reconfigure_calm (v : Option Validator) (c : Config) : Calm (reconfigureValidator v c) := by
  have h := readTals_calm
  have h' := initStaging_calm
  unfold reconfigureValidator chooseValidator createValidator; calm_auto

theorem verdict_calm (c : Config) (r : Report) : verdict c r ≠ .error .panic := by
  unfold verdict
  split
  · split
    · intro h; cases h
    · split <;> (intro h; cases h)
  · split <;> (intro h; cases h)

theorem preValidate_calm (depth : Nat) (s : RrdpState) (c : Config) :
    Calm (s.preValidate depth c) := by
  have h := reconfigure_calm
  have h' := validate_calm
  have h'' := fun r => Calm.lift (verdict_calm c r)
  unfold RrdpState.preValidate; calm_auto

theorem runScripts_calm : (l : List Path) → Calm (runScripts l)
  | [] => by unfold runScripts; exact Calm.pure' _
  | p :: l => by
    have h := runScript_calm
    have ih := runScripts_calm l
    unfold runScripts; calm_auto

theorem scriptGate_calm (c : Config) : Calm (scriptGate c) := by
  have h := runScripts_calm
  unfold scriptGate; calm_auto

theorem deprecate_calm (m : SourceMappings) : (l : List DeltaState) → Calm (deprecate m l)
  | [] => by unfold deprecate; exact Calm.pure' _
  | d :: l => by
    have h := now_calm
    have ih := deprecate_calm m l
    unfold deprecate; calm_auto

theorem apply_calm (s : RrdpState) (st : StagedChanges) (c : Config) : Calm (s.apply st c) := by
  have h1 := moveFile_calm
  have h2 := now_calm
  have h3 := secondsAgo_calm
  have h4 := deprecate_calm
  have h5 := removeUp_calm
  unfold RrdpState.apply moveStaged RrdpState.absorb RrdpState.deprecateSnapshot
    RrdpState.deprecateAll RrdpState.deprecateBefore RrdpState.clean cleanFile
    removeFileAndEmptyParents
  calm_auto

theorem makeNotif_calm (s : RrdpState) : s.makeNotif ≠ .error .panic := by
  unfold RrdpState.makeNotif
  split <;> (intro h; cases h)

theorem writeNotification_calm (s : RrdpState) (n : Nat) : Calm (s.writeNotification n) := by
  have h1 := Calm.sleep
  have h2 := Calm.lift (makeNotif_calm s)
  have h3 := writeBuf_calm
  have h4 := rename_calm
  unfold RrdpState.writeNotification notifyDelay; calm_auto

theorem publishObject_calm (out : Path) (b : Bool) (e : RsyncUri × Bytes) :
    Calm (publishObject out b e) := by
  have h := writeBuf_calm
  have h1 := createPathForFile_calm
  unfold publishObject fixSince; calm_auto

theorem writeSnapshotTree_calm (o : Path) (b : Bool) (p : Path) :
    Calm (writeSnapshotTree o b p) := by
  have h := publishObject_calm
  unfold writeSnapshotTree
  refine Calm.bind' (readFile_calm _) (fun x => ?_)
  dsimp only
  calm_auto

theorem symlinkCurrent_calm (r : RsyncRevision) (c : Config) : Calm (symlinkCurrent r c) := by
  have h4 := removeFile_calm
  have h5 := symlink_calm
  have h6 := rename_calm
  unfold symlinkCurrent
  dsimp only
  calm_auto

theorem renameCurrent_calm (r : RsyncRevision) (st : RsyncDirState) (c : Config) :
    Calm (renameCurrent r st c) := by
  have h6 := rename_calm
  unfold renameCurrent
  dsimp only
  calm_auto

theorem rsyncRecover_calm (c : Config) : Calm (RsyncDirState.recover c) := by
  have h := readFile_calm
  unfold RsyncDirState.recover; calm_auto

theorem createOutPath_calm (p : Path) : Calm (createOutPath p) := by
  have h := createDirAll_calm
  unfold createOutPath; calm_auto

theorem updateCurrent_calm (s : RsyncDirState) (r : RsyncRevision) : Calm (s.updateCurrent r) := by
  have h := now_calm
  unfold RsyncDirState.updateCurrent; calm_auto

theorem cleanOld_calm (s : RsyncDirState) (c : Config) : Calm (s.cleanOld c) := by
  have h := secondsAgo_calm
  have h' := removeDirAll_calm
  unfold RsyncDirState.cleanOld cleanRevision; calm_auto

theorem updateRsync_calm (s : RrdpState) (c : Config) : Calm (updateRsync s c) := by
  unfold updateRsync
  split
  · exact Calm.pure' _
  · dsimp only
    refine Calm.bind' (rsyncRecover_calm c) (fun st => ?_)
    refine Calm.bind' (createOutPath_calm _) (fun _ => ?_)
    refine Calm.bind' (writeSnapshotTree_calm _ _ _) (fun _ => ?_)
    refine Calm.bind' ?_ (fun _ => ?_)
    · split
      · exact symlinkCurrent_calm _ _
      · exact renameCurrent_calm _ _ _
    · refine Calm.bind' (updateCurrent_calm _ _) (fun _ => ?_)
      refine Calm.bind' (cleanOld_calm _ _) (fun _ => ?_)
      exact writeBuf_calm _ _

theorem publish_calm (c : Config) (s : RrdpState) (st : StagedChanges) :
    Calm (publish c s st) := by
  have h1 := apply_calm
  have h2 := updateRsync_calm
  have h3 := writeNotification_calm
  have h4 := writeBuf_calm
  unfold publish RrdpState.persist; calm_auto

theorem process_calm (depth : Nat) {c : Config}
    (h0 : c.rrdpMaxDeltas = some 0 → Ext.zeroLimit ≠ .panic) : Calm (process depth c) := by
  have h1 := loadState_calm
  have h2 := fun s => updateStaged_calm (c := c) s h0
  have h3 := preValidate_calm
  have h4 := scriptGate_calm
  have h5 := publish_calm
  unfold process; calm_auto

theorem postConfigure_calm (r : RawConfig) : Calm (postConfigure r) := by
  unfold postConfigure
  dsimp only
  calm_auto

end KSync
