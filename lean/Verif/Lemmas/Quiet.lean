import Verif.Lemmas.Latest
import Verif.Lemmas.Effects2

/-! # Validation and bookkeeping leave the disk alone -/

set_option linter.unusedSectionVars false
set_option linter.unusedSimpArgs false
set_option linter.unusedVariables false

namespace KSync

variable [Ext]

theorem tryIntoData_same (r : FetchResponse) : Rel Same r.tryIntoData := by
  unfold FetchResponse.tryIntoData
  rel_auto

theorem applyDeltas_same (f : Fetcher) (d : RepoData) (l : List DeltaInfo) :
    Rel Same (applyDeltas f d l) := by
  induction l generalizing d with
  | nil => exact Rel.pure _
  | cons i l ih =>
    unfold applyDeltas
    have h1 := readBytes_same f i.uri i.hash
    rel_auto

theorem updateFromDeltas_same (n : Notif) (etag : Option Str) (d : RepoData)
    (f : Fetcher) (t : Time) : Rel Same (updateFromDeltas n etag d f t) := by
  unfold updateFromDeltas
  have h1 := applyDeltas_same
  rel_auto

theorem getLatest_same (v : Visited) (uri : Str) (offline : Bool) (t : Time) :
    Rel Same (v.getLatest uri offline t) := by
  unfold Visited.getLatest
  have h1 := retrieveNew_same
  have h2 := now_same
  have h3 := fun f e => readNotification_same f e
  have h4 := updateFromDeltas_same
  have h5 := dataFromSnapshot_same
  dsimp only
  rel_auto

theorem initStaging_same (v : Validator) (uri : Str) :
    Rel Same (v.initStaging uri) := by
  unfold Validator.initStaging
  have h1 := now_same
  have h2 := getLatest_same
  rel_auto

theorem checkEntry_same (objs : List (Str × Bytes)) (issuer : ResCert) (crl : CrlObj) (t : Time)
    (acc : CaAcc) (e : Str × Hash) : Rel Same (checkEntry objs issuer crl t acc e) := by
  unfold checkEntry
  have h1 := now_same
  dsimp only
  rel_auto

theorem checkEntries_same (objs : List (Str × Bytes)) (issuer : ResCert) (crl : CrlObj) (t : Time)
    (acc : CaAcc) (l : List (Str × Hash)) :
    Rel Same (checkEntries objs issuer crl t acc l) := by
  induction l generalizing acc with
  | nil => exact Rel.pure _
  | cons e l ih =>
    unfold checkEntries
    have h1 := checkEntry_same objs issuer crl t
    rel_auto

theorem checkCa_same (v : Visited) (issuer : ResCert) (info : CaInfo)
    (offline : Bool) (t : Time) : Rel Same (checkCa v issuer info offline t) := by
  unfold checkCa
  have h1 := getLatest_same
  have h2 := tick_same
  have h3 := checkEntries_same
  dsimp only
  rel_auto

theorem validateKids_same {rec : Visited → ResCert → CaInfo → M (Report × Visited)}
    (h : ∀ v c i, Rel Same (rec v c i)) (v : Visited) (rep : Report)
    (l : List (ResCert × CaInfo)) : Rel Same (validateKids rec v rep l) := by
  induction l generalizing v rep with
  | nil => exact Rel.pure _
  | cons e l ih =>
    unfold validateKids
    rel_auto

theorem validateTree_same (offline : Bool) (t : Time) (depth : Nat)
    (v : Visited) (c : ResCert) (i : CaInfo) :
    Rel Same (validateTree offline t depth v c i) := by
  induction depth generalizing v c i with
  | zero => exact Rel.throw _
  | succ depth ih =>
    unfold validateTree
    have h1 := checkCa_same
    have h2 := validateKids_same ih
    rel_auto

theorem validateAt_same (tal : Tal) (t : Time) :
    Rel Same (tal.validateAt t) := by
  unfold Tal.validateAt
  have h1 := fetch_same (src := tal.source) (hash := none) (etag := none)
  have h2 := tryIntoData_same
  rel_auto

theorem validateTa_same (depth : Nat) (v : Visited) (tal : Tal)
    (offline : Bool) (t : Time) : Rel Same (validateTa depth v tal offline t) := by
  unfold validateTa
  have h1 := validateAt_same
  have h2 := validateTree_same
  rel_auto

theorem validateTals_same (depth : Nat) (v : Visited) (rep : Report)
    (offline : Bool) (t : Time) (l : List Tal) :
    Rel Same (validateTals depth v rep offline t l) := by
  induction l generalizing v rep with
  | nil => exact Rel.pure _
  | cons tal l ih =>
    unfold validateTals
    have h1 := validateTa_same
    rel_auto

theorem validate_same (depth : Nat) (v : Validator) (offline : Bool) :
    Rel Same (v.validate depth offline) := by
  unfold Validator.validate
  have h1 := now_same
  have h2 := validateTals_same
  rel_auto

theorem readTals_same (l : List Str) : Rel Same (readTals l) := by
  induction l with
  | nil => exact Rel.pure _
  | cons f l ih =>
    unfold readTals
    have h1 := readFile_same
    rel_auto

theorem createValidator_same (c : Config) : Rel Same (createValidator c) := by
  unfold createValidator
  have h1 := readTals_same c.talFiles
  rel_auto

theorem chooseValidator_same (v : Option Validator) (c : Config) :
    Rel Same (chooseValidator v c) := by
  unfold chooseValidator
  have h1 := createValidator_same c
  rel_auto

theorem reconfigureValidator_same (v : Option Validator) (c : Config) :
    Rel Same (reconfigureValidator v c) := by
  unfold reconfigureValidator
  have h1 := chooseValidator_same v c
  have h2 := initStaging_same
  rel_auto

theorem preValidate_same (depth : Nat) (s : RrdpState) (c : Config) :
    Rel Same (s.preValidate depth c) := by
  unfold RrdpState.preValidate
  have h1 := reconfigureValidator_same
  have h2 := validate_same
  rel_auto

theorem runScripts_same (l : List Path) :
    Rel Same (runScripts l) := by
  induction l with
  | nil => exact Rel.pure _
  | cons p l ih =>
    unfold runScripts
    have h1 := runScript_same p
    have h2 := ih
    rel_auto

theorem scriptGate_same (c : Config) :
    Rel Same (scriptGate c) := by
  unfold scriptGate
  have h1 := runScripts_same c.scripts
  rel_auto

theorem deprecate_same (m : SourceMappings) (l : List DeltaState) :
    Rel Same (deprecate m l) := by
  induction l with
  | nil => exact Rel.pure _
  | cons d l ih =>
    unfold deprecate
    have h1 := now_same
    rel_auto

theorem deprecateBefore_same (s : RrdpState) (n : Nat) : Rel Same (s.deprecateBefore n) := by
  unfold RrdpState.deprecateBefore
  have h1 := deprecate_same
  rel_auto

theorem deprecateAll_same (s : RrdpState) : Rel Same s.deprecateAll := by
  unfold RrdpState.deprecateAll
  have h1 := deprecate_same
  rel_auto

theorem deprecateSnapshot_same (s : RrdpState) : Rel Same s.deprecateSnapshot := by
  unfold RrdpState.deprecateSnapshot
  have h1 := now_same
  rel_auto

theorem absorb_same (s : RrdpState) (st : StagedChanges) : Rel Same (s.absorb st) := by
  unfold RrdpState.absorb
  have h1 := deprecateSnapshot_same
  have h2 := deprecateBefore_same
  have h3 := deprecateAll_same
  rel_auto


end KSync
