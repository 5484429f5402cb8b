import Verif.Lemmas.Scripts

/-! # Only the scripts see what the scripts say -/

set_option linter.unusedSectionVars false
set_option linter.unusedVariables false

namespace KSync

/-- The same but for the outcome of scripts. -/
def Env.withScripts (env : Env) (s : Nat → Path → Option Bool) : Env := { env with script := s }

/-- A computation that does not depend on the outcome of scripts. -/
class Unscripted (m : M α) : Prop where
  eq : ∀ env s w, m (env.withScripts s) w = m env w

namespace Unscripted

instance pure (a : α) : Unscripted (M.pure a) := ⟨fun _ _ _ => rfl⟩
instance pure' (a : α) : Unscripted (Pure.pure a : M α) := ⟨fun _ _ _ => rfl⟩
instance throw (e : Err) : Unscripted (M.throw e : M α) := ⟨fun _ _ _ => rfl⟩
instance getFs : Unscripted getFs := ⟨fun _ _ _ => rfl⟩
instance logReq (r : Req) : Unscripted (logReq r) := ⟨fun _ _ _ => rfl⟩
instance logRan (p : Path) : Unscripted (logRan p) := ⟨fun _ _ _ => rfl⟩
instance logCopy (p : Path) : Unscripted (logCopy p) := ⟨fun _ _ _ => rfl⟩
instance sleep (n : Nat) : Unscripted (sleep n) := ⟨fun _ _ _ => rfl⟩
instance push (f : FS) : Unscripted (push f) := ⟨fun _ _ _ => rfl⟩
instance io : Unscripted io := ⟨fun _ _ _ => rfl⟩
instance tick : Unscripted tick := ⟨fun _ _ _ => rfl⟩
instance now : Unscripted now := ⟨fun _ _ _ => rfl⟩
instance secondsAgo (s : Int) : Unscripted (secondsAgo s) := ⟨fun _ _ _ => rfl⟩
instance httpGet (r : Req) : Unscripted (httpGet r) := ⟨fun _ _ _ => rfl⟩

instance lift (x : Except Err α) : Unscripted (M.lift x) := ⟨fun _ _ _ => by cases x <;> rfl⟩
instance orThrow (e : Err) (x : Option α) : Unscripted (M.orThrow e x) :=
  ⟨fun _ _ _ => by cases x <;> rfl⟩

theorem bind {m : M α} {f : α → M β} (h : Unscripted m) (h' : ∀ a, Unscripted (f a)) :
    Unscripted (m.bind f) := ⟨fun env s w => by
  unfold M.bind
  dsimp only
  rw [h.eq]
  match m env w with
  | (.ok a, w') => exact (h' a).eq env s w'
  | (.error e, w') => rfl⟩

theorem bind' {m : M α} {f : α → M β} (h : Unscripted m) (h' : ∀ a, Unscripted (f a)) :
    Unscripted (m >>= f) := bind h h'

/-- What depends on the outside world otherwise. -/
theorem ask {f : Env → M β} (h : ∀ env, Unscripted (f env))
    (h' : ∀ env s, f (env.withScripts s) = f env) : Unscripted (askEnv >>= f) := ⟨fun env s w => by
  show f (env.withScripts s) (env.withScripts s) w = f env env w
  rw [h']
  exact (h env).eq env s w⟩

theorem attempt {m : M α} (h : Unscripted m) : Unscripted m.attempt := ⟨fun env s w => by
  exact congrArg (fun x : Except Err α × World => (Except.ok x.1, x.2)) (h.eq env s w)⟩

theorem forEach {f : α → M Unit} (h : ∀ a, Unscripted (f a)) : ∀ l, Unscripted (M.forEach l f)
  | [] => ⟨fun _ _ _ => rfl⟩
  | a :: l => by
    unfold M.forEach
    exact bind (h a) (fun _ => forEach h l)

end Unscripted

syntax "uns_step" : tactic
macro_rules | `(tactic| uns_step) => `(tactic| split)
macro_rules | `(tactic| uns_step) => `(tactic| with_reducible refine Unscripted.bind ?_ (fun _ => ?_))
macro_rules | `(tactic| uns_step) => `(tactic| with_reducible refine Unscripted.bind' ?_ (fun _ => ?_))
macro_rules | `(tactic| uns_step) => `(tactic| with_reducible refine Unscripted.ask (fun _ => ?_) (fun _ _ => rfl))
macro_rules | `(tactic| uns_step) => `(tactic| with_reducible refine Unscripted.attempt ?_)
macro_rules | `(tactic| uns_step) => `(tactic| with_reducible refine Unscripted.forEach (fun _ => ?_) _)
macro_rules | `(tactic| uns_step) => `(tactic| with_reducible solve_by_elim)
macro_rules | `(tactic| uns_step) => `(tactic| first | with_reducible infer_instance | fail)
macro "uns_auto" : tactic => `(tactic| repeat' uns_step)

namespace Unscripted

instance pushAll : ∀ l, Unscripted (pushAll l)
  | [] => ⟨fun _ _ _ => rfl⟩
  | f :: l => by
    have := pushAll l
    unfold KSync.pushAll
    uns_auto

instance mkdir1 (p : Path) : Unscripted (mkdir1 p) := by unfold KSync.mkdir1; uns_auto
instance createDirAll (p : Path) : Unscripted (createDirAll p) := by unfold KSync.createDirAll; uns_auto
instance fileCreate (p : Path) : Unscripted (fileCreate p) := by unfold KSync.fileCreate; uns_auto
instance writeAll (p : Path) (b : Bytes) : Unscripted (writeAll p b) := by unfold KSync.writeAll; uns_auto
instance readFile (p : Path) : Unscripted (readFile p) := by unfold KSync.readFile; uns_auto
instance removeFile (p : Path) : Unscripted (removeFile p) := by unfold KSync.removeFile; uns_auto
instance removeDir (p : Path) : Unscripted (removeDir p) := by unfold KSync.removeDir; uns_auto
instance rename (p q : Path) : Unscripted (rename p q) := by unfold KSync.rename; uns_auto
instance copyFile (p q : Path) : Unscripted (copyFile p q) := by unfold KSync.copyFile; uns_auto
instance symlink (n : Name) (p : Path) : Unscripted (symlink n p) := by unfold KSync.symlink; uns_auto
instance setMtime (p : Path) (t : Time) : Unscripted (setMtime p t) := by unfold KSync.setMtime; uns_auto
instance unlink1 (p : Path) : Unscripted (unlink1 p) := by unfold KSync.unlink1; uns_auto
instance removeDirAll (p : Path) : Unscripted (removeDirAll p) := by unfold KSync.removeDirAll; uns_auto
instance createPathForFile (p : Path) : Unscripted (createPathForFile p) := by
  unfold KSync.createPathForFile; uns_auto
instance createFile (p : Path) : Unscripted (createFile p) := by unfold KSync.createFile; uns_auto
instance writeBuf (p : Path) (b : Bytes) : Unscripted (writeBuf p b) := by unfold KSync.writeBuf; uns_auto
instance moveFile (a b : Path) (r : Str) : Unscripted (moveFile a b r) := by
  unfold KSync.moveFile; uns_auto

instance removeUp : ∀ n p, Unscripted (removeUp n p)
  | 0, p => by unfold KSync.removeUp; uns_auto
  | n + 1, p => by
    have := removeUp n p.dropLast
    unfold KSync.removeUp; uns_auto

instance removeFileAndEmptyParents (p : Path) : Unscripted (removeFileAndEmptyParents p) := by
  unfold KSync.removeFileAndEmptyParents; uns_auto

variable [Ext]

instance raw (src : FetchSource) (e : Option Str) : Unscripted (src.raw e) := by
  unfold FetchSource.raw; uns_auto
instance fetch (src : FetchSource) (h : Option Hash) (e : Option Str) (t : Option Path) :
    Unscripted (src.fetch h e t) := by unfold FetchSource.fetch; uns_auto
instance tryIntoData (r : FetchResponse) : Unscripted r.tryIntoData := by
  unfold FetchResponse.tryIntoData; uns_auto
instance readNotification (f : Fetcher) (e : Option Str) : Unscripted (f.readNotification e) := by
  unfold Fetcher.readNotification; uns_auto
instance retrieve (f : Fetcher) (u : Str) (h : Hash) (t : Path) : Unscripted (f.retrieve u h t) := by
  unfold Fetcher.retrieve Fetcher.retrieveTo Fetcher.retrieveNowhere; uns_auto

instance validateAt (t : Tal) (time : Time) : Unscripted (t.validateAt time) := by
  unfold Tal.validateAt; uns_auto
instance readBytes (f : Fetcher) (u : Str) (h : Hash) : Unscripted (readBytes f u h) := by
  unfold KSync.readBytes; uns_auto
instance dataFromSnapshot (n : Notif) (e : Option Str) (f : Fetcher) (t : Time) :
    Unscripted (dataFromSnapshot n e f t) := by unfold KSync.dataFromSnapshot; uns_auto
instance retrieveNew (f : Fetcher) (t : Time) : Unscripted (retrieveNew f t) := by
  unfold KSync.retrieveNew; uns_auto

instance applyDeltas (f : Fetcher) : ∀ l d, Unscripted (applyDeltas f d l)
  | [], d => by unfold KSync.applyDeltas; uns_auto
  | i :: l, d => by
    have := applyDeltas f l
    unfold KSync.applyDeltas; uns_auto

instance updateFromDeltas (n : Notif) (e : Option Str) (d : RepoData) (f : Fetcher) (t : Time) :
    Unscripted (updateFromDeltas n e d f t) := by unfold KSync.updateFromDeltas; uns_auto
instance getLatest (v : Visited) (u : Str) (o : Bool) (t : Time) :
    Unscripted (v.getLatest u o t) := by unfold Visited.getLatest; uns_auto
instance initStaging (v : Validator) (u : Str) : Unscripted (v.initStaging u) := by
  unfold Validator.initStaging; uns_auto

instance checkEntry (o : List (Str × Bytes)) (i : ResCert) (c : CrlObj) (t : Time) (a : CaAcc)
    (e : Str × Hash) : Unscripted (checkEntry o i c t a e) := by
  unfold KSync.checkEntry; dsimp only; uns_auto

instance checkEntries (o : List (Str × Bytes)) (i : ResCert) (c : CrlObj) (t : Time) :
    ∀ l a, Unscripted (checkEntries o i c t a l)
  | [], a => by unfold KSync.checkEntries; uns_auto
  | e :: l, a => by
    have := checkEntries o i c t l
    unfold KSync.checkEntries; uns_auto

instance checkCa (v : Visited) (i : ResCert) (info : CaInfo) (o : Bool) (t : Time) :
    Unscripted (checkCa v i info o t) := by unfold KSync.checkCa; uns_auto

instance validateKids (rec : Visited → ResCert → CaInfo → M (Report × Visited))
    [h : ∀ v c i, Unscripted (rec v c i)] : ∀ l v r, Unscripted (validateKids rec v r l)
  | [], v, r => by unfold KSync.validateKids; uns_auto
  | k :: l, v, r => by
    have := validateKids rec l
    unfold KSync.validateKids; uns_auto

instance validateTree (o : Bool) (t : Time) : ∀ d v c i, Unscripted (validateTree o t d v c i)
  | 0, v, c, i => by unfold KSync.validateTree; uns_auto
  | d + 1, v, c, i => by
    have := validateTree o t d
    unfold KSync.validateTree; uns_auto

instance validateTa (d : Nat) (v : Visited) (t : Tal) (o : Bool) (time : Time) :
    Unscripted (validateTa d v t o time) := by unfold KSync.validateTa; uns_auto

instance validateTals (d : Nat) (o : Bool) (time : Time) :
    ∀ l v r, Unscripted (validateTals d v r o time l)
  | [], v, r => by unfold KSync.validateTals; uns_auto
  | t :: l, v, r => by
    have := validateTals d o time l
    unfold KSync.validateTals; uns_auto

instance validate (d : Nat) (v : Validator) (o : Bool) : Unscripted (v.validate d o) := by
  unfold Validator.validate; uns_auto

instance recoverState (p : Path) : Unscripted (RrdpState.recover p) := by
  unfold RrdpState.recover; uns_auto
instance loadState (c : Config) : Unscripted (loadState c) := by unfold KSync.loadState; uns_auto
instance snapshotStage (s : RrdpState) (n : Notif) (f : Fetcher) (c : Config) :
    Unscripted (s.snapshotStage n f c) := by unfold RrdpState.snapshotStage; uns_auto

instance deltasStage (s : RrdpState) (b : Bool) (f : Fetcher) (c : Config) :
    ∀ l, Unscripted (s.deltasStage b f c l)
  | [] => by unfold RrdpState.deltasStage; uns_auto
  | d :: l => by
    have := deltasStage s b f c l
    unfold RrdpState.deltasStage; uns_auto

instance stage (s : RrdpState) (c : Config) (n : Notif) (e : Option Str) (b : Bool) :
    Unscripted (s.stage c n e b) := by unfold RrdpState.stage; uns_auto
instance updateStaged (s : RrdpState) (c : Config) : Unscripted (s.updateStaged c) := by
  unfold RrdpState.updateStaged; dsimp only; uns_auto

instance readTals : ∀ l, Unscripted (readTals l)
  | [] => by unfold KSync.readTals; uns_auto
  | f :: l => by
    have := readTals l
    unfold KSync.readTals; uns_auto

instance createValidator (c : Config) : Unscripted (createValidator c) := by
  unfold KSync.createValidator; uns_auto
instance chooseValidator (e : Option Validator) (c : Config) : Unscripted (chooseValidator e c) := by
  unfold KSync.chooseValidator; uns_auto
instance reconfigureValidator (e : Option Validator) (c : Config) :
    Unscripted (reconfigureValidator e c) := by unfold KSync.reconfigureValidator; uns_auto
instance preValidate (d : Nat) (s : RrdpState) (c : Config) : Unscripted (s.preValidate d c) := by
  unfold RrdpState.preValidate; uns_auto

instance deprecate (m : SourceMappings) : ∀ l, Unscripted (deprecate m l)
  | [] => by unfold KSync.deprecate; uns_auto
  | d :: l => by
    have := deprecate m l
    unfold KSync.deprecate; uns_auto

instance deprecateBefore (s : RrdpState) (n : Nat) : Unscripted (s.deprecateBefore n) := by
  unfold RrdpState.deprecateBefore; uns_auto
instance deprecateAll (s : RrdpState) : Unscripted s.deprecateAll := by
  unfold RrdpState.deprecateAll; uns_auto
instance deprecateSnapshot (s : RrdpState) : Unscripted s.deprecateSnapshot := by
  unfold RrdpState.deprecateSnapshot; uns_auto
instance cleanFile (d : DeprecatedFile) : Unscripted (cleanFile d) := by
  unfold KSync.cleanFile; uns_auto
instance clean (s : RrdpState) (c : Config) : Unscripted (s.clean c) := by
  unfold RrdpState.clean; uns_auto
instance moveStaged (c : Config) (st : StagedChanges) : Unscripted (moveStaged c st) := by
  unfold KSync.moveStaged; uns_auto
instance absorb (s : RrdpState) (st : StagedChanges) : Unscripted (s.absorb st) := by
  unfold RrdpState.absorb; uns_auto
instance apply (s : RrdpState) (st : StagedChanges) (c : Config) : Unscripted (s.apply st c) := by
  unfold RrdpState.apply; uns_auto
instance notifyDelay (d : Nat) : Unscripted (notifyDelay d) := by unfold KSync.notifyDelay; uns_auto
instance writeNotification (s : RrdpState) (d : Nat) : Unscripted (s.writeNotification d) := by
  unfold RrdpState.writeNotification; uns_auto
instance persist (s : RrdpState) (p : Path) : Unscripted (s.persist p) := by
  unfold RrdpState.persist; uns_auto

instance fixSince (p : Path) (b : Bytes) : Unscripted (fixSince p b) := by
  unfold KSync.fixSince; uns_auto
instance publishObject (o : Path) (h : Bool) (e : RsyncUri × Bytes) :
    Unscripted (publishObject o h e) := by unfold KSync.publishObject; uns_auto
instance createOutPath (p : Path) : Unscripted (createOutPath p) := by
  unfold KSync.createOutPath; uns_auto
instance writeSnapshotTree (p : Path) (h : Bool) (s : Path) : Unscripted (writeSnapshotTree p h s) := by
  unfold KSync.writeSnapshotTree; uns_auto
instance symlinkCurrent (r : RsyncRevision) (c : Config) : Unscripted (symlinkCurrent r c) := by
  unfold KSync.symlinkCurrent; uns_auto
instance renameCurrent (r : RsyncRevision) (s : RsyncDirState) (c : Config) :
    Unscripted (renameCurrent r s c) := by unfold KSync.renameCurrent; uns_auto
instance recoverRsync (c : Config) : Unscripted (RsyncDirState.recover c) := by
  unfold RsyncDirState.recover; uns_auto
instance persistRsync (s : RsyncDirState) (c : Config) : Unscripted (s.persist c) := by
  unfold RsyncDirState.persist; uns_auto
instance updateCurrent (s : RsyncDirState) (r : RsyncRevision) : Unscripted (s.updateCurrent r) := by
  unfold RsyncDirState.updateCurrent; uns_auto
instance cleanRevision (c : Config) (d : DeprecatedRevision) : Unscripted (cleanRevision c d) := by
  unfold KSync.cleanRevision; uns_auto
instance cleanOld (s : RsyncDirState) (c : Config) : Unscripted (s.cleanOld c) := by
  unfold RsyncDirState.cleanOld; uns_auto
instance updateRsync (s : RrdpState) (c : Config) : Unscripted (updateRsync s c) := by
  unfold KSync.updateRsync; uns_auto
instance publish (c : Config) (s : RrdpState) (st : StagedChanges) : Unscripted (publish c s st) := by
  unfold KSync.publish; uns_auto

end Unscripted

section
variable [Ext]

theorem runScripts_status {env : Env} {s : Nat → Path → Option Bool} : ∀ (l : List Path),
    (∀ k, ∀ p ∈ l, s k p = none ↔ env.script k p = none) → ∀ w : World,
    (∃ b b' w', runScripts l (env.withScripts s) w = (.ok b, w') ∧ runScripts l env w = (.ok b', w')) ∨
    ∃ e w', runScripts l (env.withScripts s) w = (.error e, w') ∧ runScripts l env w = (.error e, w')
  | [], _, w => .inl ⟨false, false, w, rfl, rfl⟩
  | p :: l, h, w => by
    have hp := h w.tick p List.mem_cons_self
    have ih := runScripts_status l (fun k q hq => h k q (List.mem_cons_of_mem _ hq))
    unfold runScripts
    cases hs : s w.tick p with
    | none =>
      have h1 : runScript p (env.withScripts s) w = (.error .io, { w with tick := w.tick + 1 }) := by
        show (match s w.tick p with
          | none => (M.throw .io : M Bool)
          | some b => do logRan p; pure b) _ _ = _
        rw [hs]; rfl
      have h2 : runScript p env w = (.error .io, { w with tick := w.tick + 1 }) := by
        show (match env.script w.tick p with
          | none => (M.throw .io : M Bool)
          | some b => do logRan p; pure b) _ _ = _
        rw [hp.1 hs]; rfl
      exact .inr ⟨_, _, M.bind_of_error h1, M.bind_of_error h2⟩
    | some b =>
      cases hs' : env.script w.tick p with
      | none => rw [hp.2 hs'] at hs; cases hs
      | some b' =>
        have h1 : runScript p (env.withScripts s) w =
            (.ok b, { w with tick := w.tick + 1, ran := p :: w.ran }) := by
          show (match s w.tick p with
            | none => (M.throw .io : M Bool)
            | some b => do logRan p; pure b) _ _ = _
          rw [hs]; rfl
        have h2 : runScript p env w = (.ok b', { w with tick := w.tick + 1, ran := p :: w.ran }) := by
          show (match env.script w.tick p with
            | none => (M.throw .io : M Bool)
            | some b => do logRan p; pure b) _ _ = _
          rw [hs']; rfl
        rcases ih { w with tick := w.tick + 1, ran := p :: w.ran } with
          ⟨x, x', w', h3, h4⟩ | ⟨e, w', h3, h4⟩
        · refine .inl ⟨!b || x, !b' || x', w', ?_, ?_⟩
          · rw [M.bind_of_ok h1, M.bind_of_ok h3]; rfl
          · rw [M.bind_of_ok h2, M.bind_of_ok h4]; rfl
        · refine .inr ⟨e, w', ?_, ?_⟩
          · rw [M.bind_of_ok h1, M.bind_of_error h3]
          · rw [M.bind_of_ok h2, M.bind_of_error h4]

theorem scriptGate_status {c : Config} {env : Env} {s : Nat → Path → Option Bool} (w : World)
    (hr : c.talRejectInvalid = false)
    (h : ∀ k, ∀ p ∈ c.scripts, s k p = none ↔ env.script k p = none) :
    scriptGate c (env.withScripts s) w = scriptGate c env w := by
  unfold scriptGate
  by_cases he : c.scripts = []
  · rw [if_pos he]; rfl
  · rw [if_neg he]
    rcases runScripts_status c.scripts h w with ⟨x, x', w', h3, h4⟩ | ⟨e, w', h3, h4⟩
    · rw [M.bind_of_ok h3, M.bind_of_ok h4, hr, Bool.and_false, Bool.and_false]; rfl
    · rw [M.bind_of_error h3, M.bind_of_error h4]

theorem process_status {depth : Nat} {c : Config} {env : Env} {s : Nat → Path → Option Bool}
    (w : World) (hr : c.talRejectInvalid = false)
    (h : ∀ k, ∀ p ∈ c.scripts, s k p = none ↔ env.script k p = none) :
    process depth c (env.withScripts s) w = process depth c env w := by
  have bind_eq : ∀ {α β : Type} {m : M α} {f : α → M β} {w : World},
      m (env.withScripts s) w = m env w →
      (∀ a w', f a (env.withScripts s) w' = f a env w') →
      (m >>= f) (env.withScripts s) w = (m >>= f) env w := by
    intro α β m f w h1 h2
    match h3 : m env w with
    | (.ok a, w') =>
      rw [M.bind_of_ok h3, M.bind_of_ok (h1.trans h3)]; exact h2 a w'
    | (.error e, w') => rw [M.bind_of_error h3, M.bind_of_error (h1.trans h3)]
  unfold process
  refine bind_eq (Unscripted.eq _ _ _) (fun a w1 => bind_eq (Unscripted.eq _ _ _) (fun st w2 => ?_))
  cases st with
  | none => rfl
  | some st =>
    exact bind_eq (Unscripted.eq _ _ _) (fun s' w3 =>
      bind_eq (scriptGate_status w3 hr h) (fun _ w4 => Unscripted.eq _ _ _))

end

end KSync
