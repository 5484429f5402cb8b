import Verif.Spec.Program
import Verif.Lemmas.Lock
import Verif.Lemmas.Restart
import Verif.Props.Configure

/-! # Whole programs -/

set_option linter.unusedSectionVars false
set_option linter.unusedVariables false

namespace KSync

variable [Ext]

/-- The options decide the configuration. -/
theorem postConfigure_unique {r : RawConfig} {env env' : Env} {w w' : World} {c c' : Config}
    (h : (postConfigure r env w).1 = .ok c) (h' : (postConfigure r env' w').1 = .ok c') : c = c' := by
  rw [postConfigure_run] at h h'
  cases hp : httpsParent r.rest.notificationUri with
  | none => rw [hp] at h; simp at h
  | some base =>
    rw [hp] at h h'
    cases hs : effectiveSource r.rest.insecure r.rest.sourceUriBase with
    | none =>
      rw [hs] at h h'
      rw [h] at h'
      injection h'
    | some s =>
      rw [hs] at h h'
      dsimp only at h h'
      by_cases hd : s.isDir w.cur = true
      · by_cases hd' : s.isDir w'.cur = true
        · rw [if_pos hd] at h; rw [if_pos hd'] at h'
          rw [h] at h'; injection h'
        · rw [if_neg hd'] at h'; simp at h'
      · rw [if_neg hd] at h; simp at h

/-! ## The lock -/

variable {c : Config}

theorem SetUp.mkdir {f : FS} {p : Path} (hp : p <+: c.stateDir) (hn : f.get p = none)
    (hd : f.get p.dropLast = some .dir) : SetUp c f (f.set p .dir) := by
  have hne : p ≠ [] := by rintro rfl; simp [FS.get] at hn
  refine ⟨fun hw => FS.WF.set hw hne hd (Or.inl rfl), fun q => ?_⟩
  by_cases hq : q = p
  · subst hq
    exact Or.inr ⟨hn, Or.inl ⟨hp, FS.get_set_self _ hne _⟩⟩
  · exact Or.inl (FS.get_set_ne _ _ hq)

theorem SetUp.create {f : FS} {t : Time} (hd : f.get c.stateDir = some .dir)
    (hn : f.get c.lockFile = none) : SetUp c f (f.set c.lockFile (.file [] t)) := by
  refine ⟨fun hw => FS.WF.set hw lockFile_ne (lockFile_dropLast ▸ hd)
    (Or.inr (hw.hasChild_of_leaf (by rw [hn]; simp))), fun q => ?_⟩
  by_cases hq : q = c.lockFile
  · subst hq
    exact Or.inr ⟨hn, Or.inr ⟨rfl, t, FS.get_set_self _ lockFile_ne _⟩⟩
  · exact Or.inl (FS.get_set_ne _ _ hq)

theorem mkdir1_setUp {p : Path} (hp : p <+: c.stateDir) : Does (SetUp c) (mkdir1 p) := by
  intro env w
  unfold mkdir1
  rw [getFs_bind]
  match h : w.cur.get p with
  | some .dir => exact Steps.refl
  | some (.file _ _) => exact Steps.refl
  | some (.link _) => exact Steps.refl
  | none =>
    dsimp only
    rw [io_bind]
    by_cases hf : env.fault w.tick = true
    · rw [if_pos hf]; exact .same rfl rfl
    · rw [if_neg hf]
      refine Steps.trans (w1 := { w with tick := w.tick + 1 }) (.same rfl rfl) ?_
      by_cases hd : w.cur.get p.dropLast = some .dir
      · rw [if_pos hd]
        exact Steps.of_push (env := env) (SetUp.mkdir hp h hd)
      · rw [if_neg hd]
        exact Steps.refl

theorem openLock_setUp : Does (SetUp c) (openLock c.lockFile) := by
  intro env w
  unfold openLock
  rw [io_bind]
  by_cases hf : env.fault w.tick = true
  · rw [if_pos hf]; exact .same rfl rfl
  · rw [if_neg hf, getFs_bind, lockFile_dropLast]
    refine Steps.trans (w1 := { w with tick := w.tick + 1 }) (.same rfl rfl) ?_
    by_cases hd : c.lockFile = [] ∨ w.cur.get c.stateDir ≠ some .dir
    · rw [if_pos hd]; exact Steps.refl
    · rw [if_neg hd]
      match h : w.cur.get c.lockFile with
      | some .dir => exact Steps.refl
      | some (.file _ _) => exact Steps.refl
      | some (.link _) => exact Steps.refl
      | none =>
        exact Steps.of_push (env := env) (SetUp.create (Classical.not_not.1 (fun e => hd (Or.inr e))) h)

theorem makeStateDir_setUp : Does (SetUp c) (makeStateDir c) := by
  intro env w
  unfold makeStateDir
  rw [getFs_bind]
  by_cases h : w.cur.exists? c.stateDir = true
  · rw [if_pos h]; exact Steps.refl
  · rw [if_neg h]
    exact Rel.forEach (T := Steps (SetUp c)) (fun q hq => mkdir1_setUp (prefix_of_mem_prefixes hq)) env w

/-- Up to the lock, there is only set up what is missing. -/
theorem takeLock_setUp {taken : Bool} : Does (SetUp c) (takeLock c taken) := by
  intro env w
  unfold takeLock
  refine Tr.bindAt (T := Steps (SetUp c)) (makeStateDir_setUp env w) (fun _ w1 _ => ?_)
  refine Tr.bindAt (T := Steps (SetUp c)) (openLock_setUp env w1) (fun _ w2 _ => ?_)
  rw [io_bind]
  by_cases hf : env.fault w2.tick = true
  · rw [if_pos hf]; exact .same rfl rfl
  · rw [if_neg hf]
    cases taken <;> exact .same rfl rfl

theorem takeLock_instants {taken : Bool} {env : Env} {f : FS} :
    ∀ g ∈ (takeLock c taken env (World.start f)).2.crashPoints, SetUp c f g :=
  crashPoints_start (takeLock_setUp env (World.start f)) (fun _ _ => SetUp.trans) SetUp.refl

theorem exists?_of_dir {f : FS} {p : Path} (h : f.get p = some .dir) : f.exists? p = true := by
  unfold FS.exists? FS.resolve; rw [h]; rfl

theorem makeStateDir_idle {env : Env} {w : World} (h : w.cur.get c.stateDir = some .dir) :
    makeStateDir c env w = (.ok (), w) := by
  unfold makeStateDir
  rw [getFs_bind, if_pos (exists?_of_dir h)]
  rfl

theorem openLock_idle {env : Env} {w : World} (h : LockThere c w.cur) :
    openLock c.lockFile env w = (if env.fault w.tick then .error .io else .ok (), { w with tick := w.tick + 1 }) := by
  obtain ⟨h1, b, t, h2⟩ := h
  unfold openLock
  rw [io_bind]
  by_cases hf : env.fault w.tick = true
  · rw [if_pos hf, if_pos hf]
  · rw [if_neg hf, if_neg hf, getFs_bind, lockFile_dropLast, if_neg (by
      rintro (h | h)
      · exact lockFile_ne h
      · exact h h1)]
    simp only [h2]
    rfl

/-- Once all is there, nothing changes. -/
theorem takeLock_idle {taken : Bool} {env : Env} {w : World} (h : LockThere c w.cur) :
    Steps (fun _ _ => False) w (takeLock c taken env w).2 := by
  unfold takeLock
  rw [M.bind_of_ok (makeStateDir_idle h.1)]
  refine Tr.bindAt (T := Steps (fun _ _ => False)) ?_ (fun _ w2 _ => ?_)
  · rw [openLock_idle h]; exact .same rfl rfl
  rw [io_bind]
  by_cases hf : env.fault w2.tick = true
  · rw [if_pos hf]; exact .same rfl rfl
  · rw [if_neg hf]
    cases taken <;> exact .same rfl rfl

theorem takeLock_idle_instants {taken : Bool} {env : Env} {f : FS} (h : LockThere c f) :
    ∀ g ∈ (takeLock c taken env (World.start f)).2.crashPoints, g = f :=
  crashPoints_start (I := fun g => g = f) (takeLock_idle (w := World.start f) h) (fun _ _ _ h => h.elim) rfl

/-- With the lock, the state directory and the lock file are there; and nobody else had it. -/
theorem takeLock_ok {taken : Bool} {env : Env} {w w' : World} (h : takeLock c taken env w = (.ok (), w')) :
    LockThere c w'.cur ∧ taken = false := by
  unfold takeLock at h
  obtain ⟨_, w1, _, h⟩ := M.bind_ok'.1 h
  obtain ⟨_, w2, h2, h⟩ := M.bind_ok'.1 h
  have key : LockThere c w2.cur := by
    unfold openLock at h2
    rw [io_bind] at h2
    by_cases hf : env.fault w1.tick = true
    · rw [if_pos hf] at h2; cases h2
    rw [if_neg hf, getFs_bind, lockFile_dropLast] at h2
    by_cases hd : c.lockFile = [] ∨ w1.cur.get c.stateDir ≠ some .dir
    · rw [if_pos hd] at h2; cases h2
    rw [if_neg hd] at h2
    have hdir : w1.cur.get c.stateDir = some .dir := Classical.not_not.1 (fun e => hd (Or.inr e))
    match hl : w1.cur.get c.lockFile with
    | some .dir => simp only [hl] at h2; cases h2
    | some (.link _) => simp only [hl] at h2; cases h2
    | some (.file b t) =>
      simp only [hl] at h2
      cases h2
      exact ⟨hdir, b, t, hl⟩
    | none =>
      simp only [hl] at h2
      cases h2
      exact ⟨(SetUp.create hdir hl).keeps hdir, _, _, FS.get_set_self _ lockFile_ne _⟩
  rw [io_bind] at h
  by_cases hf : env.fault w2.tick = true
  · rw [if_pos hf] at h; cases h
  rw [if_neg hf] at h
  cases taken with
  | true => cases h
  | false => cases h; exact ⟨key, rfl⟩

/-! ## The disk before the first run -/

theorem stateDir_of_default {r : RawConfig} {base name : Str} (h : StandardOptions r c base name) :
    Layout c base name ∧ c.rrdpDir = c.stateDir ++ ["rrdp".toList] ∧
      c.rsyncDir = c.stateDir ++ ["rsync".toList] := by
  obtain ⟨env, w, hc⟩ := h.accepted
  exact C71_default_layout r env w c base name hc h.rrdpDir h.rsyncDir h.uri h.plain

theorem NewDisk.setUp {f g : FS} (hn : NewDisk c f) (h : SetUp c f g) : NewDisk c g := by
  refine ⟨h.wf hn.wf, fun q hq h1 h2 => ?_, fun q hq => ?_, ?_⟩
  · rcases h.only q with a | ⟨_, ⟨a, _⟩ | ⟨a, _⟩⟩
    · rw [a]; exact hn.empty q hq h1 h2
    · exact absurd (hq.eq_of_length (Nat.le_antisymm hq.length_le a.length_le)).symm h1
    · exact absurd a h2
  · rcases h.only q with a | ⟨_, ⟨_, a⟩ | ⟨a, _⟩⟩
    · rw [a]; exact hn.above q hq
    · exact Or.inr a
    · exfalso
      have := hq.length_le
      rw [a] at this
      unfold Config.lockFile at this
      rw [List.length_append] at this
      exact absurd this (by simp)
  · rcases h.only c.lockFile with a | ⟨_, ⟨a, _⟩ | ⟨_, t, a⟩⟩
    · rw [a]; exact hn.lock
    · exfalso
      have := a.length_le
      unfold Config.lockFile at this
      rw [List.length_append] at this
      exact absurd this (by simp)
    · exact Or.inr ⟨_, t, a⟩

theorem NewDisk.untouched {r : RawConfig} {base name : Str} (ho : StandardOptions r c base name) {f : FS}
    (hn : NewDisk c f) : Untouched c f := by
  obtain ⟨_, e1, e2⟩ := stateDir_of_default ho
  have hpl : ∀ p ∈ c.places, ∃ x, p = c.stateDir ++ [x] ∧ x ≠ "krill-sync.lock".toList := by
    intro p hp
    unfold Config.places at hp
    simp only [List.mem_cons, List.not_mem_nil, or_false] at hp
    rcases hp with rfl | rfl | rfl | rfl | rfl
    · exact ⟨_, rfl, by decide⟩
    · exact ⟨_, rfl, by decide⟩
    · exact ⟨_, rfl, by decide⟩
    · exact ⟨_, e1, by decide⟩
    · exact ⟨_, e2, by decide⟩
  refine ⟨hn.wf, fun p hp q hq => ?_, fun p hp q hq hne => ?_⟩
  · obtain ⟨x, rfl, hx⟩ := hpl p hp
    obtain ⟨t, rfl⟩ := hq
    refine hn.empty _ (by rw [List.append_assoc]; exact List.prefix_append _ _) ?_ ?_
    · simp
    · unfold Config.lockFile
      rw [List.append_assoc]
      intro h
      have := List.append_cancel_left h
      injection this with h1 _
      exact hx h1
  · obtain ⟨x, rfl, _⟩ := hpl p hp
    refine hn.above q ?_
    rcases List.prefix_concat_iff.1 hq with h | h
    · exact absurd h hne
    · exact h

/-- The state directory can be made, and the lock taken. -/
theorem NewDisk.takeLock_goes {f : FS} {env : Env} (hn : NewDisk c f) (hf : NoFaults env) :
    Goes (takeLock c false) env (World.start f) := by
  have hmake : Goes (makeStateDir c) env (World.start f) := by
    unfold makeStateDir
    refine Goes.bind (m := getFs) ⟨_, _, rfl⟩ (fun fs w1 h1 => ?_)
    cases h1
    by_cases he : (World.start f).cur.exists? c.stateDir = true
    · rw [if_pos he]; exact Goes.pure
    rw [if_neg he]
    let P : Plan := ⟨fun _ => False, fun q => q <+: c.stateDir, fun q => q = c.stagingDir, c.stagingDir, []⟩
    have hst : ¬ c.stagingDir <+: c.stateDir := by
      intro h
      have := h.length_le
      unfold Config.stagingDir at this
      rw [List.length_append] at this
      exact absurd this (by simp)
    have hP : P.Sound := by
      refine ⟨fun _ h => h.elim, fun _ h => h.elim, fun p q h1 h2 => h2.trans h1, fun _ h => h.elim,
        fun _ h => h.elim, fun p h1 h2 => ?_, fun p h => ?_, rfl, fun _ h => h⟩
      · have h2 : p = c.stagingDir := h2
        exact hst (h2 ▸ h1)
      · have h : p = c.stagingDir := h
        rw [h]; unfold Config.stagingDir; simp
    have hno : f.get c.stagingDir = none := by
      refine hn.empty _ (List.prefix_append _ _) ?_ ?_
      · unfold Config.stagingDir; simp
      · unfold Config.stagingDir Config.lockFile
        intro h; exact absurd (List.append_cancel_left h) (by decide)
    refine createDirAll_goes hP (p := c.stateDir) (List.prefix_refl _) hf ⟨fun q n hq => ⟨fun h => h.elim, fun h => ?_, fun h => ?_⟩, fun t ht => ?_⟩
    · rcases hn.above q h with a | a
      · rw [show (World.start f).cur = f from rfl, a] at hq; cases hq
      · rw [show (World.start f).cur = f from rfl, a] at hq; cases hq; rfl
    · have h : q = c.stagingDir := h
      rw [h, show (World.start f).cur = f from rfl, hno] at hq; cases hq
    · have ht : f.get c.stagingDir = _ := ht
      rw [hno] at ht; cases ht
  unfold takeLock
  refine Goes.bind hmake (fun _ w1 h1 => ?_)
  have hset : NewDisk c w1.cur := by
    refine hn.setUp ?_
    have := (makeStateDir_setUp (c := c) env (World.start f)).ends (fun _ => SetUp.refl) (fun _ _ _ => SetUp.trans)
    rw [h1] at this
    exact this
  have hdir : w1.cur.get c.stateDir = some .dir := by
    unfold makeStateDir at h1
    rw [getFs_bind] at h1
    by_cases he : (World.start f).cur.exists? c.stateDir = true
    · rw [if_pos he] at h1
      cases h1
      rcases hn.above c.stateDir (List.prefix_refl _) with a | a
      · unfold FS.exists? FS.resolve at he
        rw [show (World.start f).cur = f from rfl, a] at he; cases he
      · exact a
    · rw [if_neg he] at h1
      exact (createDirAll_ok h1).1
  refine Goes.bind ?_ (fun _ w2 h2 => ?_)
  · unfold openLock
    refine Goes.bind ⟨_, _, io_goes hf w1⟩ (fun n w2 h2 => ?_)
    rw [io_goes hf w1] at h2
    cases h2
    refine Goes.bind (m := getFs) ⟨_, _, rfl⟩ (fun fs w2 h2 => ?_)
    cases h2
    rw [lockFile_dropLast, if_neg (by
      rintro (h | h)
      · exact lockFile_ne h
      · exact h hdir)]
    rcases hset.lock with a | ⟨b, t, a⟩
    · simp only [a]; exact ⟨_, _, rfl⟩
    · simp only [a]; exact ⟨_, _, rfl⟩
  · refine Goes.bind ⟨_, _, io_goes hf w2⟩ (fun n w3 h3 => ?_)
    exact ⟨_, _, rfl⟩

theorem LockThere.takeLock_goes {f : FS} {env : Env} (hl : LockThere c f) (hf : NoFaults env) :
    Goes (takeLock c false) env (World.start f) := by
  unfold takeLock
  rw [Goes, M.bind_of_ok (makeStateDir_idle hl.1)]
  have h2 := openLock_idle (env := env) (w := World.start f) hl
  rw [hf, if_neg Bool.false_ne_true] at h2
  rw [M.bind_of_ok h2, M.bind_of_ok (io_goes hf _)]
  exact ⟨_, _, rfl⟩

/-! ## Installations -/

theorem postConfigure_status {r : RawConfig} {env : Env} {w : World} {e : Err}
    (h1 : (postConfigure r env w).1 = .error e) : exitStatus (.error e) = 1 := by
  have hne : e ≠ .panic ∧ e ≠ .overflow := by
    rw [postConfigure_run] at h1
    split at h1
    · cases h1; exact ⟨by decide, by decide⟩
    · split at h1
      · cases h1
      · split at h1
        · cases h1
        · cases h1; exact ⟨by decide, by decide⟩
  cases e <;> first | rfl | exact absurd rfl hne.1 | exact absurd rfl hne.2

/-- A start: the options are refused; or nothing happens but setting up; or there is also a run. -/
theorem krillSync_cases (depth : Nat) (r : RawConfig) (s : Start) (f : FS)
    {env : Env} {w : World} (hc : (postConfigure r env w).1 = .ok c) :
    ((krillSync depth r s f).status = 1 ∧ (krillSync depth r s f).disk = f ∧
      (krillSync depth r s f).instants = [f]) ∨
    ((∃ e w', takeLock c s.taken s.setUp (World.start f) = (.error e, w') ∧
      krillSync depth r s f = ⟨exitStatus (.error e), w'.cur, w'.crashPoints⟩)) ∨
    (∃ w' res w2, takeLock c s.taken s.setUp (World.start f) = (.ok (), w') ∧
      process depth c s.work (World.start w'.cur) = (res, w2) ∧
      krillSync depth r s f = ⟨exitStatus res, w2.cur, w2.crashPoints ++ w'.crashPoints⟩) := by
  match h1 : (postConfigure r s.setUp (World.start f)).1 with
  | .error e =>
    left
    have : krillSync depth r s f = ⟨exitStatus (.error e), f, [f]⟩ := by
      unfold krillSync; simp only [h1]
    rw [this]
    exact ⟨postConfigure_status h1, rfl, rfl⟩
  | .ok c' =>
    right
    cases postConfigure_unique hc h1
    match h2 : takeLock c s.taken s.setUp (World.start f) with
    | (.error e, w') =>
      left
      exact ⟨e, w', rfl, by unfold krillSync; simp only [h1, h2]⟩
    | (.ok _, w') =>
      right
      match h3 : process depth c s.work (World.start w'.cur) with
      | (res, w2) => exact ⟨w', res, w2, rfl, h3, by unfold krillSync; simp only [h1, h2, h3]⟩

theorem lockFile_apart {r : RawConfig} {base name : Str} (ho : StandardOptions r c base name) :
    ¬ c.rrdpDir <+: c.lockFile ∧ ¬ c.rsyncDir <+: c.lockFile := by
  obtain ⟨_, e1, e2⟩ := stateDir_of_default ho
  unfold Config.lockFile
  constructor
  · rw [e1]
    intro h
    exact absurd ((List.prefix_append_right_inj _).1 h) (by decide)
  · rw [e2]
    intro h
    exact absurd ((List.prefix_append_right_inj _).1 h) (by decide)

theorem Steps.start_mem {R : FS → FS → Prop} {w w' : World} (h : Steps R w w') :
    w.cur ∈ w'.crashPoints := by
  have : w.cur ∈ w'.crashPoints ∧ ∀ x ∈ w.past, x ∈ w'.crashPoints := by
    induction h with
    | same a b =>
      unfold World.crashPoints
      rw [a, b]
      exact ⟨List.mem_cons_self .., fun x hx => List.mem_cons_of_mem _ hx⟩
    | push _ _ h2 ih =>
      unfold World.crashPoints at *
      rw [h2]
      exact ⟨List.mem_cons_of_mem _ ih.1, fun x hx => List.mem_cons_of_mem _ (ih.2 x hx)⟩
  exact this.1

theorem takeLock_start {taken : Bool} {env : Env} {f : FS} :
    f ∈ (takeLock c taken env (World.start f)).2.crashPoints :=
  (takeLock_setUp (c := c) env (World.start f)).start_mem

/-- The disk at the beginning is one of the instants. -/
theorem krillSync_start {depth : Nat} {r : RawConfig} {s : Start} {f : FS}
    {env : Env} {w : World} (hc : (postConfigure r env w).1 = .ok c) :
    f ∈ (krillSync depth r s f).instants := by
  have hf := takeLock_start (c := c) (taken := s.taken) (env := s.setUp) (f := f)
  rcases krillSync_cases depth r s f hc with ⟨_, _, h3⟩ | ⟨e, w', h3, h4⟩ | ⟨w', res, w2, h3, h4, h5⟩
  · rw [h3]; exact List.mem_singleton.2 rfl
  · rw [h4]; rw [h3] at hf; exact hf
  · rw [h5]; rw [h3] at hf; exact List.mem_append_right _ hf

/-- What the program does over time is a history of runs. -/
theorem Installation.history {ι : Type} {r : RawConfig} {base name : Str} {f0 f : FS} {i : ι}
    {ok : ι → ι → Nat → Env → FS → Prop} (ho : StandardOptions r c base name)
    (hco : c.rsyncEnabled = true → CleanObjects c.rsyncIncludeHost) (hn : NewDisk c f0)
    (hok : ∀ i j d e f, ok i j d e f → GoodSource c base name e f)
    (h : Installation r c f0 ok i f) :
    History c (fun _ => Untouched c) ok i f ∧ (LockThere c f ∨ NewDisk c f) := by
  obtain ⟨env, w, hc⟩ := ho.accepted
  have hl := (stateDir_of_default ho).1
  obtain ⟨ha, hb⟩ := lockFile_apart ho
  have conds : ∀ {i j d e f}, History c (fun _ => Untouched c) ok i f → ok i j d e f →
      RunConds c base name e f := by
    intro i j d e f h1 h2
    have hup : Updates c base name f := h1.mono (fun _ => ())
      (fun _ f hf => hf.pristine) (fun i j d e f h => hok i j d e f h)
    exact hup.conds hl hco (hok _ _ _ _ _ h2)
  induction h with
  | new => exact ⟨.start (hn.untouched ho), Or.inr hn⟩
  | @start i j depth s f g _ h1 hg ih =>
    obtain ⟨ih, hd⟩ := ih
    have early : ∀ g ∈ (takeLock c s.taken s.setUp (World.start f)).2.crashPoints,
        (History c (fun _ => Untouched c) ok i g ∧ History c (fun _ => Untouched c) ok j g) ∧
          (LockThere c g ∨ NewDisk c g) := by
      intro g hg
      rcases hd with hd | hd
      · rw [takeLock_idle_instants hd g hg]
        refine ⟨⟨ih, ?_⟩, Or.inl hd⟩
        rcases h1 with ⟨_, rfl⟩ | ⟨_, h1⟩
        · exact ih
        · have hrun := h1 f (krillSync_start hc) SetUp.refl hd
          exact ih.run hrun (process_within (w := World.start f) (conds ih hrun)).steps.start_mem
      · have := hd.setUp (takeLock_instants g hg)
        exact ⟨⟨.start (this.untouched ho), .start (this.untouched ho)⟩, Or.inr this⟩
    rcases krillSync_cases depth r s f hc with ⟨_, _, h3⟩ | ⟨e, w', h3, h4⟩ | ⟨w', res, w2, h3, h4, h5⟩
    · rw [h3] at hg
      rw [List.mem_singleton.1 hg]
      have := early f takeLock_start
      exact ⟨this.1.2, this.2⟩
    · rw [h4] at hg
      have := early g (by rw [h3]; exact hg)
      exact ⟨this.1.2, this.2⟩
    · have hcur : w'.cur ∈ (takeLock c s.taken s.setUp (World.start f)).2.crashPoints := by
        rw [h3]; exact List.mem_cons_self ..
      rw [h5] at hg
      rcases List.mem_append.1 hg with hg | hg
      · have h6 := early w'.cur hcur
        obtain ⟨h7, h8⟩ := takeLock_ok h3
        have hset : SetUp c f w'.cur := takeLock_instants _ hcur
        have hrun : ok i j depth s.work w'.cur := by
          rcases h1 with ⟨h1, _⟩ | ⟨_, h1⟩
          · rw [h8] at h1; cases h1
          · refine h1 w'.cur ?_ hset h7
            rw [h5]; exact List.mem_append_right _ (List.mem_cons_self ..)
        have hcp : g ∈ (process depth c s.work (World.start w'.cur)).2.crashPoints := by rw [h4]; exact hg
        exact ⟨h6.1.1.run hrun hcp, Or.inl ((run_lockThere (conds h6.1.1 hrun) ha hb hcp).2 h7)⟩
      · have := early g (by rw [h3]; exact hg)
        exact ⟨this.1.2, this.2⟩

/-! ## Exit statuses -/

/-- Fails only with an error of the operating system, or because the lock is taken. -/
def Plainly {α : Type} (m : M α) : Prop := ∀ env w e, (m env w).1 = .error e → e = .io ∨ e = .locked

theorem Plainly.bind {α β : Type} {m : M α} {f : α → M β} (h : Plainly m) (hf : ∀ a, Plainly (f a)) :
    Plainly (m >>= f) := by
  intro env w e he
  rw [M.bind_run] at he
  match h1 : m env w with
  | (.ok a, w1) => rw [h1] at he; exact hf a env w1 e he
  | (.error e', w1) => rw [h1] at he; cases he; exact h env w e (by rw [h1])

theorem Plainly.pure {α : Type} (a : α) : Plainly (Pure.pure a : M α) := fun _ _ _ h => by cases h
theorem Plainly.getFs : Plainly getFs := fun _ _ _ h => by cases h
theorem Plainly.askEnv : Plainly askEnv := fun _ _ _ h => by cases h
theorem Plainly.push (fs : FS) : Plainly (push fs) := fun _ _ _ h => by cases h
theorem Plainly.throw {α : Type} : Plainly (M.throw .io : M α) := fun _ _ _ h => by cases h; exact Or.inl rfl
theorem Plainly.io : Plainly io := by
  intro env w e h
  unfold KSync.io at h
  dsimp only at h
  by_cases hf : env.fault w.tick = true
  · rw [if_pos hf] at h; cases h; exact Or.inl rfl
  · rw [if_neg hf] at h; cases h

theorem Plainly.forEach {α : Type} {f : α → M Unit} (h : ∀ a, Plainly (f a)) :
    ∀ l, Plainly (M.forEach l f)
  | [] => fun _ _ _ h => by cases h
  | a :: l => Plainly.bind (h a) (fun _ => Plainly.forEach h l)

theorem takeLock_plainly {taken : Bool} : Plainly (takeLock c taken) := by
  unfold takeLock makeStateDir openLock createDirAll
  refine Plainly.bind (Plainly.bind Plainly.getFs (fun fs => ?_)) (fun _ => Plainly.bind
    (Plainly.bind Plainly.io (fun n => Plainly.bind Plainly.getFs (fun fs => ?_))) (fun _ =>
      Plainly.bind Plainly.io (fun _ => ?_)))
  · split
    · exact Plainly.pure _
    · refine Plainly.forEach (fun p => ?_) _
      unfold mkdir1
      refine Plainly.bind Plainly.getFs (fun fs => ?_)
      split
      · exact Plainly.pure _
      · exact Plainly.throw
      · refine Plainly.bind Plainly.io (fun _ => ?_)
        split
        · exact Plainly.push _
        · exact Plainly.throw
  · split
    · exact Plainly.throw
    · split
      · exact Plainly.pure _
      · exact Plainly.throw
      · exact Plainly.bind Plainly.askEnv (fun _ => Plainly.push _)
  · cases taken
    · exact Plainly.pure _
    · intro env w e h
      cases h; exact Or.inr rfl

theorem takeLock_status {taken : Bool} {env : Env} {w w' : World} {e : Err}
    (h : takeLock c taken env w = (.error e, w')) : exitStatus (.error e) = 1 := by
  rcases takeLock_plainly env w e (by rw [h]) with rfl | rfl <;> rfl

theorem exitStatus_zero {res : Except Err Unit} (h : exitStatus res = 0) : res = .ok () := by
  cases res with
  | ok _ => rfl
  | error e => cases e <;> cases h

end KSync
