import Verif.Lemmas.Program
import Verif.Props.Restart
import Verif.Props.WithholdRun
import Verif.Props.History
import Verif.Props.Calm

/-!
# The whole program (property C76)

`krillSync` (Verif/Model/Program.lean) is one start of the program, from its options to its exit status.
`StandardOptions`, `NewDisk`, `Start.Gets` and `Installation` are in `Verif/Spec/Program.lean`.
-/

set_option linter.unusedVariables false

namespace KSync

/-- **C76.** Install the program on a new disk, without naming directories for RRDP and rsync, and let it
be started any number of times; each of these starts may fail or be killed anywhere, or find the lock
taken.  At every instant the published notification, if there is one, is whole, and every file it refers
to is there with the right content.

Partial: conditions on the runs as for `C01_files_in_place_partial`. -/
theorem C76_always_complete_partial [Ext] (life : SourceLife) (r : RawConfig) (c : Config)
    (base name : Str) (f0 f : FS) (p : Progress) (ho : StandardOptions r c base name)
    (hco : c.rsyncEnabled = true → CleanObjects c.rsyncIncludeHost) (hn : NewDisk c f0)
    (h : Installation r c f0 (GoodRun life c base name) p f) :
    f.leaf (c.notifPath name) = none ∨
    ∃ n t, f.leaf (c.notifPath name) = some (.file (Ext.writeNotif n) t) ∧
      ∀ r ∈ n.refs, ∃ rel, r.1 = base ++ rel ∧ FileHas f (c.pubPath rel) r.2 :=
  C01_files_in_place_partial life c base name p f (stateDir_of_default ho).1 hco
    ((h.history ho hco hn (fun _ _ _ _ _ h => h.source)).1.mono id (fun _ _ hf => hf.pristine)
      (fun _ _ _ _ _ h => h))

/-- **C76, a start that meets no failure.** In the life of such an installation, let the program be started
once more, when the options are acceptable, nobody else holds the lock, no system call fails, the source
supplies what it announces, and there is no reason to withhold it.  Then the exit status is 0
and what is published is the source's current version with all its files.  In particular this holds of the
very first start.

Partial: conditions as for `C23_restart_with_tals_partial`. -/
theorem C76_serves_partial [Ext] (life : SourceLife) (T : SourceTree) (r : RawConfig) (c : Config)
    (base name : Str) (f0 f : FS) (p p' : Progress) (depth : Nat) (s : Start) (n : Notif)
    (ho : StandardOptions r c base name)
    (hT : T.Tidy name) (hco : c.rsyncEnabled = true → CleanObjects c.rsyncIncludeHost)
    (hsym : c.rsyncEnabled = true → c.rsyncUseSymlinks = true) (hmax : c.rrdpMaxDeltas ≠ some 0)
    (hn : NewDisk c f0) (h : Installation r c f0 (TidyRun life T c base name) p f)
    (hst : StatesWhole c f) (husable : ∀ b, r.rest.sourceUriBase = some b → UsableBase f b)
    (hgets : s.Gets depth r c f (fun f1 => TidyRun life T c base name p p' depth s.work f1 ∧
      Supplies c base s.work f1 n ∧ Unopposed depth c base s.work f1))
    (hf : NoFaults s.setUp) (hf' : NoFaults s.work) (hcf : ChildrenFirst s.work) :
    (krillSync depth r s f).status = 0 ∧ PublishedAs c base name (krillSync depth r s f).disk n := by
  obtain ⟨env, w, hc⟩ := ho.accepted
  obtain ⟨htaken, hgets⟩ := hgets
  obtain ⟨hist, hd⟩ := h.history ho hco hn (fun _ _ _ _ _ h => h.good.source)
  obtain ⟨c', hc'⟩ := (C71_accepted_iff r s.setUp (World.start f)).2 ⟨⟨base, name, ho.uri⟩, husable⟩
  cases postConfigure_unique hc hc'
  have hgoes : Goes (takeLock c s.taken) s.setUp (World.start f) := by
    rw [htaken]
    rcases hd with hd | hd
    · exact hd.takeLock_goes hf
    · exact hd.takeLock_goes hf
  obtain ⟨_, w1, h1⟩ := hgoes
  have hcur : w1.cur ∈ (takeLock c s.taken s.setUp (World.start f)).2.crashPoints := by
    rw [h1]; exact List.mem_cons_self ..
  have hset : SetUp c f w1.cur := takeLock_instants _ hcur
  match h2 : process depth c s.work (World.start w1.cur) with
  | (res, w2) =>
    have h3 : krillSync depth r s f = ⟨exitStatus res, w2.cur, w2.crashPoints ++ w1.crashPoints⟩ := by
      unfold krillSync; simp only [hc', h1, h2]
    have hin : w1.cur ∈ (krillSync depth r s f).instants := by
      rw [h3]; exact List.mem_append_right _ (List.mem_cons_self ..)
    obtain ⟨hrun, hsup, ht, hs⟩ := hgets w1.cur hin hset (takeLock_ok h1).1
    have key : TidyLifetime life T c base name p w1.cur ∧ StatesWhole c w1.cur := by
      rcases hd with hd | hd
      · rw [takeLock_idle_instants hd _ hcur]
        exact ⟨hist, hst⟩
      · have hu := (hd.setUp hset).untouched ho
        have e1 : w1.cur.get c.rrdpStatePath = none :=
          hu.empty _ (by unfold Config.places; simp) _ (List.prefix_refl _)
        have e2 : w1.cur.get c.rsyncStatePath = none :=
          hu.empty _ (by unfold Config.places; simp) _ (List.prefix_refl _)
        refine ⟨.start hu, Or.inl ?_, ⟨_, Or.inr ⟨?_, rfl⟩⟩⟩
        · unfold FS.exists? FS.resolve; rw [e1]; rfl
        · unfold FS.leaf; rw [e2]
    have hl := (stateDir_of_default ho).1
    obtain ⟨w', h4, h5⟩ : ∃ w', process depth c s.work (World.start w1.cur) = (.ok (), w') ∧
        PublishedAs c base name w'.cur n := by
      rcases ht with ht | ht
      · exact C23_restart_without_tals_partial life T c base name p p' w1.cur depth s.work n
          hl hT hco hsym hmax key.1 key.2 hrun hf' hcf hsup ht hs
      · exact C23_restart_with_tals_partial life T c base name p p' w1.cur depth s.work n
          hl hT hco hsym hmax key.1 key.2 hrun hf' hcf hsup ht hs
    rw [h2] at h4
    cases h4
    rw [h3]
    exact ⟨rfl, h5⟩

/-- **C76, exit status 0.** Whatever fails meanwhile: if the exit status of a start is 0 then what is
published is the version that the source supplied to it, with all its files.

Partial: conditions as for `C23_restart_partial`. -/
theorem C76_success_means_served_partial [Ext] (life : SourceLife) (T : SourceTree) (r : RawConfig)
    (c : Config) (base name : Str) (f0 f : FS) (p p' : Progress) (depth : Nat) (s : Start) (n : Notif)
    (ho : StandardOptions r c base name)
    (hT : T.Tidy name) (hco : c.rsyncEnabled = true → CleanObjects c.rsyncIncludeHost)
    (hsym : c.rsyncEnabled = true → c.rsyncUseSymlinks = true)
    (hn : NewDisk c f0) (h : Installation r c f0 (TidyRun life T c base name) p f)
    (hgets : s.Gets depth r c f (fun f1 => TidyRun life T c base name p p' depth s.work f1 ∧
      Supplies c base s.work f1 n))
    (h0 : (krillSync depth r s f).status = 0) :
    PublishedAs c base name (krillSync depth r s f).disk n := by
  obtain ⟨env, w, hc⟩ := ho.accepted
  obtain ⟨htaken, hgets⟩ := hgets
  obtain ⟨hist, hd⟩ := h.history ho hco hn (fun _ _ _ _ _ h => h.good.source)
  have hl := (stateDir_of_default ho).1
  rcases krillSync_cases depth r s f hc with ⟨h1, _, _⟩ | ⟨e, w', h3, h4⟩ | ⟨w', res, w2, h3, h4, h5⟩
  · rw [h1] at h0; cases h0
  · rw [h4] at h0
    exact absurd ((takeLock_status h3).symm.trans h0) (by decide)
  · have hcur : w'.cur ∈ (takeLock c s.taken s.setUp (World.start f)).2.crashPoints := by
      rw [h3]; exact List.mem_cons_self ..
    have hset : SetUp c f w'.cur := takeLock_instants _ hcur
    obtain ⟨hrun, hsup⟩ := hgets w'.cur (by
      rw [h5]; exact List.mem_append_right _ (List.mem_cons_self ..)) hset (takeLock_ok h3).1
    have key : TidyLifetime life T c base name p w'.cur := by
      rcases hd with hd | hd
      · rw [takeLock_idle_instants hd _ hcur]
        exact hist
      · exact .start ((hd.setUp hset).untouched ho)
    rw [h5] at h0 ⊢
    cases exitStatus_zero h0
    exact completed_as hl hco (key.steady hT hl hco hsym) hrun hsup h4

/-- **C76, options that are refused.** Then the exit status is 1 and nothing on disk has changed. -/
theorem C76_options_refused [Ext] (r : RawConfig) (depth : Nat) (s : Start) (f : FS)
    (h : (¬ ∃ base name, InDirectory r.rest.notificationUri base name) ∨
      ∃ b, r.rest.sourceUriBase = some b ∧ ¬ UsableBase f b) :
    (krillSync depth r s f).status = 1 ∧ (krillSync depth r s f).instants = [f] ∧
      (krillSync depth r s f).disk = f := by
  match h1 : (postConfigure r s.setUp (World.start f)).1 with
  | .ok c =>
    obtain ⟨g1, g2⟩ := (C71_accepted_iff r s.setUp (World.start f)).1 ⟨c, h1⟩
    rcases h with h | ⟨b, h, h'⟩
    · exact absurd g1 h
    · exact absurd (g2 b h) h'
  | .error e =>
    have : krillSync depth r s f = ⟨exitStatus (.error e), f, [f]⟩ := by
      unfold krillSync; simp only [h1]
    rw [this]
    exact ⟨postConfigure_status h1, rfl, rfl⟩

/-- **C76, somebody else has the lock.** Then the exit status is 1 and nothing on disk has changed, except
that the state directory and the lock file may have been created. -/
theorem C76_lock_taken [Ext] (r : RawConfig) (c : Config) (env : Env) (w : World) (depth : Nat) (s : Start)
    (f : FS) (hc : (postConfigure r env w).1 = .ok c) (h : s.taken = true) :
    (krillSync depth r s f).status = 1 ∧ ∀ g ∈ (krillSync depth r s f).instants, SetUp c f g := by
  rcases krillSync_cases depth r s f hc with ⟨h1, _, h2⟩ | ⟨e, w', h3, h4⟩ | ⟨w', res, w2, h3, h4, h5⟩
  · refine ⟨h1, fun g hg => ?_⟩
    rw [h2] at hg
    rw [List.mem_singleton.1 hg]
    exact SetUp.refl
  · rw [h4]
    refine ⟨takeLock_status h3, fun g hg => ?_⟩
    exact takeLock_instants (taken := s.taken) (env := s.setUp) g (by rw [h3]; exact hg)
  · rw [(takeLock_ok h3).2] at h; cases h

/-- **C76, no panic.** The exit status is never that of a panic, unless `--rrdp-max-deltas 0` is given. -/
theorem C76_no_panic [Ext] (r : RawConfig) (depth : Nat) (s : Start) (f : FS)
    (h : r.rest.rrdpMaxDeltas ≠ some 0) : (krillSync depth r s f).status ≠ 101 := by
  match h1 : (postConfigure r s.setUp (World.start f)).1 with
  | .error e =>
    have : krillSync depth r s f = ⟨exitStatus (.error e), f, [f]⟩ := by
      unfold krillSync; simp only [h1]
    rw [this]
    show exitStatus (.error e) ≠ 101
    rw [postConfigure_status h1]; decide
  | .ok c =>
    rcases krillSync_cases depth r s f h1 with ⟨h2, _, _⟩ | ⟨e, w', h3, h4⟩ | ⟨w', res, w2, h3, h4, h5⟩
    · rw [h2]; decide
    · rw [h4]
      show exitStatus (.error e) ≠ 101
      rw [takeLock_status h3]; decide
    · rw [h5]
      have := (C59_no_panic depth c r s.work (World.start w'.cur)).2 (fun g => h (by
        rw [← (C71_options_kept r _ _ c h1).maxDeltas]; exact g.1))
      rw [h4] at this
      show exitStatus res ≠ 101
      intro he
      cases res with
      | ok _ => cases he
      | error e =>
        cases e <;> first | exact this rfl | (exact absurd he (by decide))

/-! ## The hypotheses can be met -/

section

open Demo

set_option maxRecDepth 100000

namespace Demo

theorem standardOptions : StandardOptions rawPlain confPlain base name :=
  ⟨⟨_, _, confPlain_ok⟩, by decide, by decide, inDirectory, ⟨by decide, by decide, by decide, by decide⟩⟩

theorem newDisk0 : NewDisk confPlain fs0 := by
  refine ⟨pristine0.wf, fun q hq h1 _ => ?_, fun q _ => ?_, Or.inl (by decide)⟩
  · cases q with
    | nil => exact absurd (List.prefix_nil.1 hq) (by decide)
    | cons a q => rfl
  · cases q with
    | nil => exact Or.inr rfl
    | cons a q => exact Or.inl rfl

theorem offersPlain {t : Time} {n n' : Notif} {fs : FS} {etag : Option Str}
    (h : Offers confPlain (envAt t n) fs etag n') : n' = n :=
  offers_only rfl (fun _ r hr => if_pos hr) h

theorem goodSourcePlain {t : Time} {n : Notif} {fs : FS} (h : goodNotifB base name n = true) :
    GoodSource confPlain base name (envAt t n) fs := by
  intro etag n' hn
  rw [offersPlain hn]
  exact goodNotif_of_check h

/-- A start that finds version 1. -/
def start1 : Start := ⟨envAt 0 notif1, false, envAt 0 notif1⟩
/-- ... version 2. -/
def start2 : Start := ⟨envAt 1 notif2, false, envAt 1 notif2⟩

theorem goodRunPlain1 {f : FS} (h : (process 5 confPlain (envAt 0 notif1) (World.start f)).2.copied = []) :
    GoodRun life confPlain base name p0 p1 5 (envAt 0 notif1) f where
  source := goodSourcePlain (by decide)
  later := Or.inl (by decide)
  lists := fun _ _ h => offersPlain h ▸ lists_of_check (by decide)
  notBefore := fun _ _ h => offersPlain h ▸ Or.inl (by decide)
  notAfter := by
    intro _ _ h
    rw [offersPlain h]
    exact Or.inr ⟨by decide, by decide, fun k hk =>
      Nat.lt_of_not_le (fun hle => hk (Or.inr ⟨rfl, hle⟩))⟩
  no304 := no304 _ _
  limit := nofun
  brisk := brisk _ _
  moves := Or.inl h

theorem goodRunPlain2 {f : FS} (h : (process 5 confPlain (envAt 1 notif2) (World.start f)).2.copied = []) :
    GoodRun life confPlain base name p1 p2 5 (envAt 1 notif2) f where
  source := goodSourcePlain (by decide)
  later := Or.inr (by decide)
  lists := fun _ _ h => offersPlain h ▸ lists_of_check (by decide)
  notBefore := by
    intro _ _ h
    rw [offersPlain h]
    refine Or.inr ⟨by decide, by decide, fun d hd => ?_⟩
    rw [show notif2.deltas = [⟨2, uri "d2", [2]⟩] from rfl, List.mem_singleton] at hd
    rw [hd]; decide
  notAfter := by
    intro _ _ h
    rw [offersPlain h]
    refine Or.inr ⟨by decide, by decide, fun k hk => ?_⟩
    have hp : (⟨2, uri "d2", [2]⟩ : DeltaInfo) ∈ notif2.deltas :=
      (List.mem_singleton.2 rfl)
    exact Nat.lt_of_not_le (fun hle => hk (Or.inl ⟨_, hp, hle⟩))
  no304 := no304 _ _
  limit := nofun
  brisk := brisk _ _
  moves := Or.inl h

theorem tree_hasPlain {n : Notif} (h : tree.Has conf base n) : tree.Has confPlain base n :=
  ⟨h.files, h.objects, h.names, h.objectNames⟩

/-- What has nothing to do with setting up is the same. -/
theorem _root_.KSync.SetUp.get_eq {c : Config} {f f1 : FS} (h : SetUp c f f1) {q : Path}
    (hq : ¬ q <+: c.stateDir) (hl : q ≠ c.lockFile) : f1.get q = f.get q := by
  rcases h.only q with a | ⟨_, ⟨a, _⟩ | ⟨a, _⟩⟩
  · exact a
  · exact absurd a hq
  · exact absurd a hl

/-- The first start, killed when version 1 has been copied and before there is a notification. -/
def fsKilled : FS :=
  ((krillSync 5 rawPlain start1 fs0).instants.find? (fun f =>
    f.exists? (confPlain.pubPath "s1".toList) && !f.exists? (confPlain.notifPath name) &&
    !f.exists? confPlain.rrdpStatePath)).getD fs0

theorem fsKilled_in : fsKilled ∈ (krillSync 5 rawPlain start1 fs0).instants := by decide +kernel

theorem gets1 : start1.Gets 5 rawPlain confPlain fs0
    (TidyRun life tree confPlain base name p0 p1 5 start1.work) := by
  refine ⟨rfl, fun f1 h hs _ => ⟨goodRunPlain1 ?_, fun _ _ h =>
    offersPlain h ▸ tree_hasPlain (tree_has (by decide) (by decide) (by decide))⟩⟩
  have : ∀ f1 ∈ (krillSync 5 rawPlain start1 fs0).instants, f1.get confPlain.rsyncDir = none →
      f1.get confPlain.stagingDir = none →
      (process 5 confPlain (envAt 0 notif1) (World.start f1)).2.copied = [] := by decide +kernel
  exact this f1 h (hs.get_eq (by decide) (by decide)) (hs.get_eq (by decide) (by decide))

theorem installed : Installation rawPlain confPlain fs0 (TidyRun life tree confPlain base name) p1
    fsKilled :=
  .start (i := p0) .new (Or.inr gets1) fsKilled_in

theorem suppliesPlain2 (t : Time) (f : FS) : Supplies confPlain base (envAt t notif2) f notif2 where
  notification := ⟨.uri (uri "n") false, resolve_locates.1 rfl, fun _ _ _ =>
    ⟨.absent, _, rfl, (by decide), Ext.parse_write notif2⟩⟩
  files := by
    have : ∀ k h, files.lookup (uri k) = some h → uri k ≠ uri "n" →
        (∃ rel, uri k = base ++ rel) ∧ ∃ src, confPlain.Locates (uri k) src ∧
          src.Serves confPlain (envAt t notif2) f (fun b => Ext.sha b = h) := by
      intro k h h1 h2
      refine ⟨⟨k.toList, rfl⟩, .uri (uri k) false, resolve_locates.1 rfl, fun _ _ _ => ⟨.absent, h, ?_, (by decide), rfl⟩⟩
      unfold envAt
      dsimp only
      rw [if_neg h2, h1]
    intro r hr
    rw [show notif2.refs = [(uri "s2", snap 2), (uri "d2", [2])] from rfl, List.mem_cons,
      List.mem_singleton] at hr
    rcases hr with rfl | rfl
    · exact this "s2" _ (by decide) (by decide)
    · exact this "d2" _ (by decide) (by decide)
  deltas := (supplies2 t f).deltas
  whole := (supplies2 t f).whole

theorem gets2 : start2.Gets 5 rawPlain confPlain fsKilled (fun f1 =>
    TidyRun life tree confPlain base name p1 p2 5 start2.work f1 ∧
      Supplies confPlain base start2.work f1 notif2) := by
  refine ⟨rfl, fun f1 h hs _ => ⟨⟨goodRunPlain2 ?_, fun _ _ h =>
    offersPlain h ▸ tree_hasPlain (tree_has (by decide) (by decide) (by decide))⟩, suppliesPlain2 _ _⟩⟩
  have : ∀ f1 ∈ (krillSync 5 rawPlain start2 fsKilled).instants,
      f1.get (confPlain.stagingPath "s2".toList) = fsKilled.get (confPlain.stagingPath "s2".toList) →
      f1.get (confPlain.pubPath "s2".toList) = fsKilled.get (confPlain.pubPath "s2".toList) →
      (process 5 confPlain (envAt 1 notif2) (World.start f1)).2.copied = [] := by decide +kernel
  exact this f1 h (hs.get_eq (by decide) (by decide)) (hs.get_eq (by decide) (by decide))

theorem statesWholeKilled : StatesWhole confPlain fsKilled := by
  refine ⟨Or.inl (by decide +kernel), ?_⟩
  have h2 : ((fsKilled.file? confPlain.rsyncStatePath).bind Ext.decRsync).isSome = true := by decide +kernel
  obtain ⟨s, hs⟩ := Option.isSome_iff_exists.1 h2
  obtain ⟨b, h3, h4⟩ := Option.bind_eq_some_iff.1 hs
  exact ⟨s, Or.inl ⟨b, h3, h4⟩⟩

end Demo

example := C76_serves_partial life tree rawPlain confPlain base name fs0 fsKilled p1 p2 5 start2 notif2
  standardOptions tree_tidy (fun _ => cleanObjects _) (fun _ => rfl) (by decide) newDisk0 installed
  statesWholeKilled (fun _ h => by cases h)
  ⟨gets2.1, fun f1 a b d => ⟨(gets2.2 f1 a b d).1, (gets2.2 f1 a b d).2, Or.inl rfl, fun _ _ _ => Or.inl rfl⟩⟩
  (fun _ => rfl) (fun _ => rfl) (childrenFirst _ _)

/-- The very first start. -/
example : (krillSync 5 rawPlain start1 fs0).status = 0 ∧
    (krillSync 5 rawPlain start1 fs0).disk.exists? (confPlain.notifPath name) = true := by decide +kernel

example := C76_success_means_served_partial life tree rawPlain confPlain base name fs0 fsKilled p1 p2 5
  start2 notif2 standardOptions tree_tidy (fun _ => cleanObjects _) (fun _ => rfl) newDisk0 installed gets2
  (by decide +kernel)

example := C76_always_complete_partial life rawPlain confPlain base name fs0 fsKilled p1 standardOptions
  (fun _ => cleanObjects _) newDisk0 (.start (i := p0) .new
    (Or.inr ⟨gets1.1, fun f1 a b d => (gets1.2 f1 a b d).good⟩) fsKilled_in)

/-- Somebody else has the lock: the first start only leaves the lock file. -/
example : (krillSync 5 rawPlain { start1 with taken := true } fs0).status = 1 ∧
    (krillSync 5 rawPlain { start1 with taken := true } fs0).disk.exists? confPlain.lockFile = true ∧
    ∀ g ∈ (krillSync 5 rawPlain { start1 with taken := true } fs0).instants, SetUp confPlain fs0 g :=
  ⟨by decide +kernel, by decide +kernel,
    (C76_lock_taken rawPlain confPlain _ _ 5 { start1 with taken := true } fs0 confPlain_ok rfl).2⟩

/-- A source that does not end in a slash is refused. -/
example := C76_options_refused
  { rawPlain with rest := { rawPlain.rest with sourceUriBase := some (.uri "https://m/x".toList false) } }
  5 start1 fs0 (Or.inr ⟨_, rfl, by
    rintro ⟨t, h⟩
    have := congrArg List.getLast? h
    rw [List.getLast?_append, show ("https://m/x".toList : Str).getLast? = some 'x' by decide] at this
    simp at this⟩)

example : (krillSync 5 rawPlain start1 fs0).status ≠ 101 := C76_no_panic _ _ _ _ (by decide)

end

end KSync
