import Verif.Lemmas.Restart
import Verif.Lemmas.Stuck
import Verif.Examples.Life
import Verif.Props.Rsync

/-!
# Starting again after a crash (properties C23, C54)

`TidyLifetime`, `StatesWhole`, `Supplies`, `Passes`, `PublishedAs`, `Stuck` are defined in
`Verif/Spec/Restart.lean`.
-/

set_option linter.unusedVariables false

namespace KSync

/-- **C23.** Take the disk at any instant in the life of an installation, after any number of runs that
completed, failed or were cut off anywhere, except while a state file was being written.  Then a run that
meets no failure, over a source that supplies what it announces, and whose update passes the checks,
completes, and what is published afterwards is the source's current version, with all its files.

Partial: rsync is disabled or uses links (for moves it is false, see `C23_refuted_for_moves`); the source
keeps to names that fit on one file system (`SourceTree.Tidy`); conditions as for
`C01_files_in_place_partial`. -/
theorem C23_restart_partial [Ext] (life : SourceLife) (T : SourceTree) (c : Config) (base name : Str)
    (p p' : Progress) (f : FS) (depth : Nat) (env : Env) (n : Notif)
    (hl : Layout c base name) (hT : T.Tidy name)
    (ho : c.rsyncEnabled = true → CleanObjects c.rsyncIncludeHost)
    (hsym : c.rsyncEnabled = true → c.rsyncUseSymlinks = true) (hmax : c.rrdpMaxDeltas ≠ some 0)
    (h : TidyLifetime life T c base name p f) (hst : StatesWhole c f)
    (hr : TidyRun life T c base name p p' depth env f) (hf : NoFaults env) (hcf : ChildrenFirst env)
    (hsup : Supplies c base env f n) (hpass : Passes depth c env f) :
    ∃ w', process depth c env (World.start f) = (.ok (), w') ∧ PublishedAs c base name w'.cur n := by
  have hk := h.steady hT hl ho hsym
  obtain ⟨_, w', hw⟩ := restart hT hl ho hsym hmax hk hr hf hcf hst hsup hpass
  exact ⟨w', hw, completed_as hl ho hk hr hsup hw⟩

/-- Without TALs there is no pre-validation; it remains that the scripts agree, or can be started if
their verdict does not count. -/
theorem passes_without_tals [Ext] (depth : Nat) (c : Config) (env : Env) (f : FS)
    (ht : c.talFiles = []) (hs : ∀ tick, ∀ q ∈ c.scripts, env.script tick q = some true ∨
      (c.talRejectInvalid = false ∧ env.script tick q ≠ none)) :
    Passes depth c env f := by
  intro s0 w1 st w2 _ _
  have h1 : s0.preValidate depth c env w2 = (.ok { s0 with validator := none }, w2) := by
    unfold RrdpState.preValidate reconfigureValidator chooseValidator
    rw [if_pos ht]
    rfl
  refine ⟨_, w2, (scriptGate c env w2).2, h1, ?_⟩
  match h2 : scriptGate c env w2 with
  | (r, w3) =>
    rcases scriptGate_cases h2 with ⟨_, _, ⟨rfl, _⟩ | ⟨_, hrej, i, q, h3, h4⟩⟩ | ⟨e, i, q, _, h3, h4, _⟩
    · rfl
    · rcases hs _ q (List.mem_of_getElem? h3) with h | ⟨h, _⟩
      · rw [h] at h4; cases h4
      · rw [h] at hrej; cases hrej
    · rcases hs _ q (List.mem_of_getElem? h3) with h | ⟨_, h⟩
      · rw [h] at h4; cases h4
      · exact absurd h4 h

/-- **C23, without validation.** As `C23_restart_partial`, with no TALs, and scripts that agree or, without
`--tal-reject-invalid`, can be started. -/
theorem C23_restart_without_tals_partial [Ext] (life : SourceLife) (T : SourceTree) (c : Config)
    (base name : Str) (p p' : Progress) (f : FS) (depth : Nat) (env : Env) (n : Notif)
    (hl : Layout c base name) (hT : T.Tidy name)
    (ho : c.rsyncEnabled = true → CleanObjects c.rsyncIncludeHost)
    (hsym : c.rsyncEnabled = true → c.rsyncUseSymlinks = true) (hmax : c.rrdpMaxDeltas ≠ some 0)
    (h : TidyLifetime life T c base name p f) (hst : StatesWhole c f)
    (hr : TidyRun life T c base name p p' depth env f) (hf : NoFaults env) (hcf : ChildrenFirst env)
    (hsup : Supplies c base env f n) (ht : c.talFiles = [])
    (hs : ∀ tick, ∀ q ∈ c.scripts, env.script tick q = some true ∨
      (c.talRejectInvalid = false ∧ env.script tick q ≠ none)) :
    ∃ w', process depth c env (World.start f) = (.ok (), w') ∧ PublishedAs c base name w'.cur n :=
  C23_restart_partial life T c base name p p' f depth env n hl hT ho hsym hmax h hst hr hf hcf hsup
    (passes_without_tals depth c env f ht hs)

/-! ## The hypotheses can be met -/

section

open Demo

set_option maxRecDepth 100000

namespace Demo

/-- The names in use. -/
def tree : SourceTree where
  files := fun p => p ∈ roles.map Prod.fst
  objects := fun _ p => p = ["a.cer".toList]

theorem prefixFree_of_check {l : List Path}
    (h : l.all (fun p => l.all (fun q => !p.isPrefixOf q || p == q)) = true) : PrefixFree (· ∈ l) := by
  intro p q hp hq hpq
  have := List.all_eq_true.1 (List.all_eq_true.1 h p hp) q hq
  rw [Bool.or_eq_true] at this
  rcases this with h1 | h1
  · rw [List.isPrefixOf_iff_prefix.2 hpq] at h1
    cases h1
  · exact eq_of_beq h1

theorem tree_tidy : tree.Tidy name where
  files := by
    have := prefixFree_of_check (l := [name] :: [name ++ ".tmp".toList] :: roles.map Prod.fst) (by decide)
    intro p q hp hq
    refine this p q ?_ ?_
    · rcases hp with h | rfl | rfl
      · exact List.mem_cons_of_mem _ (List.mem_cons_of_mem _ h)
      · exact List.mem_cons_self ..
      · exact List.mem_cons_of_mem _ (List.mem_cons_self ..)
    · rcases hq with h | rfl | rfl
      · exact List.mem_cons_of_mem _ (List.mem_cons_of_mem _ h)
      · exact List.mem_cons_self ..
      · exact List.mem_cons_of_mem _ (List.mem_cons_self ..)
  objects := fun r p q hp hq _ => hp.trans hq.symm
  named := fun r h => (by cases h)

theorem tree_has {n : Notif}
    (h : n.refs.all (fun r => match stripPrefix base r.1 with
      | some rel => decide (comps rel ∈ roles.map Prod.fst)
      | none => true) = true)
    (h2 : (Ext.streamSnapshot n.snapHash).1.all (fun e =>
      decide (comps (objectRel false e.1) = ["a.cer".toList]) && endsInName e.1.path) = true)
    (h3 : n.refs.all (fun r => endsInName r.1) = true) : tree.Has conf base n where
  files := by
    intro r hr rel hrel
    have := List.all_eq_true.1 h r hr
    rw [stripPrefix_some.2 hrel] at this
    have := of_decide_eq_true this
    exact this
  objects := by
    intro b hb e he
    have hb : b = n.snapHash := hb
    subst hb
    have := of_decide_eq_true (Bool.and_eq_true_iff.1 (List.all_eq_true.1 h2 e he)).1
    exact this
  names := fun r hr => EndsInName.of_ends (List.all_eq_true.1 h3 r hr)
  objectNames := by
    intro b hb e he
    have hb : b = n.snapHash := hb
    subst hb
    exact EndsInName.of_ends (Bool.and_eq_true_iff.1 (List.all_eq_true.1 h2 e he)).2

theorem untouched0 : Untouched conf fs0 where
  wf := pristine0.wf
  empty := by
    have hne : ∀ p ∈ conf.places, p ≠ [] := by decide
    intro p hp q hq
    cases q with
    | nil => exact (hne p hp (List.prefix_nil.1 hq)).elim
    | cons a q => rfl
  above := by
    intro p hp q hq _
    cases q with
    | nil => exact Or.inr rfl
    | cons a q => exact Or.inl rfl

theorem tidyRun0 : TidyRun life tree conf base name p0 p1 5 (envAt 0 notif1) fs0 :=
  ⟨goodRun0, fun _ _ h => offers h ▸ tree_has (by decide) (by decide) (by decide)⟩

theorem tidyRun1 : TidyRun life tree conf base name p1 p2 5 (envAt 1 notif2) fs1 :=
  ⟨goodRun1', fun _ _ h => offers h ▸ tree_has (by decide) (by decide) (by decide)⟩

/-- The second run, cut off after switching the rsync directory and before writing the notification. -/
def fsHalf : FS :=
  ((process 5 conf (envAt 1 notif2) (World.start fs1)).2.crashPoints.find? (fun f =>
    decide (f.link? conf.rsyncCurrent ≠ fs1.link? conf.rsyncCurrent) &&
    decide (f.leaf (conf.notifPath name) = fs1.leaf (conf.notifPath name)))).getD fs0

theorem fsHalf_crash : fsHalf ∈ (process 5 conf (envAt 1 notif2) (World.start fs1)).2.crashPoints := by
  decide +kernel

theorem tidyLifetimeHalf : TidyLifetime life tree conf base name p2 fsHalf :=
  History.run (History.run (start := fun _ => Untouched conf) (i := p0) (History.start untouched0) tidyRun0
    fs1_crash) tidyRun1 fsHalf_crash

theorem statesWhole_of_check {f : FS} (h1 : ((f.read conf.rrdpStatePath).bind Ext.decState).isSome = true)
    (h2 : ((f.file? conf.rsyncStatePath).bind Ext.decRsync).isSome = true) : StatesWhole conf f where
  rrdp := by
    right
    obtain ⟨s, hs⟩ := Option.isSome_iff_exists.1 h1
    obtain ⟨b, h3, h4⟩ := Option.bind_eq_some_iff.1 hs
    exact ⟨s, b, h3, h4⟩
  rsync := by
    obtain ⟨s, hs⟩ := Option.isSome_iff_exists.1 h2
    obtain ⟨b, h3, h4⟩ := Option.bind_eq_some_iff.1 hs
    exact ⟨s, Or.inl ⟨b, h3, h4⟩⟩

theorem goodRunHalf : TidyRun life tree conf base name p2 p2 5 (envAt 2 notif2) fsHalf where
  good := {
    source := goodSource (by decide)
    later := Or.inr ⟨rfl, Nat.le_refl _, Nat.le_refl _⟩
    lists := fun _ _ h => offers h ▸ lists_of_check (by decide)
    notBefore := by
      intro _ _ h
      rw [offers h]
      refine Or.inr ⟨by decide, by decide, fun d hd => ?_⟩
      rw [show notif2.deltas = [⟨2, uri "d2", [2]⟩] from rfl, List.mem_singleton] at hd
      rw [hd]; decide
    notAfter := fun _ _ h => offers h ▸ goodRun1'.notAfter none _ 
      ⟨.uri (uri "n") false, _, none, resolve_locates.1 rfl, ⟨0, .absent, rfl, Or.inl ⟨rfl, rfl⟩⟩,
        Ext.parse_write notif2⟩
    no304 := no304 _ _
    limit := nofun
    brisk := brisk _ _
    moves := Or.inl (by decide +kernel) }
  has := fun _ _ h => offers h ▸ tree_has (by decide) (by decide) (by decide)

theorem supplies2 (t : Time) (f : FS) : Supplies conf base (envAt t notif2) f notif2 where
  notification := ⟨.uri (uri "n") false, resolve_locates.1 rfl, fun _ _ _ =>
    ⟨.absent, _, rfl, (by decide), Ext.parse_write notif2⟩⟩
  files := by
    have : ∀ k h, files.lookup (uri k) = some h → uri k ≠ uri "n" →
        (∃ rel, uri k = base ++ rel) ∧ ∃ src, conf.Locates (uri k) src ∧
          src.Serves conf (envAt t notif2) f (fun b => Ext.sha b = h) := by
      intro k h h1 h2
      refine ⟨⟨k.toList, rfl⟩, .uri (uri k) false, resolve_locates.1 rfl, fun _ _ _ => ⟨.absent, h, ?_, (by decide), rfl⟩⟩
      unfold envAt
      dsimp only
      rw [if_neg h2, h1]
    intro r hr
    rw [show notif2.refs = [(uri "s2", snap 2), (uri "d2", [2])] from rfl, List.mem_cons,
      List.mem_singleton] at hr
    rcases hr with rfl | rfl
    · exact this "s2" _ (by decide) (by decide)
    · exact this "d2" _ (by decide) (by decide)
  deltas := ⟨_, List.Perm.refl _, fun i h => absurd h (by
    rw [show notif2.deltas.length = 1 from rfl]; omega)⟩
  whole := by
    intro b hb
    have hb : b = notif2.snapHash := hb
    subst hb
    decide

theorem childrenFirst (t : Time) (n : Notif) : ChildrenFirst (envAt t n) := by
  intro _ p q h hne
  refine Nat.lt_of_le_of_ne h.length_le (fun he => hne ?_)
  exact h.eq_of_length he

end Demo

example := C23_restart_without_tals_partial life tree conf base name p2 p2 fsHalf 5 (envAt 2 notif2) notif2
  layout tree_tidy (fun _ => cleanObjects _) (fun _ => rfl) (by decide) tidyLifetimeHalf
  (statesWhole_of_check (by decide +kernel) (by decide +kernel)) goodRunHalf (fun _ => rfl)
  (childrenFirst _ _) (supplies2 _ _) rfl (fun _ _ _ => Or.inl rfl)

example := C23_restart_partial life tree conf base name p2 p2 fsHalf 5 (envAt 2 notif2) notif2
  layout tree_tidy (fun _ => cleanObjects _) (fun _ => rfl) (by decide) tidyLifetimeHalf
  (statesWhole_of_check (by decide +kernel) (by decide +kernel)) goodRunHalf (fun _ => rfl)
  (childrenFirst _ _) (supplies2 _ _) (passes_without_tals _ _ _ _ rfl (fun _ _ _ => Or.inl rfl))

/-- At that time the old version is still the published one. -/
example : fsHalf.file? (conf.notifPath name) = some (Ext.writeNotif notif1) := by decide +kernel

/-! ### Where it fails -/

namespace Demo

/-- With moves: the first run, cut off after moving the new directory to `current` and before the rsync
state is written. -/
def stuck : FS := (((process 5 confM (envAt 0 notif1) (World.start fs0)).2.crashPoints.filter
  (fun f => decide (f.get confM.rsyncCurrent = some .dir) && (f.get confM.rsyncStatePath).isNone)).head?).getD fs0

/-- ... and cut off after writing the rsync state, before the notification. -/
def stuck' : FS := (((process 5 confM (envAt 0 notif1) (World.start fs0)).2.crashPoints.filter
  (fun f => (f.get (confM.notifPath name)).isNone)).head?).getD fs0

end Demo

/-- **C23 fails with moves.**  If a run is cut off after it moved the new revision to `current` and
before the rsync state is written, then later runs that meet no failure do not complete, whether the
source offers the same version or a newer one: the directory `current` is not empty, so that no other
can be moved there. -/
theorem C23_refuted_for_moves :
    stuck ∈ (process 5 confM (envAt 0 notif1) (World.start fs0)).2.crashPoints ∧
    (stuck.get confM.rrdpStatePath = none ∧ stuck.get confM.rsyncStatePath = none) ∧
    NoFaults (envAt 1 notif1) ∧ NoFaults (envAt 1 notif2) ∧
    (process 5 confM (envAt 1 notif1) (World.start stuck)).1 = .error .io ∧
    (process 5 confM (envAt 1 notif2) (World.start stuck)).1 = .error .io := by
  refine ⟨by decide +kernel, by decide +kernel, fun _ => rfl, fun _ => rfl, by decide +kernel,
    by decide +kernel⟩

end

/-- **C54.** Move mode.  Take the disk at any instant in the life of an installation, such that there is
something in `current` that cannot be moved away as the rsync state has it.  Then whatever the number of
runs that follow, and wherever they fail or are cut off, as long as the source does not offer the revision
named in the rsync state: the published notification, `current` and all that is below it, and both state
files stay what they are. -/
theorem C54_stuck_for_good [Ext] (c : Config) (base name : Str) (st : RsyncDirState) (f0 f : FS)
    (hl : Layout c base name) (ho : CleanObjects c.rsyncIncludeHost) (he : c.rsyncEnabled = true)
    (hm : c.rsyncUseSymlinks = false) (h0 : Updates c base name f0) (hs : Stuck c st f0)
    (h : History (ι := Unit) c (fun _ g => g = f0)
      (fun _ _ _ env fs => OtherRevisions c base name st env fs) () f) :
    f.leaf (c.notifPath name) = f0.leaf (c.notifPath name) ∧
    f.leaf c.rrdpStatePath = f0.leaf c.rrdpStatePath ∧
    f.leaf c.rsyncStatePath = f0.leaf c.rsyncStatePath ∧
    ∀ q, c.rsyncCurrent <+: q → f.leaf q = f0.leaf q := by
  have hi := h0.invariant hl (fun _ => ho)
  obtain ⟨⟨_, hh⟩, _⟩ := history_halted hl ho he hm hi.wf hi.noLink (fun s h => (hi.state s h).1) hs h
  exact ⟨hh _ (Or.inl rfl), hh _ (Or.inr (Or.inl rfl)), hh _ (Or.inr (Or.inr (Or.inl rfl))),
    fun q hq => hh _ (Or.inr (Or.inr (Or.inr (Or.inl hq))))⟩

/-- **C54.** ... and a run that completes is one that changed nothing at all. -/
theorem C54_completes_only_unchanged [Ext] (c : Config) (base name : Str) (st : RsyncDirState) (f0 f : FS)
    (hl : Layout c base name) (ho : CleanObjects c.rsyncIncludeHost) (he : c.rsyncEnabled = true)
    (hm : c.rsyncUseSymlinks = false) (h0 : Updates c base name f0) (hs : Stuck c st f0)
    (h : History (ι := Unit) c (fun _ g => g = f0)
      (fun _ _ _ env fs => OtherRevisions c base name st env fs) () f)
    (depth : Nat) (env : Env) (w' : World) (hr : OtherRevisions c base name st env f)
    (hok : process depth c env (World.start f) = (.ok (), w')) : w'.crashPoints = [f] := by
  have hi := h0.invariant hl (fun _ => ho)
  obtain ⟨hh, hsane⟩ := history_halted hl ho he hm hi.wf hi.noLink (fun s h => (hi.state s h).1) hs h
  have := (run_halted (depth := depth) hl ho he hm hs hh hsane hr).2 (by rw [hok])
  rwa [hok] at this

section
open Demo
set_option maxRecDepth 100000

namespace Demo

/-- With moves: the second run, cut off after the new directory was moved to `current` and before the
rsync state is written. -/
def stuck2 : FS := (((process 5 confM (envAt 1 notif2) (World.start fsM)).2.crashPoints.filter
  (fun f => (f.get (notif1.rev.path confM)).isSome && (f.get confM.rsyncCurrent).isSome)).getLast?).getD fs0

theorem goodSourceM {t : Time} {n : Notif} {fs : FS} (h : goodNotifB base name n = true) :
    GoodSource confM base name (envAt t n) fs := by
  intro etag n' hn
  rw [offersM hn]
  exact goodNotif_of_check h

theorem pristineM : Pristine confM name fs0 := ⟨pristine0.wf, pristine0.noState, pristine0.noNotification,
  pristine0.noLinks⟩

theorem updatesM : Updates confM base name fsM :=
  History.run (i := ()) (History.start pristineM) (env := envAt 0 notif1) (depth := 5)
    (goodSourceM (by decide)) List.mem_cons_self

theorem updatesStuck : Updates confM base name stuck :=
  History.run (i := ()) (History.start pristineM) (env := envAt 0 notif1) (depth := 5)
    (goodSourceM (by decide)) (by decide +kernel)

theorem updatesStuck2 : Updates confM base name stuck2 :=
  History.run (i := ()) updatesM (env := envAt 1 notif2) (depth := 5)
    (goodSourceM (by decide)) (by decide +kernel)

theorem stuck_is : Stuck confM ⟨none, []⟩ stuck := by
  refine ⟨Or.inr ⟨by decide +kernel, rfl⟩, Or.inl ⟨["a.cer".toList], by decide, by decide +kernel⟩, ?_⟩
  intro old h; cases h

theorem stuck2_is : Stuck confM rsync1 stuck2 := by
  refine ⟨Or.inl ⟨Ext.encRsync rsync1, by decide +kernel, by decide +kernel⟩,
    Or.inl ⟨["a.cer".toList], by decide, by decide +kernel⟩, ?_⟩
  intro old h
  refine ⟨["a.cer".toList], by decide, ?_⟩
  injection h with h
  subst h
  decide +kernel

theorem otherRevisions {t : Time} {n : Notif} {st : RsyncDirState} {fs : FS}
    (h : goodNotifB base name n = true) (hn : st.current ≠ some n.rev) :
    OtherRevisions confM base name st (envAt t n) fs :=
  ⟨goodSourceM h, fun _ _ ho => by rw [offersM ho]; exact hn⟩

/-- A server that has nothing new. -/
def env304 : Env := { envAt 2 notif3 with http := fun _ _ => .notModified }

end Demo

/-- A first run that was cut off: the version is offered again, and then a newer one. -/
example : History (ι := Unit) confM (fun _ g => g = stuck)
    (fun _ _ _ env fs => OtherRevisions confM base name ⟨none, []⟩ env fs) ()
    (after confM (envAt 2 notif2) (after confM (envAt 1 notif1) stuck)) :=
  History.run (i := ()) (History.run (i := ()) (History.start rfl) (depth := 5)
    (otherRevisions (by decide) (by decide)) List.mem_cons_self) (depth := 5)
    (otherRevisions (by decide) (by decide)) List.mem_cons_self

example := C54_stuck_for_good confM base name _ stuck
  (after confM (envAt 2 notif2) (after confM (envAt 1 notif1) stuck)) layoutM (cleanObjects _) rfl rfl
  updatesStuck stuck_is
  (History.run (i := ()) (History.run (i := ()) (History.start rfl) (depth := 5)
    (otherRevisions (by decide) (by decide)) List.mem_cons_self) (depth := 5)
    (otherRevisions (by decide) (by decide)) List.mem_cons_self)

/-- An update that was cut off. -/
example := C54_stuck_for_good confM base name _ stuck2 (after confM (envAt 2 notif3) stuck2) layoutM
  (cleanObjects _) rfl rfl updatesStuck2 stuck2_is
  (History.run (i := ()) (History.start rfl) (depth := 5)
    (otherRevisions (by decide) (by decide)) List.mem_cons_self)

/-- The source says that there is nothing new: the run completes. -/
example : (process 5 confM env304 (World.start stuck2)).2.crashPoints = [stuck2] := by
  have no : ∀ etag n, ¬ Offers confM env304 stuck2 etag n := by
    rintro etag n ⟨src, b, e, h1, h2, h3⟩
    have h4 := resolve_locates.2 h1
    unfold Fetcher.resolve at h4
    rw [show confM.fetcher.fetchMap = none from rfl] at h4
    cases h4
    obtain ⟨tick, hdr, h4, _⟩ := h2
    cases h4
  have hok : (process 5 confM env304 (World.start stuck2)).1 = .ok () := by decide +kernel
  exact C54_completes_only_unchanged confM base name rsync1 stuck2 stuck2 layoutM (cleanObjects _) rfl rfl
    updatesStuck2 stuck2_is (History.start rfl) 5 env304 _
    ⟨fun etag n h => (no etag n h).elim, fun etag n h => (no etag n h).elim⟩ (Prod.ext hok rfl)

/-- The notification is the one of the first version, `current` has the second. -/
example : (stuck2.file? (confM.notifPath name)).isSome ∧
    stuck2.file? (confM.notifPath name) = fsM.file? (confM.notifPath name) ∧
    (process 5 confM (envAt 2 notif3) (World.start stuck2)).1 = .error .io := by decide +kernel

end

end KSync
