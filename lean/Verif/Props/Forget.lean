import Verif.Lemmas.Forget
import Verif.Props.Fallback

/-!
# Installations that lose their state (property C79)

`BetweenRuns`, `Managed` are defined in `Verif/Spec/Forget.lean`.
-/

set_option linter.unusedVariables false

namespace KSync

/-- **C79**, RRDP: at any time in the life of an installation in which someone may remove the state files
and the content of the staging area at any time, as often as they like, there is no notification yet or
it is a complete notification all of whose files are in place and have the hashes it gives.

Conditions on the source and the runs as in `C01_files_in_place_partial`. -/
theorem C79_files_in_place [Ext] (life : SourceLife) (c : Config) (base name : Str)
    (p : Progress) (f : FS) (hl : Layout c base name)
    (ho : c.rsyncEnabled = true → CleanObjects c.rsyncIncludeHost)
    (h : Managed c (fun _ => Pristine c name) (GoodRun life c base name) p f) :
    f.leaf (c.notifPath name) = none ∨
    ∃ n t, f.leaf (c.notifPath name) = some (.file (Ext.writeNotif n) t) ∧
      ∀ r ∈ n.refs, ∃ rel, r.1 = base ++ rel ∧ FileHas f (c.pubPath rel) r.2 := by
  refine (h.kept hl ho).notif.imp id ?_
  rintro ⟨n, t, h1, h2⟩
  refine ⟨n, t, h1, fun r hr => ?_⟩
  obtain ⟨rel, a1, _, _, a4, _⟩ := h2.refs r hr
  exact ⟨rel, a1, a4⟩

/-- **C79**: nor does the published version ever go back. -/
theorem C79_version_never_back [Ext] (age : Uuid → Nat) (c : Config) (base name : Str)
    (p p' : Version) (f f' : FS) (n : Notif) (hl : Layout c base name)
    (ho : c.rsyncEnabled = true → CleanObjects c.rsyncIncludeHost)
    (h : Managed c (fun _ => Pristine c name) (ForwardRun age c base name) p f)
    (h' : Managed c (fun q g => q = p ∧ g = f) (ForwardRun age c base name) p' f')
    (hn : Published c name f n) :
    ∃ n', Published c name f' n' ∧ (n.version age).le (n'.version age) ∧
      (n'.session = n.session → n.serial ≤ n'.serial) := by
  obtain ⟨t, hn⟩ := hn
  obtain ⟨n', t', h1, h2⟩ := Managed.not_back hl ho h h' hn
  refine ⟨n', ⟨t', h1⟩, h2, fun he => ?_⟩
  unfold Version.le Notif.version at h2
  rw [he] at h2
  simpa using h2

/-- **C79**, rsync with links: `current` always leads to the directory of a revision in which there is a
file for each object of that revision's snapshot, once there is a `current`.

Conditions on the source and the runs as in `C28_current_kept_partial`. -/
theorem C79_current_kept_with_links [Ext] (life : SourceLife) (c : Config) (base name : Str) (p : Progress)
    (f : FS) (hl : Layout c base name) (ho : CleanObjects c.rsyncIncludeHost)
    (he : c.rsyncEnabled = true) (hm : c.rsyncUseSymlinks = true)
    (h : Managed c (fun _ => Untouched c) (TimelyRun life c base name) p f) :
    f.leaf c.rsyncCurrent = none ∨
    ∃ r b, f.link? c.rsyncCurrent = some r.dirName ∧ IsSnapshotOf life r b ∧
      FilesThere f (servedDir c f) c.rsyncIncludeHost (Ext.streamSnapshot b).1 ∧
      (InAccord c f r → HasObjects f (servedDir c f) c.rsyncIncludeHost (Ext.streamSnapshot b).1) := by
  rcases (h.rsyncKept hl ho he hm).serving with h1 | ⟨r, b, h1, h2, h3, h4⟩
  · exact Or.inl h1
  · refine Or.inr ⟨r, b, h1, h2, ?_, fun ha => ?_⟩
    · rw [servedDir_link h1]; exact h3
    · rw [servedDir_link h1]; exact h4 ha

/-- **C79**, rsync and RRDP, with links: `current` never leads to a version that is older than the one in
a notification that has been published (as in C78). -/
theorem C79_not_older_with_links [Ext] (age : Uuid → Nat) (c : Config) (base name : Str)
    (i j : Version × (Notif → Prop)) (f g : FS) (n : Notif) (hl : Layout c base name)
    (ho : CleanObjects c.rsyncIncludeHost) (he : c.rsyncEnabled = true) (hm : c.rsyncUseSymlinks = true)
    (h : Managed c (fun _ f => Unused c name f ∧ RsyncUnused c f) (AnnouncedRun age c base name) i f)
    (hn : Published c name f n)
    (h' : Managed c (fun k g => k = i ∧ g = f) (AnnouncedRun age c base name) j g) :
    ∃ m, j.2 m ∧ (n.version age).le (m.version age) ∧
      g.link? c.rsyncCurrent = some m.rev.dirName ∧ servedDir c g = m.rev.path c := by
  obtain ⟨t, hn⟩ := hn
  obtain ⟨n', t', h1, h2⟩ := Managed.not_back hl (fun _ => ho)
    (Managed.map Prod.fst (fun _ _ h => h.1.pristine) (fun _ _ _ _ _ h => h.forward) h)
    (Managed.map Prod.fst (fun _ _ h => ⟨by rw [h.1], h.2⟩) (fun _ _ _ _ _ h => h.forward) h') hn
  obtain ⟨m, g1, g2, g3, _⟩ := ((h.append h').linkAhead hl ho he hm).ahead n' t' h1
  exact ⟨m, g1, Version.le_trans h2 g3, g2, servedDir_link g2⟩

/-- **C79**, rsync and RRDP, with `--rsync-dir-force-moves`: `current` has no files at all, or it has all
objects of the snapshot of a version that is not older than one that has been published. -/
theorem C79_not_older_with_moves [Ext] (age : Uuid → Nat) (c : Config) (base name : Str)
    (i j : Version × (Notif → Prop)) (f g : FS) (n : Notif) (hl : Layout c base name)
    (ho : CleanObjects c.rsyncIncludeHost) (he : c.rsyncEnabled = true) (hm : c.rsyncUseSymlinks = false)
    (h : Managed c (fun _ f => Unused c name f ∧ RsyncUnused c f) (AnnouncedRun age c base name) i f)
    (hn : Published c name f n)
    (h' : Managed c (fun k g => k = i ∧ g = f) (AnnouncedRun age c base name) j g) :
    (∀ q, g.leaf (c.rsyncCurrent ++ q) = none) ∨
    ∃ m b, j.2 m ∧ (n.version age).le (m.version age) ∧ Serves c g (servedDir c g) m b := by
  obtain ⟨t, hn⟩ := hn
  obtain ⟨n', t', h1, h2⟩ := Managed.not_back hl (fun _ => ho)
    (Managed.map Prod.fst (fun _ _ h => h.1.pristine) (fun _ _ _ _ _ h => h.forward) h)
    (Managed.map Prod.fst (fun _ _ h => ⟨by rw [h.1], h.2⟩) (fun _ _ _ _ _ h => h.forward) h') hn
  have ha := ((h.append h').moveAhead hl ho he hm).ahead
  refine ha.served.imp id ?_
  rintro ⟨m, b, ⟨g1, _, g2⟩, g3⟩
  exact ⟨m, b, g1, Version.le_trans h2 (g2 n' t' h1), by rw [ha.servedDir]; exact g3⟩

/-- **C79**, the cure: at any instant whatsoever in such a life, even while a state file is being written,
remove both state files. Then a run that meets no failure, over a source that supplies what it announces,
and whose update passes the checks, completes, and what is published afterwards is the source's current
version, with all its files.

Conditions as in `C23_restart_partial`, apart from the one on state files. -/
theorem C79_cure [Ext] (life : SourceLife) (T : SourceTree) (c : Config) (base name : Str)
    (p p' : Progress) (f f' : FS) (depth : Nat) (env : Env) (n : Notif)
    (hl : Layout c base name) (hT : T.Tidy name)
    (ho : c.rsyncEnabled = true → CleanObjects c.rsyncIncludeHost)
    (hsym : c.rsyncEnabled = true → c.rsyncUseSymlinks = true) (hmax : c.rrdpMaxDeltas ≠ some 0)
    (h : Managed c (fun _ => Untouched c) (TidyRun life T c base name) p f)
    (hfg : BetweenRuns c f f') (h1 : f'.get c.rrdpStatePath = none) (h2 : f'.get c.rsyncStatePath = none)
    (hr : TidyRun life T c base name p p' depth env f') (hf : NoFaults env) (hcf : ChildrenFirst env)
    (hsup : Supplies c base env f' n) (hpass : Passes depth c env f') :
    ∃ w', process depth c env (World.start f') = (.ok (), w') ∧ PublishedAs c base name w'.cur n := by
  have hk := (h.meanwhile hfg).steady hT hl ho hsym
  have hst : StatesWhole c f' := by
    refine ⟨Or.inl ?_, ⟨none, []⟩, Or.inr ⟨?_, rfl⟩⟩
    · unfold FS.exists? FS.resolve
      rw [h1]
      rfl
    · unfold FS.leaf
      rw [h2]
  obtain ⟨_, w', hw⟩ := restart hT hl ho hsym hmax hk hr hf hcf hst hsup hpass
  exact ⟨w', hw, completed_as hl ho hk hr hsup hw⟩

/-- **C79**, what must not be lost: with `--rsync-dir-force-moves`, if the rsync state is removed while
there are files in `current`, then no later run publishes anything, however many there are and whatever
the source offers: the published notification, `current` and all that is below it and both state files
stay what they are. -/
theorem C79_stuck_with_moves [Ext] (c : Config) (base name : Str) (f f' g : FS)
    (hl : Layout c base name) (ho : CleanObjects c.rsyncIncludeHost) (he : c.rsyncEnabled = true)
    (hm : c.rsyncUseSymlinks = false)
    (h : Managed (ι := Unit) c (fun _ => Pristine c name)
      (fun _ _ _ env fs => GoodSource c base name env fs) () f)
    (hcur : ∃ q, q ≠ [] ∧ f.leaf (c.rsyncCurrent ++ q) ≠ none)
    (hfg : BetweenRuns c f f') (h2 : f'.get c.rsyncStatePath = none)
    (h' : History (ι := Unit) c (fun _ k => k = f')
      (fun _ _ _ env fs => GoodSource c base name env fs) () g) :
    g.leaf (c.notifPath name) = f.leaf (c.notifPath name) ∧
    g.leaf c.rrdpStatePath = f'.leaf c.rrdpStatePath ∧ g.leaf c.rsyncStatePath = none ∧
    ∀ q, c.rsyncCurrent <+: q → g.leaf q = f.leaf q := by
  have hi := (h.meanwhile hfg).sane hl (fun _ => ho)
  have hleaf : f'.leaf c.rsyncStatePath = none := by unfold FS.leaf; rw [h2]
  have hrs : ∀ q, c.rsyncCurrent <+: q → f'.leaf q = f.leaf q :=
    fun q hq => leaf_of_get (hfg.rsync hl ((List.prefix_append _ _).trans hq))
  have hs : Stuck c ⟨none, []⟩ f' := by
    refine ⟨Or.inr ⟨hleaf, rfl⟩, ?_, fun _ h => by cases h⟩
    obtain ⟨q, h3, h4⟩ := hcur
    exact Or.inl ⟨q, h3, by rw [hrs _ (List.prefix_append _ _)]; exact h4⟩
  obtain ⟨⟨_, hh⟩, _⟩ := history_halted hl ho he hm hi.wf hi.noLink (fun s h => (hi.state s h).1) hs
    (History.mono id (fun _ _ h => h) (fun _ _ _ _ _ h => ⟨h, fun _ _ _ h => by cases h⟩) h')
  exact ⟨(hh _ (Or.inl rfl)).trans (hfg.notif hl), hh _ (Or.inr (Or.inl rfl)),
    (hh _ (Or.inr (Or.inr (Or.inl rfl)))).trans hleaf,
    fun q hq => (hh _ (Or.inr (Or.inr (Or.inr (Or.inl hq))))).trans (hrs q hq)⟩

/-! ## The hypotheses can be met -/

section
open Demo
set_option maxRecDepth 100000

namespace Demo

/-- Without the state files. -/
def forgotten (c : Config) (f : FS) : FS := (f.del c.rrdpStatePath).del c.rsyncStatePath

theorem forgotten_meanwhile {c : Config} {f : FS} (h : (forgotten c f).wfCheck = true) (h0 : f.WF)
    (h1 : c.rrdpStatePath ≠ []) (h2 : c.rsyncStatePath ≠ []) : BetweenRuns c f (forgotten c f) := by
  refine ⟨FS.wf_of_check h, fun q => ?_⟩
  unfold forgotten
  by_cases e2 : q = c.rsyncStatePath
  · exact Or.inr (Or.inl ⟨by rw [e2, FS.get_del_self _ h2], Or.inr (Or.inl e2)⟩)
  · rw [FS.get_del_ne _ e2]
    by_cases e1 : q = c.rrdpStatePath
    · exact Or.inr (Or.inl ⟨by rw [e1, FS.get_del_self _ h1], Or.inl e1⟩)
    · exact Or.inl (FS.get_del_ne _ e1)

/-- The second run, cut off while it writes the state. -/
def fsTorn : FS :=
  ((process 5 conf (envAt 1 notif2) (World.start fs1)).2.crashPoints.find? (fun f =>
    (f.get conf.rrdpStatePath).isSome && ((f.read conf.rrdpStatePath).bind Ext.decState).isNone)).getD fs0

theorem fsTorn_crash : fsTorn ∈ (process 5 conf (envAt 1 notif2) (World.start fs1)).2.crashPoints := by
  decide +kernel

theorem wfTorn : fsTorn.WF := FS.wf_of_check (by decide +kernel)

/-- There the state files are removed. -/
def fsCured : FS := forgotten conf fsTorn

theorem cured_meanwhile : BetweenRuns conf fsTorn fsCured :=
  forgotten_meanwhile (by decide +kernel) wfTorn (by decide) (by decide)

theorem goodRunCured : TidyRun life tree conf base name p2 p2 5 (envAt 2 notif2) fsCured where
  good := { goodRunHalf.good with
    source := goodSource (by decide)
    limit := nofun
    lists := fun _ _ h => offers h ▸ lists_of_check (by decide)
    notBefore := by
      intro _ _ h
      rw [offers h]
      refine Or.inr ⟨by decide, by decide, fun d hd => ?_⟩
      rw [show notif2.deltas = [⟨2, uri "d2", [2]⟩] from rfl, List.mem_singleton] at hd
      rw [hd]; decide
    notAfter := fun _ _ h => offers h ▸ goodRun1'.notAfter none _ 
      ⟨.uri (uri "n") false, _, none, resolve_locates.1 rfl, ⟨0, .absent, rfl, Or.inl ⟨rfl, rfl⟩⟩,
        Ext.parse_write notif2⟩
    moves := Or.inl (by decide +kernel) }
  has := fun _ _ h => offers h ▸ tree_has (by decide) (by decide) (by decide)

theorem managedTorn : Managed conf (fun _ => Untouched conf) (TidyRun life tree conf base name) p2 fsTorn :=
  Managed.run (Managed.run (start := fun _ => Untouched conf) (i := p0) (Managed.start untouched0) tidyRun0
    fs1_crash) tidyRun1 fsTorn_crash

/-- A later run. -/
def fsAgain : FS := after conf (envAt 2 notif2) fsCured

end Demo

example := C79_cure life tree conf base name p2 p2 fsTorn fsCured 5 (envAt 2 notif2) notif2 layout tree_tidy
  (fun _ => cleanObjects _) (fun _ => rfl) (by decide) managedTorn cured_meanwhile (by decide +kernel)
  (by decide +kernel) goodRunCured (fun _ => rfl) (childrenFirst _ _) (supplies2 _ _)
  (passes_without_tals _ _ _ _ rfl (fun _ _ _ => Or.inl rfl))

/-- Without the cure the run fails. -/
example : (process 5 conf (envAt 2 notif2) (World.start fsTorn)).1 ≠ .ok () := by decide +kernel

example := C79_files_in_place life conf base name p2 fsAgain layout (fun _ => cleanObjects _)
  (((Managed.map id (fun _ _ h => h.pristine) (fun _ _ _ _ _ h => h.good) managedTorn).meanwhile
    cured_meanwhile).run goodRunCured.good List.mem_cons_self)

example := C79_current_kept_with_links life conf base name p2 fsAgain layout (cleanObjects _) rfl rfl
  ((((Managed.start untouched0 : Managed conf (fun _ => Untouched conf) (TimelyRun life conf base name) p0
    fs0).run (timely_of_check goodRun0 (by decide +kernel)) fs1_crash).run
    (timely_of_check goodRun1' (by decide +kernel)) fsTorn_crash |>.meanwhile cured_meanwhile).run
    (timely_of_check goodRunCured.good (by decide +kernel)) List.mem_cons_self)

example : fsAgain.file? (conf.notifPath name) = some (Ext.writeNotif notif2) ∧
    fsAgain.link? conf.rsyncCurrent = some notif2.rev.dirName := by decide +kernel

namespace Demo

theorem announcedRunCured : AnnouncedRun BitVec.toNat conf base name v2 v2 5 (envAt 2 notif2) fsCured :=
  ⟨⟨goodSource (by decide), Or.inr (by decide), fun _ _ h => offers h ▸ Or.inr (by decide),
    fun _ _ h => offers h ▸ Or.inr (by decide)⟩, soundSource (by decide) (by decide), by
    rintro n (h | h)
    · exact h
    · exact Or.inr (announced (c := conf) rfl rfl h)⟩

theorem managedFrom1 : Managed conf (fun k g => k = v1 ∧ g = fs1) (AnnouncedRun BitVec.toNat conf base name)
    v2 fsAgain :=
  (((Managed.start ⟨rfl, rfl⟩ : Managed conf (fun k g => k = v1 ∧ g = fs1)
    (AnnouncedRun BitVec.toNat conf base name) v1 fs1).run announcedRun2 fsTorn_crash).meanwhile
    cured_meanwhile).run announcedRunCured List.mem_cons_self

theorem managed1 : Managed conf (fun _ f => Unused conf name f ∧ RsyncUnused conf f)
    (AnnouncedRun BitVec.toNat conf base name) v1 fs1 :=
  Managed.run (Managed.start ⟨unused0, rsyncUnused0⟩) announcedRun1 fs1_crash

theorem managedM1 : Managed confM (fun _ f => Unused confM name f ∧ RsyncUnused confM f)
    (AnnouncedRun BitVec.toNat confM base name) v1 fsM :=
  Managed.run (env := envAt 0 notif1) (depth := 5)
    (Managed.start ⟨⟨pristineM, unused0.empty⟩, rsyncUnusedM⟩) announcedRunM1 List.mem_cons_self

theorem managedM2 : Managed confM (fun k g => k = v1 ∧ g = fsM) (AnnouncedRun BitVec.toNat confM base name)
    v2 (after confM (envAt 1 notif2) (fsM.del confM.rrdpStatePath)) := by
  refine Managed.run (i := v1) (env := envAt 1 notif2) (depth := 5)
    (Managed.meanwhile (Managed.start ⟨rfl, rfl⟩) (f' := fsM.del confM.rrdpStatePath)
      ⟨FS.wf_of_check (by decide +kernel), fun q => ?_⟩) ?_ List.mem_cons_self
  · by_cases e : q = confM.rrdpStatePath
    · exact Or.inr (Or.inl ⟨by rw [e, FS.get_del_self _ (by decide)], Or.inl e⟩)
    · exact Or.inl (FS.get_del_ne _ e)
  · exact ⟨⟨goodSourceM (by decide), Or.inr (by decide), fun _ _ h => offersM h ▸ Or.inr (by decide),
      fun _ _ h => offersM h ▸ Or.inr (by decide)⟩, soundSourceM (by decide) (by decide), by
      rintro n (h | h)
      · exact h
      · exact Or.inr (announcesM h)⟩

end Demo

example := C79_version_never_back BitVec.toNat conf base name v1.1 v2.1 fs1 fsAgain notif1 layout
  (fun _ => cleanObjects _)
  (Managed.map Prod.fst (fun _ _ h => h.1.pristine) (fun _ _ _ _ _ h => h.forward) managed1)
  (Managed.map Prod.fst (fun _ _ h => ⟨by rw [h.1], h.2⟩) (fun _ _ _ _ _ h => h.forward) managedFrom1)
  published1

example := C79_not_older_with_links BitVec.toNat conf base name v1 v2 fs1 fsAgain notif1 layout
  (cleanObjects _) rfl rfl managed1 published1 managedFrom1

example := C79_not_older_with_moves BitVec.toNat confM base name v1 v2 fsM _ notif1 layoutM
  (cleanObjects _) rfl rfl managedM1 ⟨0, by decide +kernel⟩ managedM2

/-- With moves, the RRDP state can be lost ... -/
example : (after confM (envAt 1 notif2) (fsM.del confM.rrdpStatePath)).file?
    (confM.rsyncCurrent ++ ["a.cer".toList]) = some [2] := by decide +kernel

/-- ... but not the rsync state. -/
example := C79_stuck_with_moves confM base name fsM (forgotten confM fsM)
  (after confM (envAt 1 notif2) (forgotten confM fsM)) layoutM (cleanObjects _) rfl rfl
  (Managed.map (fun _ => ()) (fun _ _ h => h.1.pristine) (fun _ _ _ _ _ h => h.forward.source) managedM1)
  ⟨["a.cer".toList], by decide, by decide +kernel⟩
  (forgotten_meanwhile (by decide +kernel) (FS.wf_of_check (by decide +kernel)) (by decide) (by decide))
  (by decide +kernel)
  (History.run (i := ()) (env := envAt 1 notif2) (depth := 5) (History.start rfl) (goodSourceM (by decide))
    List.mem_cons_self)

end

end KSync
