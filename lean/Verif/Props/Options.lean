import Verif.Lemmas.Options
import Verif.Props.Forget

/-!
# Changing the options from run to run (property C80)

`SameInstallation`, `Reconfigured`, `SameRsync` are defined in `Verif/Spec/Options.lean`.
-/

set_option linter.unusedVariables false

namespace KSync

/-- **C80**, RRDP: at any time in the life of an installation whose runs may each have options of their
own, apart from the notification URI and the directories, and in which state files may get lost, there is
no notification yet or it is a complete notification all of whose files are in place and have the hashes
it gives.

Conditions on the source and the runs as in `C01_files_in_place_partial`, with the options of each run. -/
theorem C80_files_in_place [Ext] (life : SourceLife) (c : Config) (base name : Str)
    (p : Progress) (f : FS) (hl : Layout c base name) (ho : ∀ host, CleanObjects host)
    (h : Reconfigured c (fun _ => Pristine c name) (fun c' => GoodRun life c' base name) p f) :
    f.leaf (c.notifPath name) = none ∨
    ∃ n t, f.leaf (c.notifPath name) = some (.file (Ext.writeNotif n) t) ∧
      ∀ r ∈ n.refs, ∃ rel, r.1 = base ++ rel ∧ FileHas f (c.pubPath rel) r.2 := by
  refine (h.kept hl ho).notif.imp id ?_
  rintro ⟨n, t, h1, h2⟩
  refine ⟨n, t, h1, fun r hr => ?_⟩
  obtain ⟨rel, a1, _, _, a4, _⟩ := h2.refs r hr
  exact ⟨rel, a1, a4⟩

/-- **C80**: nor does the published version ever go back. -/
theorem C80_version_never_back [Ext] (age : Uuid → Nat) (c : Config) (base name : Str)
    (p p' : Version) (f f' : FS) (n : Notif) (hl : Layout c base name) (ho : ∀ host, CleanObjects host)
    (h : Reconfigured c (fun _ => Pristine c name) (fun c' => ForwardRun age c' base name) p f)
    (h' : Reconfigured c (fun q g => q = p ∧ g = f) (fun c' => ForwardRun age c' base name) p' f')
    (hn : Published c name f n) :
    ∃ n', Published c name f' n' ∧ (n.version age).le (n'.version age) ∧
      (n'.session = n.session → n.serial ≤ n'.serial) := by
  obtain ⟨t, hn⟩ := hn
  obtain ⟨n', t', h1, h2⟩ := Reconfigured.not_back hl ho h h' hn
  refine ⟨n', ⟨t', h1⟩, h2, fun he => ?_⟩
  unfold Version.le Notif.version at h2
  rw [he] at h2
  simpa using h2

/-- **C80**, rsync with links in all runs, and in all of them with or without the host in the paths:
`current` always leads to the directory of a revision in which there is a file for each object of that
revision's snapshot, once there is a `current`.

Conditions on the source and the runs as in `C28_current_kept_partial`. -/
theorem C80_current_kept_with_links [Ext] (life : SourceLife) (c : Config) (base name : Str) (p : Progress)
    (f : FS) (hl : Layout c base name) (ho : CleanObjects c.rsyncIncludeHost)
    (h : Reconfigured c (fun _ => Untouched c)
      (fun c' p p' depth env f => SameRsync c c' ∧ TimelyRun life c' base name p p' depth env f) p f) :
    f.leaf c.rsyncCurrent = none ∨
    ∃ r b, f.link? c.rsyncCurrent = some r.dirName ∧ IsSnapshotOf life r b ∧
      FilesThere f (servedDir c f) c.rsyncIncludeHost (Ext.streamSnapshot b).1 ∧
      (InAccord c f r → HasObjects f (servedDir c f) c.rsyncIncludeHost (Ext.streamSnapshot b).1) := by
  rcases (h.rsyncKept hl ho).serving with h1 | ⟨r, b, h1, h2, h3, h4⟩
  · exact Or.inl h1
  · refine Or.inr ⟨r, b, h1, h2, ?_, fun ha => ?_⟩
    · rw [servedDir_link h1]; exact h3
    · rw [servedDir_link h1]; exact h4 ha

/-- **C80**, rsync and RRDP, with links in all runs: `current` never leads to a version that is older than
the one in the published notification. -/
theorem C80_not_older_with_links [Ext] (age : Uuid → Nat) (c : Config) (base name : Str)
    (i : Version × (Notif → Prop)) (f : FS) (n : Notif) (hl : Layout c base name)
    (ho : CleanObjects c.rsyncIncludeHost)
    (h : Reconfigured c (fun _ f => Unused c name f ∧ RsyncUnused c f)
      (fun c' i j depth env f => SameRsync c c' ∧ AnnouncedRun age c' base name i j depth env f) i f)
    (hn : Published c name f n) :
    ∃ m, i.2 m ∧ (n.version age).le (m.version age) ∧
      f.link? c.rsyncCurrent = some m.rev.dirName ∧ servedDir c f = m.rev.path c := by
  obtain ⟨t, hn⟩ := hn
  obtain ⟨m, g1, g2, g3, _⟩ := (h.linkAhead hl ho).ahead n t hn
  exact ⟨m, g1, g3, g2, servedDir_link g2⟩

/-- **C80**, what must not be changed: let runs with whatever options have left a link `current` to the
revision recorded in the rsync state, and files in that revision's directory.  If from then on
`--rsync-dir-force-moves` is given, then no later run publishes anything, as long as the source does not go
back to that revision: the published notification, `current` and both state files stay what they are, and
a run that completes has changed nothing. -/
theorem C80_stuck_from_links_to_moves [Ext] (c : Config) (base name : Str) (st : RsyncDirState)
    (old : RsyncRevision) (f g : FS) (hl : Layout c base name) (ho : ∀ host, CleanObjects host)
    (he : c.rsyncEnabled = true) (hm : c.rsyncUseSymlinks = false)
    (h : Reconfigured (ι := Unit) c (fun _ => Pristine c name)
      (fun c' _ _ _ env fs => GoodSource c' base name env fs) () f)
    (hst : RsyncRecorded c f st) (hcur : st.current = some old)
    (hlink : f.link? c.rsyncCurrent = some old.dirName)
    (hdir : ∃ q, q ≠ [] ∧ f.leaf (old.path c ++ q) ≠ none)
    (h' : History (ι := Unit) c (fun _ k => k = f)
      (fun _ _ _ env fs => OtherRevisions c base name st env fs) () g) :
    (g.leaf (c.notifPath name) = f.leaf (c.notifPath name) ∧
      g.leaf c.rrdpStatePath = f.leaf c.rrdpStatePath ∧
      g.leaf c.rsyncStatePath = f.leaf c.rsyncStatePath ∧
      ∀ q, c.rsyncCurrent <+: q → g.leaf q = f.leaf q) ∧
    ∀ depth env w', OtherRevisions c base name st env g →
      process depth c env (World.start g) = (.ok (), w') → w'.crashPoints = [g] := by
  have hi := h.sane hl ho
  have hs : Stuck c st f := ⟨hst, Or.inr ⟨old, hcur, hlink⟩, fun o ho => by
    rw [hcur] at ho
    cases ho
    exact hdir⟩
  obtain ⟨hh, hsane⟩ := history_halted hl (ho _) he hm hi.wf hi.noLink (fun s h => (hi.state s h).1) hs h'
  refine ⟨⟨hh.2 _ (Or.inl rfl), hh.2 _ (Or.inr (Or.inl rfl)), hh.2 _ (Or.inr (Or.inr (Or.inl rfl))),
    fun q hq => hh.2 _ (Or.inr (Or.inr (Or.inr (Or.inl hq))))⟩, fun depth env w' hr hok => ?_⟩
  have := (run_halted (depth := depth) hl (ho _) he hm hs hh hsane hr).2 (by rw [hok])
  rwa [hok] at this

/-- **C80**, nor the other way: let runs with whatever options have left files in the directory `current`.
If from then on links are used, then no later run publishes anything, whatever the source offers. -/
theorem C80_stuck_from_moves_to_links [Ext] (c : Config) (base name : Str) (f g : FS)
    (hl : Layout c base name) (ho : ∀ host, CleanObjects host)
    (he : c.rsyncEnabled = true) (hm : c.rsyncUseSymlinks = true)
    (h : Reconfigured (ι := Unit) c (fun _ => Pristine c name)
      (fun c' _ _ _ env fs => GoodSource c' base name env fs) () f)
    (hcur : ∃ q, q ≠ [] ∧ f.leaf (c.rsyncCurrent ++ q) ≠ none)
    (h' : History (ι := Unit) c (fun _ k => k = f)
      (fun _ _ _ env fs => GoodSource c base name env fs) () g) :
    (g.leaf (c.notifPath name) = f.leaf (c.notifPath name) ∧
      g.leaf c.rrdpStatePath = f.leaf c.rrdpStatePath ∧
      g.leaf c.rsyncStatePath = f.leaf c.rsyncStatePath ∧
      ∀ q, c.rsyncCurrent <+: q → g.leaf q = f.leaf q) ∧
    ∀ depth env w', GoodSource c base name env g →
      process depth c env (World.start g) = (.ok (), w') → w'.crashPoints = [g] := by
  have hi := h.sane hl ho
  obtain ⟨hh, hsane⟩ := history_blocked_links hl (ho _) he hm hi.wf hi.noLink (fun s h => (hi.state s h).1)
    hcur h'
  refine ⟨⟨hh.2 _ (Or.inl rfl), hh.2 _ (Or.inr (Or.inl rfl)), hh.2 _ (Or.inr (Or.inr (Or.inl rfl))),
    fun q hq => hh.2 _ (Or.inr (Or.inr (Or.inr hq)))⟩, fun depth env w' hr hok => ?_⟩
  have := (run_blocked_links (depth := depth) hl (ho _) he hm hcur hh hsane hr).2 (by rw [hok])
  rwa [hok] at this

section
open Demo
set_option maxRecDepth 100000

namespace Demo

/-- Another limit, another cleanup time, no delay, the host in no path. -/
def confX : Config := { conf with rrdpMaxDeltas := some 1, cleanupAfter := 20, rrdpNotifyDelay := 0 }

theorem sameX : SameInstallation conf confX := ⟨rfl, rfl, rfl, rfl⟩

def fsX : FS := after confX (envAt 1 notif2) fs1

theorem offersX {t : Time} {n n' : Notif} {fs : FS} {etag : Option Str}
    (h : Offers confX (envAt t n) fs etag n') : n' = n :=
  offers_only rfl (fun _ _ h => if_pos h) h

/-- What is offered to runs with the one configuration is offered to runs with the other. -/
theorem offers_conf {fs : FS} {etag : Option Str} {n : Notif}
    (h : Offers confX (envAt 1 notif2) fs etag n) : Offers conf (envAt 1 notif2) fs none n := by
  rw [offersX h]
  exact ⟨.uri (uri "n") false, _, none, resolve_locates.1 rfl, ⟨0, .absent, rfl, Or.inl ⟨rfl, rfl⟩⟩,
    Ext.parse_write notif2⟩

theorem goodRunX : GoodRun life confX base name p1 p2 5 (envAt 1 notif2) fs1 :=
  { source := fun _ n h => goodRun1'.source none n (offers_conf h)
    later := goodRun1'.later
    lists := fun _ n h => goodRun1'.lists none n (offers_conf h)
    notBefore := fun _ n h => goodRun1'.notBefore none n (offers_conf h)
    notAfter := fun _ n h => goodRun1'.notAfter none n (offers_conf h)
    no304 := no304 _ _
    limit := nofun
    brisk := fun _ _ => (by decide : (1 : Int) < 1 + 20)
    moves := Or.inl (by decide +kernel) }

theorem forwardX : ForwardRun BitVec.toNat confX base name v1.1 v2.1 5 (envAt 1 notif2) fs1 :=
  ⟨fun _ n h => forward2.source none n (offers_conf h), forward2.later,
    fun _ n h => forward2.notBefore none n (offers_conf h),
    fun _ n h => forward2.notAfter none n (offers_conf h)⟩

/-- The rsync state in `fs1` has no old directory. -/
theorem timelyX : TimelyRun life confX base name p1 p2 5 (envAt 1 notif2) fs1 := by
  refine ⟨goodRunX, ?_⟩
  rintro st r (⟨b, h1, h2⟩ | ⟨_, rfl⟩) h3 d hd h4 k
  · have : fs1.read conf.rsyncStatePath = some (Ext.encRsync ⟨some notif1.rev, []⟩) := by decide +kernel
    have h1 : fs1.read conf.rsyncStatePath = some b := h1
    rw [this] at h1
    cases h1
    rw [Ext.dec_enc_rsync] at h2
    cases h2
    cases hd
  · cases h3

theorem announcedX : AnnouncedRun BitVec.toNat confX base name v1 v2 5 (envAt 1 notif2) fs1 :=
  ⟨forwardX, ⟨forwardX.source, no304 _ _, fun _ _ h => offersX h ▸ (lists_of_check (by decide)).oneHash⟩, by
    rintro n (h | h)
    · exact h
    · exact Or.inr (announced (c := confX) rfl rfl h)⟩

theorem sameRsync : SameRsync conf conf := ⟨rfl, rfl, rfl⟩
theorem sameRsyncX : SameRsync conf confX := ⟨rfl, rfl, rfl⟩
theorem sameConf : SameInstallation conf conf := ⟨rfl, rfl, rfl, rfl⟩

theorem sameM : SameInstallation confM conf := ⟨rfl, rfl, rfl, rfl⟩
theorem sameM' : SameInstallation conf confM := ⟨rfl, rfl, rfl, rfl⟩

end Demo

example := C80_files_in_place life conf base name p2 fsX layout cleanObjects
  (((Reconfigured.start pristine0 : Reconfigured conf (fun _ => Pristine conf name)
    (fun c' => GoodRun life c' base name) p0 fs0).run sameConf goodRun0 fs1_crash).run sameX goodRunX
    List.mem_cons_self)

/-- The second run did publish. -/
example : fsX.file? (conf.notifPath name) = some (Ext.writeNotif notif2) := by decide +kernel

example := C80_version_never_back BitVec.toNat conf base name v1.1 v2.1 fs1 fsX notif1 layout cleanObjects
  ((Reconfigured.start pristine0 : Reconfigured conf (fun _ => Pristine conf name)
    (fun c' => ForwardRun BitVec.toNat c' base name) ((0, 0) : Nat × Nat) fs0).run sameConf forward1 fs1_crash)
  (Reconfigured.run (c' := confX) (Reconfigured.start ⟨rfl, rfl⟩) sameX
    (env := envAt 1 notif2) (depth := 5) forwardX
    List.mem_cons_self) published1

example := C80_current_kept_with_links life conf base name p2 fsX layout (cleanObjects _)
  (((Reconfigured.start untouched0 : Reconfigured conf (fun _ => Untouched conf)
    (fun c' p p' depth env f => SameRsync conf c' ∧ TimelyRun life c' base name p p' depth env f) p0
    fs0).run sameConf ⟨sameRsync, timely_of_check goodRun0 (by decide +kernel)⟩ fs1_crash).run sameX
    ⟨sameRsyncX, timelyX⟩ List.mem_cons_self)

example := C80_not_older_with_links BitVec.toNat conf base name v2 fsX notif2 layout (cleanObjects _)
  (((Reconfigured.start ⟨unused0, rsyncUnused0⟩ : Reconfigured conf
    (fun _ f => Unused conf name f ∧ RsyncUnused conf f) (fun c' i j depth env f => SameRsync conf c' ∧
      AnnouncedRun BitVec.toNat c' base name i j depth env f) ((0, 0), early) fs0).run sameConf
      ⟨sameRsync, announcedRun1⟩ fs1_crash).run sameX
    ⟨sameRsyncX, announcedX⟩ List.mem_cons_self)
  ⟨1, by decide +kernel⟩

/-- From links to moves. -/
example := C80_stuck_from_links_to_moves confM base name ⟨some notif1.rev, []⟩ notif1.rev fs1
  (after confM (envAt 1 notif2) fs1) layoutM cleanObjects rfl rfl
  (Reconfigured.run (c' := conf) (Reconfigured.start (i := ()) pristineM) sameM (env := envAt 0 notif1) (depth := 5)
    (goodSource (by decide)) fs1_crash)
  (Or.inl ⟨_, by decide +kernel, Ext.dec_enc_rsync _⟩) rfl (by decide +kernel)
  ⟨["a.cer".toList], by decide, by decide +kernel⟩
  (History.run (i := ()) (env := envAt 1 notif2) (depth := 5) (History.start rfl)
    (otherRevisions (by decide) (by decide)) List.mem_cons_self)

/-- From moves to links. -/
example := C80_stuck_from_moves_to_links conf base name fsM (after conf (envAt 1 notif2) fsM) layout
  cleanObjects rfl rfl
  (Reconfigured.run (c' := confM) (Reconfigured.start (i := ()) pristine0) sameM' (env := envAt 0 notif1) (depth := 5)
    (goodSourceM (by decide)) List.mem_cons_self)
  ⟨["a.cer".toList], by decide, by decide +kernel⟩
  (History.run (i := ()) (env := envAt 1 notif2) (depth := 5) (History.start rfl) (goodSource (by decide))
    List.mem_cons_self)

/-- Both fail with an error. -/
example : (process 5 confM (envAt 1 notif2) (World.start fs1)).1 ≠ .ok () ∧
    (process 5 conf (envAt 1 notif2) (World.start fsM)).1 ≠ .ok () := by decide +kernel

end

end KSync
