import Verif.Lemmas.Timeline
import Verif.Props.Fallback
import Verif.Props.Client

/-!
# Any two instants, of the same run or of different runs (property C88)

`Timeline`, `ForwardTimeline` and `AnyTwo` are defined in `Verif/Spec/Timeline.lean`.  C47, C74, C78 and C87
compare an instant with instants of runs that are started after it.  Here the two instants may also belong to
the same run, which goes on while it is looked at.
-/

set_option linter.unusedVariables false

namespace KSync

/-- **C88.** A notification that is in place at some instant is followed, at every later instant, by one that is
not older. -/
theorem C88_notification_never_back [Ext] (age : Uuid → Nat) (c : Config) (base name : Str)
    (i : Version × (Notif → Prop)) (l : List FS) (hl : Layout c base name)
    (ho : c.rsyncEnabled = true → CleanObjects c.rsyncIncludeHost)
    (h : ForwardTimeline age c base name i l) :
    AnyTwo (fun f g => ∀ n, Published c name f n → ∃ n', Published c name g n' ∧
      (n.version age).le (n'.version age) ∧ (n'.session = n.session → n.serial ≤ n'.serial)) l := by
  refine (h.notif hl ho).imp fun k n hn => ?_
  obtain ⟨n', h1, h2⟩ := k n hn
  refine ⟨n', h1, h2, fun hs => ?_⟩
  unfold Version.le Notif.version at h2
  rw [hs] at h2
  simp only at h2
  omega

/-- **C88**, for clients of the rsync directory, with links: whatever version `current` leads to at some instant,
at every later instant it leads to one that is not older. -/
theorem C88_rsync_never_back [Ext] (age : Uuid → Nat) (c : Config) (base name : Str)
    (i : Version × (Notif → Prop)) (l : List FS) (hl : Layout c base name)
    (ho : CleanObjects c.rsyncIncludeHost) (he : c.rsyncEnabled = true) (hm : c.rsyncUseSymlinks = true)
    (h : ForwardTimeline age c base name i l) :
    AnyTwo (fun f g => ∀ t, f.link? c.rsyncCurrent = some t → ∃ m m', i.2 m ∧ i.2 m' ∧ t = m.rev.dirName ∧
      g.link? c.rsyncCurrent = some m'.rev.dirName ∧ (m.version age).le (m'.version age) ∧
      (m'.session = m.session → m.serial ≤ m'.serial)) l := by
  refine List.Pairwise.imp_of_mem ?_ (h.link hl ho he hm)
  intro g f hg hf k t ht
  obtain ⟨j, hj, hlife⟩ := h.instants f hf
  obtain ⟨m, a1, a2, _⟩ := (hlife.linkBelow hl ho he hm).below t ht
  obtain ⟨m1, b1, b2⟩ := k m (a2 ▸ ht)
  obtain ⟨j', hj', hlife'⟩ := h.instants g hg
  obtain ⟨m', c1, c2, _⟩ := (hlife'.linkBelow hl ho he hm).below _ b1
  rw [version_of_rev (RsyncRevision.dirName_inj c2)] at b2
  refine ⟨m, m', hj m a1, hj' m' c1, a2, by rw [b1, c2], b2, fun hs => ?_⟩
  unfold Version.le Notif.version at b2
  rw [hs] at b2
  simp only at b2
  omega

/-- **C88**, for clients that turn from RRDP to rsync, with links: whatever notification is in place at some
instant, at every later instant `current` leads to a version that is not older. -/
theorem C88_from_rrdp_to_rsync [Ext] (age : Uuid → Nat) (c : Config) (base name : Str)
    (i : Version × (Notif → Prop)) (l : List FS) (hl : Layout c base name)
    (ho : CleanObjects c.rsyncIncludeHost) (he : c.rsyncEnabled = true) (hm : c.rsyncUseSymlinks = true)
    (h : ForwardTimeline age c base name i l) :
    AnyTwo (fun f g => ∀ n, Published c name f n → ∃ m, i.2 m ∧
      g.link? c.rsyncCurrent = some m.rev.dirName ∧ (n.version age).le (m.version age)) l := by
  refine List.Pairwise.imp_of_mem ?_ (h.notif hl (fun _ => ho))
  intro g f hg hf k n hn
  obtain ⟨n', ⟨t', a1⟩, a2⟩ := k n hn
  obtain ⟨j, hj, hlife⟩ := h.instants g hg
  obtain ⟨m, b1, b2, b3, _⟩ := (hlife.linkAhead hl ho he hm).ahead n' t' a1
  exact ⟨m, hj m b1, b2, Version.le_trans a2 b3⟩

/-- ... and with `--rsync-dir-force-moves`: at every later instant `current` has no files (while one directory
makes place for another), or all objects of a version that is not older. -/
theorem C88_from_rrdp_to_rsync_with_moves [Ext] (age : Uuid → Nat) (c : Config) (base name : Str)
    (i : Version × (Notif → Prop)) (l : List FS) (hl : Layout c base name)
    (ho : CleanObjects c.rsyncIncludeHost) (he : c.rsyncEnabled = true) (hm : c.rsyncUseSymlinks = false)
    (h : ForwardTimeline age c base name i l) :
    AnyTwo (fun f g => ∀ n, Published c name f n → (∀ q, g.leaf (c.rsyncCurrent ++ q) = none) ∨
      ∃ m b, i.2 m ∧ Serves c g c.rsyncCurrent m b ∧ (n.version age).le (m.version age)) l := by
  refine List.Pairwise.imp_of_mem ?_ (h.notif hl (fun _ => ho))
  intro g f hg hf k n hn
  obtain ⟨n', ⟨t', a1⟩, a2⟩ := k n hn
  obtain ⟨j, hj, hlife⟩ := h.instants g hg
  refine (hlife.moveAhead hl ho he hm).ahead.served.imp id ?_
  rintro ⟨m, b, ⟨b1, _, b3⟩, b4⟩
  exact ⟨m, b, hj m b1, b4, Version.le_trans a2 (b3 n' t' a1)⟩

/-- **C88**, within a run: once the notification is another one than at the start, nothing changes any more but
that notification (and the temporary file it is written to) and the state. -/
theorem C88_notification_comes_last [Ext] (c : Config) (base name : Str) (depth : Nat) (env : Env) (fs : FS)
    (hl : Layout c base name) (hc : RunConds c base name env fs) :
    AnyTwo (fun f g => f.leaf (c.notifPath name) ≠ fs.leaf (c.notifPath name) →
      ∀ q, q ≠ c.notifPath name → q ≠ c.rrdpDir ++ [name ++ ".tmp".toList] → q ≠ c.rrdpStatePath →
        g.leaf q = f.leaf q) (process depth c env (World.start fs)).2.crashPoints := by
  rcases run_anyTwo (depth := depth) hl hc with h1 | ⟨s, st, m, _, h1⟩
  · exact h1.imp fun k hne => absurd k.2.2 hne
  · refine h1.imp fun k hne q h1 h2 h3 => ?_
    rcases k.files with h4 | h4
    · exact absurd h4 hne
    · exact h4 q fun h => by
        rcases h with h | h | h
        · exact h2 h
        · exact h1 h
        · exact h3 h

/-- **C88**, for RRDP clients: a notification is read at an instant `f` of a run (that goes on, and is at `g`
later), and whatever it lists is there then and after further runs, for the cleanup time, which counts from the
start of the run (`t0`; not from when it was last served: `C74_refuted_from_last_served`).  Files can be renamed
from the staging area. -/
theorem C88_listed_files_stay [Ext] (life : SourceLife) (c : Config) (base name : Str) (t0 : Time)
    (p0 p1 p : Progress) (depth : Nat) (env : Env) (fs f g x : FS) (n : Notif) (unreached before : List FS)
    (hl : Layout c base name) (ho : c.rsyncEnabled = true → CleanObjects c.rsyncIncludeHost)
    (h0 : Lifetime life c base name p0 fs) (hr : GoodRun life c base name p0 p1 depth env fs)
    (hcopied : (process depth c env (World.start fs)).2.copied = [])
    (hclock : ∀ i, t0 ≤ env.clock i ∧ env.clock i < t0 + c.cleanupAfter)
    (hg : (process depth c env (World.start fs)).2.crashPoints = unreached ++ g :: before)
    (hf : f ∈ g :: before) (hn : Published c name f n)
    (hx : History c (fun q y => q = p1 ∧ y = g) (fun p p' depth env y =>
      GoodRun life c base name p p' depth env y ∧ (process depth c env (World.start y)).2.copied = [] ∧
      ∀ i, t0 ≤ env.clock i ∧ env.clock i < t0 + c.cleanupAfter) p x) :
    ∀ r ∈ n.refs, ∃ rel, r.1 = base ++ rel ∧ FileHas x (c.pubPath rel) r.2 := by
  have hc := (h0.kept hl ho).conds hl ho hr
  have hgm : g ∈ (process depth c env (World.start fs)).2.crashPoints := by
    rw [hg]; exact List.mem_append_right _ List.mem_cons_self
  have hfm : f ∈ (process depth c env (World.start fs)).2.crashPoints := by
    rw [hg]; exact List.mem_append_right _ hf
  -- the notification is that of the start, or it is there at `g`
  have hcase : Published c name fs n ∨ Published c name g n := by
    rcases List.mem_cons.1 hf with rfl | hf
    · exact Or.inr hn
    obtain ⟨l0, hlast⟩ := crashPoints_last depth hc
    rcases run_anyTwo (depth := depth) hl hc with h1 | ⟨s, st, m, _, h1⟩
    · exact Or.inr (hn.of_leaf (h1.mem hg hf).1)
    · obtain ⟨k, k'⟩ := (h1.withFirst hlast).mem hg hf
      rcases k' with rfl | k'
      · exact Or.inl hn
      rcases k'.notif with e | e
      · exact Or.inl (hn.of_leaf e.symm)
      · rcases k.notif with e' | e'
        · exact Or.inr (hn.of_leaf e')
        · rw [hn.unique e]; exact Or.inr e'
  rcases hcase with ⟨t, h1⟩ | ⟨t, h1⟩
  · refine C74_listed_files_stay_partial life c base name p0 p fs x n t t0 hl ho h0 h1 ?_
    have hstart : Meanwhile life c base name t0 p0 fs p1 g :=
      History.run (History.start ⟨rfl, rfl⟩) ⟨hr, Or.inl hcopied, hclock⟩ hgm
    clear h1
    induction hx with
    | start h => obtain ⟨rfl, rfl⟩ := h; exact hstart
    | run _ a b ih => exact History.run ih ⟨a.1, Or.inl a.2.1, a.2.2⟩ b
  · exact C74_listed_files_stay_partial life c base name p1 p g x n t t0 hl ho (History.run h0 hr hgm) h1
      (History.mono id (fun _ _ h => h) (fun _ _ _ _ _ h => ⟨h.1, Or.inl h.2.1, h.2.2⟩) hx)

section
open Demo
set_option maxRecDepth 100000

namespace Demo

/-- The instants of the first run, and of the second. -/
def instants1 : List FS := (process 5 conf (envAt 0 notif1) (World.start fs0)).2.past
def instants2 : List FS := (process 5 conf (envAt 1 notif2) (World.start fs1)).2.past

theorem timeline1 : ForwardTimeline BitVec.toNat conf base name v1 (fs1 :: (instants1 ++ [])) :=
  Timeline.run (unreached := []) (depth := 5) (env := envAt 0 notif1)
    (Timeline.start ⟨unused0, rsyncUnused0⟩) announcedRun1 rfl

theorem timeline2 :
    ForwardTimeline BitVec.toNat conf base name v2 (fs2 :: (instants2 ++ (instants1 ++ []))) :=
  Timeline.run (unreached := []) (depth := 5) (env := envAt 1 notif2) timeline1 announcedRun2 rfl

def instantsM1 : List FS := (process 5 confM (envAt 0 notif1) (World.start fs0)).2.past
def instantsM2 : List FS := (process 5 confM (envAt 1 notif2) (World.start fsM)).2.past

theorem timelineM : ForwardTimeline BitVec.toNat confM base name v2
    (after confM (envAt 1 notif2) fsM :: (instantsM2 ++ (instantsM1 ++ []))) :=
  Timeline.run (unreached := []) (depth := 5) (env := envAt 1 notif2)
    (Timeline.run (unreached := []) (depth := 5) (env := envAt 0 notif1)
      (Timeline.start ⟨⟨pristineM, unused0.empty⟩, rsyncUnusedM⟩) announcedRunM1 rfl) announcedRunM2 rfl

end Demo

example := C88_notification_never_back BitVec.toNat conf base name v2 _ layout (fun _ => cleanObjects _) timeline2
example := C88_rsync_never_back BitVec.toNat conf base name v2 _ layout (cleanObjects _) rfl rfl timeline2
example := C88_from_rrdp_to_rsync BitVec.toNat conf base name v2 _ layout (cleanObjects _) rfl rfl timeline2
example := C88_from_rrdp_to_rsync_with_moves BitVec.toNat confM base name v2 _ layoutM (cleanObjects _) rfl rfl
  timelineM

/-- There are instants of the second run with the first notification, and with the second, and some of the
latter have yet to write the state. -/
example : (instants2.any fun f => f.file? (conf.notifPath name) == some (Ext.writeNotif notif1)) = true ∧
    (instants2.any fun f => f.file? (conf.notifPath name) == some (Ext.writeNotif notif2) &&
      f.file? conf.rrdpStatePath != fs2.file? conf.rrdpStatePath) = true := by
  decide +kernel

example := C88_notification_comes_last conf base name 5 (envAt 1 notif2) fs1 layout (runConds1 1)

/-- The first version is read while the second run goes on, and the second one when it has almost ended. -/
example := C88_listed_files_stay life conf base name 0 p1 p2 p3 5 (envBy (fun _ => 1) notif2) fs1 fs1 fsThen2
  fsThen3 notif1 [] (process 5 conf (envBy (fun _ => 1) notif2) (World.start fs1)).2.past layout
  (fun _ => cleanObjects _) lifetime1 (goodRunBy2 (briskBy _ _) (no304 0 _) (by decide +kernel))
  (by decide +kernel) (fun _ => ⟨by show (0 : Int) ≤ 1; decide, by show (1 : Int) < 0 + 10; decide⟩) rfl
  (by decide +kernel) published1
  (History.run (depth := 5) (env := envBy (fun _ => 9) notif3) (History.start ⟨rfl, rfl⟩)
    ⟨goodRunBy3 (briskBy _ _) (no304 0 _) (by decide +kernel), by decide +kernel,
      fun _ => ⟨by show (0 : Int) ≤ 9; decide, by show (9 : Int) < 0 + 10; decide⟩⟩ List.mem_cons_self)

end

end KSync
