import Verif.Lemmas.Upstream
import Verif.Props.Client
import Verif.Props.Party
import Verif.Props.Mirror
import Verif.Props.Chain
import Verif.Props.Restart

/-!
# C91: Installations that get their files from one that goes on running

Property theorems only; the lemmas are in `Verif/Lemmas/Upstream.lean`, the vocabulary is in
`Verif/Spec/Upstream.lean`.
-/

set_option linter.unusedVariables false

namespace KSync

/-- **C91, what it takes is there.** An installation that has a notification in place supplies all that a run
elsewhere needs to publish it, even if it goes on running meanwhile, and replaces the notification: the files
listed, with the content that goes with their hashes, and deltas without a gap. -/
theorem C91_supplies [Ext] (σ : Nat → Notif) (life : SourceLife) (cp c : Config) (base name : Str) (t0 : Time)
    (i : Progress × Nat) (x f : FS) (env : Env) (n : Notif)
    (hlp : Layout cp base name) (hl : Layout c base name)
    (hop : cp.rsyncEnabled = true → CleanObjects cp.rsyncIncludeHost)
    (hσ : FollowsRfc σ) (hg : ∀ m, GoodNotif base name (σ m))
    (hw : ∀ m b, Ext.sha b = (σ m).snapHash → (Ext.streamSnapshot b).2 = true)
    (hx : Mirroring σ life cp base name i x) (hn : Published cp name x n)
    (h : ServedBy life cp base name t0 i.1 x c env) : Supplies c base env f n := by
  obtain ⟨t, ht⟩ := hn
  exact h.supplies hlp hl hop hσ hg hw hx ⟨t, ht⟩ (fun p y hm =>
    C74_listed_files_stay_partial life cp base name i.1 p x y n t t0 hlp hop hx.lifetime ht hm)

/-- **C91, a mirror gets there.** A run that gets its files from the web server of another installation succeeds
and publishes what that installation had published when the notification was asked for, even if that
installation runs any number of times while the files are fetched, as long as those runs and requests are
within the cleanup time of that installation. -/
theorem C91_gets_there [Ext] (σ : Nat → Notif) (life life' : SourceLife) (T : SourceTree) (cp c : Config)
    (base name : Str) (t0 : Time) (i : Progress × Nat) (q q' : Progress) (x f : FS) (depth : Nat) (env : Env)
    (n : Notif) (hlp : Layout cp base name)
    (hop : cp.rsyncEnabled = true → CleanObjects cp.rsyncIncludeHost)
    (hσ : FollowsRfc σ) (hg : ∀ m, GoodNotif base name (σ m))
    (hw : ∀ m b, Ext.sha b = (σ m).snapHash → (Ext.streamSnapshot b).2 = true)
    (hx : Mirroring σ life cp base name i x) (hn : Published cp name x n)
    (h : ServedBy life cp base name t0 i.1 x c env)
    (hl : Layout c base name) (hT : T.Tidy name) (ho : c.rsyncEnabled = true → CleanObjects c.rsyncIncludeHost)
    (hsym : c.rsyncEnabled = true → c.rsyncUseSymlinks = true) (hmax : c.rrdpMaxDeltas ≠ some 0)
    (ht : TidyLifetime life' T c base name q f) (hst : StatesWhole c f)
    (hr : TidyRun life' T c base name q q' depth env f) (hf : NoFaults env) (hcf : ChildrenFirst env)
    (hpass : Passes depth c env f) :
    ∃ w', process depth c env (World.start f) = (.ok (), w') ∧ PublishedAs c base name w'.cur n :=
  C23_restart_partial life' T c base name q q' f depth env n hl hT ho hsym hmax ht hst hr hf hcf
    (C91_supplies σ life cp c base name t0 i x f env n hlp hl hop hσ hg hw hx hn h) hpass

section

open Demo

set_option maxRecDepth 100000

namespace Demo

/-- The notification as on the disk `x`, the files as on the disk `y`. -/
def envFrom (x y : FS) : Env where
  fault := fun _ => false
  torn := fun _ => 0
  clock := fun _ => 3
  prio := fun _ p => p.length
  http := fun _ r =>
    if r.uri = uri "n" then answerWith .absent (x.file? (conf.notifPath name))
    else answerWith .absent (y.file? (conf.pubPath (r.uri.drop base.length)))
  script := fun _ _ => some true

theorem mirroring1 : Mirroring threeVersions life conf base name (p1, 0) fs1 :=
  History.run (i := (p0, 0)) (start := fun _ => Pristine conf name) (History.start pristine0)
    (env := envAt 0 notif1) (depth := 5)
    ⟨goodRun0, ⟨goodRun0.source, Nat.le_refl _, fun _ _ h => ⟨0, Nat.le_refl _, Nat.le_refl _, offers h⟩⟩⟩
    fs1_crash

theorem published1' : Published conf name fs1 notif1 := ⟨0, by decide +kernel⟩

theorem servedBy3 : ServedBy life conf base name 0 p1 fs1 conf (envFrom fs1 fsThen3) where
  notification := ⟨uri "n", false, .direct rfl, fun _ => ⟨.absent, by decide, rfl⟩⟩
  files := fun rel h1 => by
    refine ⟨base ++ rel, false, .direct rfl, fun _ => ⟨.absent, p3, fsThen3, by decide, meanwhile, ?_⟩⟩
    have hne : base ++ rel ≠ uri "n" := fun e => h1 (List.append_cancel_left e)
    show (if _ then _ else _) = _
    rw [if_neg hne, List.drop_left]

theorem whole3 : ∀ m b, Ext.sha b = (threeVersions m).snapHash → (Ext.streamSnapshot b).2 = true
  | 0, b, h => by obtain rfl : b = notif1.snapHash := h; decide
  | 1, b, h => by obtain rfl : b = notif2.snapHash := h; decide
  | _ + 2, b, h => by obtain rfl : b = notif3.snapHash := h; decide

theorem offersFrom {x y fs : FS} {etag : Option Str} {n' : Notif} (hx : Published conf name x notif1)
    (h : Offers conf (envFrom x y) fs etag n') : n' = notif1 := by
  refine offers_only rfl (fun k r h => ?_) h
  show (if _ then _ else _) = _
  have h : r.uri = uri "n" := h
  rw [if_pos h, hx.file?]
  rfl

theorem no304From (x y : FS) : No304 (envFrom x y) := by
  intro tick r _
  show (if _ then _ else _) ≠ _
  have : ∀ o, answerWith .absent o ≠ .notModified := by intro o; cases o <;> simp [answerWith]
  split <;> exact this _

theorem goodRunFrom {x y : FS} (hx : Published conf name x notif1)
    (hm : (process 5 conf (envFrom x y) (World.start fs0)).2.copied = []) :
    GoodRun life conf base name p0 p1 5 (envFrom x y) fs0 where
  source := fun _ _ h => offersFrom hx h ▸ goodNotif_of_check (by decide)
  later := Or.inl (by decide)
  lists := fun _ _ h => offersFrom hx h ▸ lists_of_check (by decide)
  notBefore := fun _ _ h => offersFrom hx h ▸ Or.inl (by decide)
  notAfter := by
    intro _ _ h
    rw [offersFrom hx h]
    exact Or.inr ⟨by decide, by decide, fun k hk => Nat.lt_of_not_le (fun hle => hk (Or.inr ⟨rfl, hle⟩))⟩
  no304 := no304From _ _
  limit := nofun
  brisk := fun i j => by show (3 : Int) < 3 + 10; decide
  moves := Or.inl hm

theorem tidyRunFrom {x y : FS} (hx : Published conf name x notif1)
    (hm : (process 5 conf (envFrom x y) (World.start fs0)).2.copied = []) :
    TidyRun life tree conf base name p0 p1 5 (envFrom x y) fs0 :=
  ⟨goodRunFrom hx hm, fun _ _ h => offersFrom hx h ▸ tree_has (by decide) (by decide) (by decide)⟩

theorem statesWhole0 : StatesWhole conf fs0 where
  rrdp := Or.inl (by decide +kernel)
  rsync := ⟨_, Or.inr ⟨by decide +kernel, rfl⟩⟩

end Demo

/-- A mirror that starts with nothing: the installation it uses has two more versions by the time the files are
asked for. -/
example : ∃ w', process 5 conf (envFrom fs1 fsThen3) (World.start fs0) = (.ok (), w') ∧
    PublishedAs conf base name w'.cur notif1 :=
  C91_gets_there threeVersions life life tree conf conf base name 0 (p1, 0) p0 p1 fs1 fs0 5 _ notif1 layout
    (fun _ => cleanObjects _) followsRfc3 good3 whole3 mirroring1 published1' servedBy3 layout tree_tidy
    (fun _ => cleanObjects _) (fun _ => rfl) (by decide) (History.start untouched0) statesWhole0
    (tidyRunFrom published1' (by decide +kernel)) (fun _ => rfl)
    (fun _ p q h hne => Nat.lt_of_le_of_ne h.length_le (fun he => hne (h.eq_of_length he)))
    (passes_without_tals _ _ _ _ rfl (fun _ _ _ => Or.inl rfl))

example := C91_supplies threeVersions life conf conf base name 0 (p1, 0) fs1 fs0 _ notif1 layout layout
  (fun _ => cleanObjects _) followsRfc3 good3 whole3 mirroring1 published1' servedBy3

/-- By then the installation has another notification in place. -/
example : fsThen3.file? (conf.notifPath name) ≠ some (Ext.writeNotif notif1) := by decide +kernel

/-- **C91 needs the requests to be in time.** With the disk of C74's counterexample, where the installation has
removed the snapshot of the first version, a run that has asked for the notification before fails, and publishes
nothing. -/
theorem C91_refuted_when_slow :
    GoodRun life conf base name p1 p2 5 (envBy tardy notif2) fs1 ∧
    GoodRun life conf base name p2 p3 5 (envBy (fun _ => 11) notif3) fsTardy ∧
    ¬ ∃ w', process 5 conf (envFrom fs1 (after conf (envBy (fun _ => 11) notif3) fsTardy)) (World.start fs0) =
      (.ok (), w') := by
  refine ⟨C74_refuted_from_last_served.2.2.1, C74_refuted_from_last_served.2.2.2.2.1, ?_⟩
  rintro ⟨w', h⟩
  have h1 : (process 5 conf (envFrom fs1 (after conf (envBy (fun _ => 11) notif3) fsTardy))
      (World.start fs0)).1 ≠ .ok () := by decide +kernel
  exact h1 (by rw [h])

end

end KSync
