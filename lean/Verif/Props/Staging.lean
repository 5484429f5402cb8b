import Verif.Lemmas.Staging
import Verif.Props.Ledger

/-!
# What is left in the staging area (property C63)
-/

set_option linter.unusedVariables false

namespace KSync

/-- **C63.** Take an installation that starts with nothing, and any number of runs over a source that
names its files sensibly.  `A` collects, for each run that failed or was cut off, the staging places of
the files which the notification of that run names.  Then every file in the staging area other than
these is the staged copy of the notification.  So if all runs end well (`A` is empty then) nothing but
the notification is in the staging area between runs: each run moves or removes all it had fetched.

Partial: what a failed run has fetched is not removed by later runs, see `C63_refuted_leftovers`. -/
theorem C63_swept_partial [Ext] (c : Config) (base name : Str) (A : Path → Prop) (f : FS)
    (hl : Layout c base name) (ho : c.rsyncEnabled = true → CleanObjects c.rsyncIncludeHost)
    (h : Workspace c base name A f) : Swept c name A f :=
  h.swept hl ho

/-- **C63.** At every instant of a run, whatever happens: a file in the staging area which is neither
the staged notification nor has the place of a file named by a notification on offer is left alone,
neither changed nor moved nor removed. -/
theorem C63_strays_stay [Ext] (depth : Nat) (c : Config) (base name : Str) (env : Env) (fs f : FS)
    (hl : Layout c base name) (hc : RunConds c base name env fs)
    (hs : SoundSource c base name env fs) (hn : NoLinks fs c.stagingDir)
    (hf : f ∈ (process depth c env (World.start fs)).2.crashPoints) (q : Path)
    (hq : c.stagingDir <+: q) (h1 : q ≠ c.stagingDir ++ [name]) (h2 : ¬ StagedFor c base env fs q) :
    f.leaf q = fs.leaf q :=
  (run_staging hl hc hs hn hf hq).2 h1 h2

/-- **C63.** No directory in the staging area is ever removed, though it be empty: at every instant of
a run each of them is still there. -/
theorem C63_directories_stay [Ext] (depth : Nat) (c : Config) (base name : Str) (env : Env) (fs f : FS)
    (hl : Layout c base name) (hc : RunConds c base name env fs)
    (hs : SoundSource c base name env fs) (hn : NoLinks fs c.stagingDir)
    (hf : f ∈ (process depth c env (World.start fs)).2.crashPoints) (q : Path)
    (hq : c.stagingDir <+: q) (hd : fs.get q = some .dir) : f.get q = some .dir :=
  (run_staging hl hc hs hn hf hq).1 hd

section

open Demo

set_option maxRecDepth 100000

namespace Demo

theorem workspace1 : Workspace conf base name (fun _ => False) fs1 :=
  .done (.start unused0 (FS.noFiles_of_check (by decide))) (soundSource (by decide) (by decide)) run1

theorem workspace2 : Workspace conf base name (fun _ => False) fs2 :=
  .done workspace1 (soundSource (by decide) (by decide)) run2

/-- The second version is offered, but the server does not have its delta. -/
def envNoDelta : Env := { envAt 1 notif2 with
  http := fun k r => if r.uri = uri "d2" then .other 404 else (envAt 1 notif2).http k r }

theorem envNoDelta_offers {fs : FS} {etag : Option Str} {n : Notif}
    (h : Offers conf envNoDelta fs etag n) : n = notif2 :=
  offers_only rfl (fun k r h => by
    show (if r.uri = uri "d2" then _ else (envAt 1 notif2).http k r) = _
    rw [if_neg (by rw [h]; decide)]
    exact if_pos h) h

theorem envNoDelta_sound {fs : FS} : SoundSource conf base name envNoDelta fs := by
  refine ⟨fun etag n h => ?_, fun k r h => ?_, fun etag n h => ?_⟩
  · rw [envNoDelta_offers h]
    exact goodNotif_of_check (by decide)
  · show (if r.uri = uri "d2" then _ else (envAt 1 notif2).http k r) ≠ _
    split
    · simp
    · exact no304 1 notif2 k r h
  · rw [envNoDelta_offers h]
    exact (lists_of_check (by decide)).oneHash

/-- The disk after the run that failed for want of the delta. -/
def fsNoDelta : FS := after conf envNoDelta fs1

theorem workspaceNoDelta : Workspace conf base name
    (fun q => False ∨ StagedFor conf base envNoDelta fs1 q) fsNoDelta :=
  .cut (depth := 5) workspace1 envNoDelta_sound (List.mem_cons_self ..)

theorem runNoDelta : process 5 conf (envAt 2 notif3) (World.start fsNoDelta) =
    (.ok (), (process 5 conf (envAt 2 notif3) (World.start fsNoDelta)).2) :=
  Prod.ext (by decide +kernel) rfl

end Demo

/-- After two updates only the notification is there. -/
example := C63_swept_partial conf base name _ fs2 layout (fun _ => cleanObjects _) workspace2

example : fs2.leaf (conf.stagingDir ++ [name]) ≠ none ∧
    fs2.leaf (conf.stagingDir ++ ["s2".toList]) = none := by decide +kernel

/-- The failed run leaves the snapshot. -/
example := C63_swept_partial conf base name _ fsNoDelta layout (fun _ => cleanObjects _) workspaceNoDelta

example : fsNoDelta.leaf (conf.stagingDir ++ ["s2".toList]) ≠ none := by decide +kernel

/-- The left-over snapshot is a stray file for the next run. -/
example (f : FS)
    (hf : f ∈ (process 5 conf (envAt 2 notif3) (World.start fsNoDelta)).2.crashPoints) :
    f.leaf (conf.stagingDir ++ ["s2".toList]) = fsNoDelta.leaf (conf.stagingDir ++ ["s2".toList]) := by
  obtain ⟨B, hB⟩ := workspaceNoDelta.ledger
  have hb := hB.booked layout (fun _ => cleanObjects _)
  have hs : SoundSource conf base name (envAt 2 notif3) fsNoDelta :=
    soundSource (by decide) (by decide)
  refine C63_strays_stay 5 conf base name _ fsNoDelta f layout
    (hb.conds layout (fun _ => cleanObjects _) hs) hs hb.staging hf _ (List.prefix_append _ _)
    (by decide) ?_
  rintro ⟨etag, n, h1, r, hr, rel, h2, h3⟩
  rw [offers h1] at hr
  have h3 := List.append_cancel_left h3
  have : rel = r.1.drop base.length := by rw [h2, List.drop_left]
  rw [this] at h3
  clear this h2
  revert h3
  revert hr
  revert r
  decide

/-- The staging area is a directory before and during the run. -/
example (f : FS)
    (hf : f ∈ (process 5 conf (envAt 2 notif3) (World.start fsNoDelta)).2.crashPoints) :
    f.get conf.stagingDir = some .dir := by
  obtain ⟨B, hB⟩ := workspaceNoDelta.ledger
  have hb := hB.booked layout (fun _ => cleanObjects _)
  have hs : SoundSource conf base name (envAt 2 notif3) fsNoDelta :=
    soundSource (by decide) (by decide)
  exact C63_directories_stay 5 conf base name _ fsNoDelta f layout
    (hb.conds layout (fun _ => cleanObjects _) hs) hs hb.staging hf _ (List.prefix_refl _)
    (by decide +kernel)

/-- **C63, refuted.** In general files are left in the staging area for good.  A run fails because a
delta cannot be had; before the next run the source moves on.  That run ends well, but the snapshot
fetched by the one before is still there. -/
theorem C63_refuted_leftovers : ∃ (f0 f1 : FS) (env1 env2 : Env) (w : World),
    Workspace conf base name (fun _ => False) f0 ∧ SoundSource conf base name env1 f0 ∧
    (process 5 conf env1 (World.start f0)).1 ≠ .ok () ∧
    f1 = (process 5 conf env1 (World.start f0)).2.cur ∧
    SoundSource conf base name env2 f1 ∧
    process 5 conf env2 (World.start f1) = (.ok (), w) ∧
    ¬ Swept conf name (fun _ => False) w.cur := by
  refine ⟨fs1, fsNoDelta, envNoDelta, envAt 2 notif3, _, workspace1, envNoDelta_sound,
    by decide +kernel, rfl, soundSource (by decide) (by decide), runNoDelta, fun h => ?_⟩
  rcases h (conf.stagingDir ++ ["s2".toList]) (List.prefix_append _ _) (by decide +kernel) with h | h
  · exact absurd h (by decide)
  · exact h

end

end KSync
