import Verif.Spec.Client
import Verif.Lemmas.Client
import Verif.Lemmas.Chain
import Verif.Props.History

/-!
# Clients of the published repository (property C74)

A client reads the notification file and then fetches the files it lists.  Meanwhile the installation
may go on, any number of times, to later versions.
-/

set_option linter.unusedVariables false

namespace KSync

/-- **C74.** At some time in the life of an installation a client reads the published notification.
Whatever runs are completed, fail or are interrupted afterwards: as long as they read clock times less
than `--cleanup-after` seconds after `t0`, where no run from then on reads a time before `t0`, all files
that notification lists are in place and have the hashes it gives, whether or not they are still
listed.

Partial: the source is as in `SourceLife` (see `C01_files_in_place_partial`), and files can be renamed,
not copied, into the RRDP directory if the client reads the notification between a crash of the run that
wrote it, before it wrote the state, and the next completed run.  And the time counts from the start of the run that replaces
the notification, not from when the notification was last served, which is what `--cleanup-after` is
meant for: see `C74_refuted_from_last_served`. -/
theorem C74_listed_files_stay_partial [Ext] (life : SourceLife) (c : Config) (base name : Str)
    (p0 p : Progress) (f0 f : FS) (n : Notif) (t : Time) (t0 : Time) (hl : Layout c base name)
    (ho : c.rsyncEnabled = true → CleanObjects c.rsyncIncludeHost)
    (h0 : Lifetime life c base name p0 f0)
    (hn : f0.leaf (c.notifPath name) = some (.file (Ext.writeNotif n) t))
    (h : Meanwhile life c base name t0 p0 f0 p f) :
    ∀ r ∈ n.refs, ∃ rel, r.1 = base ++ rel ∧ FileHas f (c.pubPath rel) r.2 := by
  have hk := h0.kept hl ho
  have hb : Backed life c base name p0 f0 n := by
    rcases hk.notif with h1 | ⟨n', t', h1, h2⟩
    · rw [hn] at h1; cases h1
    · rw [hn] at h1
      injection h1 with h1
      injection h1 with h1 _
      rw [writeNotif_inj h1]; exact h2
  let W : Str → Hash → Prop := fun rel k => (base ++ rel, k) ∈ n.refs
  have hb' : ∀ rel k, W rel k → GoodRel name rel ∧ (life.role (comps rel)).hash = k ∧
      FileHas f0 (c.pubPath rel) k ∧ Spared c f0 rel := fun rel k hW => by
    obtain ⟨rel', h1, h2⟩ := hb.refs _ hW
    have := List.append_cancel_left h1
    subst this
    exact h2
  have hin : InStep c base name f0 → ∃ s, Recorded c f0 s ∧ Describes base s n := by
    rintro (h1 | ⟨s, n', t', h1, h2, h3⟩)
    · rw [hn] at h1; cases h1
    · rw [hn] at h3
      injection h3 with h3
      injection h3 with h3 _
      rw [writeNotif_inj h3]; exact ⟨s, h1, h2⟩
  have hR : Relied life c name t0 W (InStep c base name f0) f0 := by
    refine ⟨hk.wf, hk.noLink, fun rel k hW => (hb' rel k hW).2.2.1,
      fun rel k hW s hs e he hp => absurd hp ((hb' rel k hW).2.2.2 s hs e he), fun hi he => ?_,
      fun hi rel k hW s hs => ?_⟩
    · obtain ⟨s, ⟨b, h1, _⟩, _⟩ := hin hi
      rw [FS.read_leaf_none he] at h1
      cases h1
    · obtain ⟨s', h1, h2⟩ := hin hi
      obtain rfl := hs.unique h1
      obtain ⟨rel', h3, h4⟩ := h2.heldFile hW
      obtain rfl := List.append_cancel_left h3
      exact Or.inl h4.refers
  have key : Kept life c base name p f ∧ Relied life c name t0 W (InStep c base name f0) f := by
    unfold Meanwhile at h
    induction h with
    | start h => obtain ⟨rfl, rfl⟩ := h; exact ⟨hk, hR⟩
    | run _ h1 h2 ih =>
      exact ⟨run_kept hl ho ih.1 h1.1 _ h2, run_relied hl ho ih.1 h1.1
        (fun rel k hW => ⟨(hb' rel k hW).1, (hb' rel k hW).2.1⟩) ih.2 h1.2.2 h1.2.1 _ h2⟩
  intro r hr
  obtain ⟨rel, h1, _⟩ := hb.refs r hr
  exact ⟨rel, h1, key.2.files rel r.2 (show (base ++ rel, r.2) ∈ n.refs by rw [← h1]; exact hr)⟩

section
open Demo Inst
set_option maxRecDepth 100000

/-- How far the source has got with version 3. -/
def Demo.p3 : Progress := ⟨1, 3, 2⟩

/-- A server that offers `n` all the time, whatever the clock. -/
def Demo.envBy (clock : Nat → Time) (n : Notif) : Env := { envAt 0 n with clock := clock }

theorem Demo.offersBy {clock : Nat → Time} {n n' : Notif} {fs : FS} {etag : Option Str}
    (h : Offers conf (envBy clock n) fs etag n') : n' = n :=
  offers_only rfl (fun _ _ h => if_pos h) h

/-- ... and where some operations fail. -/
def Demo.envSlip (fault : Nat → Bool) (clock : Nat → Time) (n : Notif) : Env :=
  { envBy clock n with fault := fault }

theorem Demo.offersSlip {fault : Nat → Bool} {clock : Nat → Time} {n n' : Notif} {fs : FS} {etag : Option Str}
    (h : Offers conf (envSlip fault clock n) fs etag n') : n' = n :=
  offers_only rfl (fun _ _ h => if_pos h) h

theorem Demo.goodRunSlip {fault : Nat → Bool} {clock : Nat → Time} {f : FS}
    (hb : Brisk conf (envSlip fault clock notif2)) (h304 : No304 (envSlip fault clock notif2))
    (hm : (process 5 conf (envSlip fault clock notif2) (World.start f)).2.copied = [] ∨ InStep conf base name f) :
    GoodRun life conf base name p1 p2 5 (envSlip fault clock notif2) f where
  source := fun _ n' hn => offersSlip hn ▸ goodNotif_of_check (by decide)
  later := Or.inr (by decide)
  lists := fun _ _ h => offersSlip h ▸ lists_of_check (by decide)
  notBefore := by
    intro _ _ h
    rw [offersSlip h]
    refine Or.inr ⟨by decide, by decide, fun d hd => ?_⟩
    rw [show notif2.deltas = [⟨2, uri "d2", [2]⟩] from rfl, List.mem_singleton] at hd
    rw [hd]; decide
  notAfter := by
    intro _ _ h
    rw [offersSlip h]
    refine Or.inr ⟨by decide, by decide, fun k hk => ?_⟩
    have hp : (⟨2, uri "d2", [2]⟩ : DeltaInfo) ∈ notif2.deltas :=
      (List.mem_singleton.2 rfl)
    exact Nat.lt_of_not_le (fun hle => hk (Or.inl ⟨_, hp, hle⟩))
  no304 := h304
  limit := nofun
  brisk := hb
  moves := hm

theorem Demo.goodRunBy2 {clock : Nat → Time} {f : FS} (hb : Brisk conf (envBy clock notif2))
    (h304 : No304 (envBy clock notif2))
    (hm : (process 5 conf (envBy clock notif2) (World.start f)).2.copied = []) :
    GoodRun life conf base name p1 p2 5 (envBy clock notif2) f :=
  goodRunSlip (fault := fun _ => false) hb h304 (Or.inl hm)

theorem Demo.goodRunBy3 {clock : Nat → Time} {f : FS} (hb : Brisk conf (envBy clock notif3))
    (h304 : No304 (envBy clock notif3))
    (hm : (process 5 conf (envBy clock notif3) (World.start f)).2.copied = []) :
    GoodRun life conf base name p2 p3 5 (envBy clock notif3) f where
  source := fun _ n' hn => offersBy hn ▸ goodNotif_of_check (by decide)
  later := Or.inr (by decide)
  lists := fun _ _ h => offersBy h ▸ lists_of_check (by decide)
  notBefore := by
    intro _ _ h
    rw [offersBy h]
    refine Or.inr ⟨by decide, by decide, fun d hd => ?_⟩
    rw [show notif3.deltas = [⟨2, uri "d2", [2]⟩, ⟨3, uri "d3", [3]⟩] from rfl, List.mem_cons,
      List.mem_singleton] at hd
    rcases hd with hd | hd <;> (rw [hd]; decide)
  notAfter := by
    intro _ _ h
    rw [offersBy h]
    refine Or.inr ⟨by decide, by decide, fun k hk => ?_⟩
    have hp : (⟨2, uri "d2", [2]⟩ : DeltaInfo) ∈ notif3.deltas :=
      (List.mem_cons_self ..)
    exact Nat.lt_of_not_le (fun hle => hk (Or.inl ⟨_, hp, hle⟩))
  no304 := h304
  limit := nofun
  brisk := hb
  moves := Or.inl hm

/-- Two more runs, at times 1 and 9, after the first version was read. -/
def Demo.fsThen2 : FS := after conf (envBy (fun _ => 1) notif2) fs1
def Demo.fsThen3 : FS := after conf (envBy (fun _ => 9) notif3) fsThen2

theorem Demo.briskBy (t : Time) (n : Notif) : Brisk conf (envBy (fun _ => t) n) := by
  intro i j
  show t < t + 10
  exact Int.lt_add_of_pos_right _ (by decide)

theorem Demo.meanwhile : Meanwhile life conf base name 0 p1 fs1 p3 fsThen3 := by
  refine History.run (i := p2) (History.run (i := p1) (History.start ⟨rfl, rfl⟩)
    (f' := fsThen2) (depth := 5) (env := envBy (fun _ => 1) notif2) ⟨?_, ?_, fun _ => ?_⟩ List.mem_cons_self)
    (f' := fsThen3) (depth := 5) (env := envBy (fun _ => 9) notif3) ⟨?_, ?_, fun _ => ?_⟩ List.mem_cons_self
  · exact goodRunBy2 (briskBy _ _) (no304 0 _) (by decide +kernel)
  · exact Or.inl (by decide +kernel)
  · exact ⟨by show (0 : Int) ≤ 1; decide, by show (1 : Int) < 0 + 10; decide⟩
  · exact goodRunBy3 (briskBy _ _) (no304 0 _) (by decide +kernel)
  · exact Or.inl (by decide +kernel)
  · exact ⟨by show (0 : Int) ≤ 9; decide, by show (9 : Int) < 0 + 10; decide⟩

example : ∀ r ∈ notif1.refs, ∃ rel, r.1 = base ++ rel ∧ FileHas fsThen3 (conf.pubPath rel) r.2 :=
  C74_listed_files_stay_partial life conf base name p1 p3 fs1 fsThen3 notif1 0 0 layout
    (fun _ => cleanObjects _) lifetime1 (by decide +kernel) meanwhile

/-- The third version is served by then, which does not list the first snapshot any more. -/
example : fsThen3.file? (conf.notifPath name) ≠ some (Ext.writeNotif notif1) ∧
    notif1.refs ≠ [] := by decide +kernel

/-- State and notification are in step after the first run. -/
theorem Demo.inStep1 : InStep conf base name fs1 := by
  refine Or.inr ⟨state1, notif1, 0, recorded1, ⟨⟨_, rfl, ?_⟩, ?_⟩, ?_⟩ <;> decide +kernel

/-- The same, but in the second run a file cannot be renamed: it has to be copied. -/
def Demo.slip : Env := envSlip (fun k => k == 14) (fun _ => 1) notif2

def Demo.fsSlip : FS := after conf slip fs1

theorem Demo.meanwhileSlip : Meanwhile life conf base name 0 p1 fs1 p2 fsSlip := by
  refine History.run (i := p1) (History.start ⟨rfl, rfl⟩)
    (f' := fsSlip) (depth := 5) (env := slip) ⟨?_, Or.inr inStep1, fun _ => ?_⟩ List.mem_cons_self
  · exact goodRunSlip (briskBy _ notif2) (no304 0 notif2) (Or.inr inStep1)
  · exact ⟨by show (0 : Int) ≤ 1; decide, by show (1 : Int) < 0 + 10; decide⟩

example : ∀ r ∈ notif1.refs, ∃ rel, r.1 = base ++ rel ∧ FileHas fsSlip (conf.pubPath rel) r.2 :=
  C74_listed_files_stay_partial life conf base name p1 p2 fs1 fsSlip notif1 0 0 layout
    (fun _ => cleanObjects _) lifetime1 (by decide +kernel) meanwhileSlip

example : (process 5 conf slip (World.start fs1)).2.copied ≠ [] ∧
    fsSlip.file? (conf.notifPath name) = some (Ext.writeNotif notif2) := by decide +kernel

/-! ### Where the claim fails -/

/-- The clock of a run that takes a while until it writes the notification. -/
def Demo.tardy : Nat → Time := fun k => if k < 20 then 1 else 10

def Demo.fsTardy : FS := after conf (envBy tardy notif2) fs1

/-- **C74 fails if the time is to count from when the notification was last served.**  The first
version is served until the second notification is written, at time 10, in a run that has scheduled its
files for removal at time 1 and is not longer than the cleanup time.  The next run, at time 11, removes
the snapshot of the first version: one second after it was listed, where the cleanup time is 10
seconds. -/
theorem C74_refuted_from_last_served :
    Lifetime life conf base name p1 fs1 ∧
    fs1.file? (conf.notifPath name) = some (Ext.writeNotif notif1) ∧
    GoodRun life conf base name p1 p2 5 (envBy tardy notif2) fs1 ∧
    fsTardy.get (conf.notifPath name) = some (.file (Ext.writeNotif notif2) 10) ∧
    GoodRun life conf base name p2 p3 5 (envBy (fun _ => 11) notif3) fsTardy ∧
    (11 : Int) < 10 + conf.cleanupAfter ∧
    notif1.snapUri = base ++ "s1".toList ∧
    (after conf (envBy (fun _ => 11) notif3) fsTardy).get (conf.pubPath "s1".toList) = none := by
  refine ⟨lifetime1, by decide +kernel, goodRunBy2 ?_ (no304 0 _) (by decide +kernel), by decide +kernel,
    goodRunBy3 (briskBy _ _) (no304 0 _) (by decide +kernel), by decide, by decide, by decide +kernel⟩
  intro i j
  show tardy j < tardy i + 10
  unfold tardy
  split <;> split <;> decide

end

end KSync
