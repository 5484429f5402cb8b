import Verif.Lemmas.Fetched
import Verif.Props.Update

/-!
# Each file is fetched once at most, and only if it is missing (property C70)
-/

set_option linter.unusedVariables false

namespace KSync

/-- **C70.** The search for updates and the downloads ask for the notification file once at most.
If it announces a version that is not held, they ask for its snapshot once at most and for each of
its deltas once at most, in the order of their serials, leaving out the deltas that are held and
those beyond the configured number; otherwise they ask for nothing else. -/
theorem C70_each_file_once [Ext] (c : Config) (env : Env) (fs : FS) (base : Str) (s : RrdpState)
    (hb : s.mappings.baseUri = base) (ho : Descending (s.held base)) :
    RunRequests c env fs s (fun _ _ => False)
      (s.updateStaged c env (World.start fs)).2.reqs.reverse := by
  obtain ⟨l, h1, h2⟩ := updateStaged_log (env := env) (w := World.start fs) (c := c)
    (K := fun _ _ _ => False) (spared := fun _ _ => False) hb ho
    (fun _ _ _ h => h.elim) (fun _ _ _ h => h.elim) (fun _ _ _ _ _ _ _ h => h.elim)
    (fun _ _ _ _ _ _ h => h.elim)
  rw [h2]
  simpa [World.start] using h1

/-- **C70, interrupted downloads.** If the file system works and the URIs end in names, files which are in
the staging directory with the announced content are not asked for again. -/
theorem C70_staged_files_spared [Ext] (c : Config) (env : Env) (fs : FS) (base name : Str)
    (s : RrdpState) (hu : NotifUri c base name) (hs : Sane c base name s)
    (ho : Descending (s.held base)) (hf : NoFaults env) (hg : GoodSource c base name env fs)
    (h1 : ∀ etag n, Offers c env fs etag n → OneHashPerPath base n)
    (he : ∀ etag n, Offers c env fs etag n → ∀ r ∈ n.refs, EndsInName r.1) :
    RunRequests c env fs s (InStaging c base fs)
      (s.updateStaged c env (World.start fs)).2.reqs.reverse := by
  obtain ⟨l, h1, h2⟩ := updateStaged_log_staged (env := env) (w := World.start fs) hu hs ho hf
    (fun n hn => hg _ n hn) (fun n hn => h1 _ n hn) (fun n hn => he _ n hn)
  rw [h2]
  simpa [World.start] using h1

/-- **C70, whole runs.** The requests of a run are as described for the state in use, followed by
those of pre-validation, if that is configured. -/
theorem C70_runs [Ext] (depth : Nat) (c : Config) (env : Env) (fs : FS) (base name : Str)
    (hc : RunConds c base name env fs) (ho : OrderedState c base fs) :
    (process depth c env (World.start fs)).2.reqs = [] ∨
    ∃ s l v, InUse c base name fs s ∧ RunRequests c env fs s (fun _ _ => False) l ∧
      (process depth c env (World.start fs)).2.reqs.reverse = l ++ v ∧
      (c.talFiles = [] → v = []) := by
  rcases process_log (depth := depth) hc with h | ⟨s, w0, v, h1, rfl, h3, h4, h5⟩
  · exact Or.inl h
  · obtain ⟨l, g1, g2⟩ := updateStaged_log (env := env) (w := w0) (c := c) (base := base)
      (K := fun _ _ _ => False) (spared := fun _ _ => False)
      (by rw [(h1.sane hc.state).mappings]) (h1.ordered ho)
      (fun _ _ _ h => h.elim) (fun _ _ _ h => h.elim) (fun _ _ _ _ _ _ _ h => h.elim)
      (fun _ _ _ _ _ _ h => h.elim)
    refine Or.inr ⟨s, l, v.reverse, h1, g1, ?_, fun ht => by rw [h5 ht]; rfl⟩
    rw [h4, g2, h3]
    simp

/-- **C70, whole runs after an interrupted one.** -/
theorem C70_runs_spare_staged_files [Ext] (depth : Nat) (c : Config) (env : Env) (fs : FS)
    (base name : Str) (hc : RunConds c base name env fs) (ho : OrderedState c base fs)
    (hf : NoFaults env) (h1 : ∀ etag n, Offers c env fs etag n → OneHashPerPath base n)
    (he : ∀ etag n, Offers c env fs etag n → ∀ r ∈ n.refs, EndsInName r.1) :
    (process depth c env (World.start fs)).2.reqs = [] ∨
    ∃ s l v, InUse c base name fs s ∧ RunRequests c env fs s (InStaging c base fs) l ∧
      (process depth c env (World.start fs)).2.reqs.reverse = l ++ v ∧
      (c.talFiles = [] → v = []) := by
  rcases process_log (depth := depth) hc with h | ⟨s, w0, v, h2, rfl, h3, h4, h5⟩
  · exact Or.inl h
  · obtain ⟨l, g1, g2⟩ := updateStaged_log_staged (env := env) (w := w0) hc.uri
      (h2.sane hc.state) (h2.ordered ho) hf (fun n hn => hc.source _ n hn) (fun n hn => h1 _ n hn)
      (fun n hn => he _ n hn)
    refine Or.inr ⟨s, l, v.reverse, h2, g1, ?_, fun ht => by rw [h5 ht]; rfl⟩
    rw [h4, g2, h3]
    simp

/-- **C70, nothing new.** If the source announces what is held, nothing but the notification
file is asked for. -/
theorem C70_nothing_new [Ext] (c : Config) (env : Env) (fs : FS) (base : Str) (s : RrdpState)
    (x : SnapshotState) (hb : s.mappings.baseUri = base) (ho : Descending (s.held base))
    (hx : s.snapshot = some x)
    (hn : ∀ n, Offers c env fs s.source.etag n → x.session = n.session ∧ x.serial = n.serial) :
    (s.updateStaged c env (World.start fs)).2.reqs.length ≤ 1 ∧
    ∀ r ∈ (s.updateStaged c env (World.start fs)).2.reqs,
      c.Locates c.notificationUri (.uri r.uri r.insecure) := by
  obtain ⟨first, snap, deltas, h1, h2, h3, h4⟩ := C70_each_file_once c env fs base s hb ho
  rcases h4 with ⟨rfl, rfl⟩ | ⟨n0, n, h5, ⟨ds, _, rfl⟩, h6, _⟩
  · have h1' : (s.updateStaged c env (World.start fs)).2.reqs = first.reverse := by
      rw [← List.reverse_reverse (RrdpState.updateStaged _ _ _ _).2.reqs, h1]; simp
    rw [h1']
    exact ⟨by simpa using h2, fun r hr => (h3 r (by simpa using hr)).1⟩
  · have h7 := h6 x hx
    have h8 := hn n0 h5
    dsimp only at h7
    rcases h7 with h7 | h7
    · exact absurd h8.1 h7
    · omega

section
open Demo
set_option maxRecDepth 100000

example : RunConds conf base name (envAt 1 notif2) fs1 ∧ OrderedState conf base fs1 ∧
    NoFaults (envAt 1 notif2) ∧
    (∀ etag n, Offers conf (envAt 1 notif2) fs1 etag n → OneHashPerPath base n) ∧
    (∀ etag n, Offers conf (envAt 1 notif2) fs1 etag n → ∀ r ∈ n.refs, EndsInName r.1) := by
  refine ⟨runConds1 1, orderedState1, fun _ => rfl, oneHash2, fun etag n hn r hr => ?_⟩
  rw [offers hn] at hr
  have : notif2.refs.all (fun r => endsInName r.1) = true := by decide
  exact EndsInName.of_ends (List.all_eq_true.1 this r hr)

/-- The second run of the example asks for three files. -/
example : (process 8 conf (envAt 1 notif2) (World.start fs1)).2.reqs.reverse.map (·.uri) =
    [uri "n", uri "s2", uri "d2"] := by decide +kernel

/-- A run broken off between the downloads of `s2` and `d2`. -/
def Demo.brokenOff : FS :=
  (process 8 conf { envAt 1 notif2 with fault := fun t => t == 12 } (World.start fs1)).2.cur

/-- The next run asks for the one file that is missing. -/
example : (brokenOff.file? ["s".toList, "pre-validate-staging".toList, "s2".toList]).map Ext.sha =
      some notif2.snapHash ∧
    (process 8 conf (envAt 1 notif2) (World.start brokenOff)).2.reqs.reverse.map (·.uri) =
      [uri "n", uri "d2"] := by decide +kernel

/-- The version held is announced again. -/
example : (process 8 conf (envAt 1 notif1) (World.start fs1)).2.reqs.map (·.uri) = [uri "n"] ∧
    (state1.snapshot.map fun x => (x.session, x.serial)) = some (notif1.session, notif1.serial) ∧
    Recorded conf fs1 state1 := ⟨by decide +kernel, by decide, recorded1⟩

end

end KSync
