import Verif.Lemmas.Empty
import Verif.Props.Staging

/-!
# Empty directories (property C64)
-/

set_option linter.unusedVariables false

namespace KSync

/-- **C64.** Take an installation that starts with nothing in the RRDP directory, not even directories,
and any number of runs over a source that names its files sensibly.  `A` collects, for each run that
was cut off or in which a file operation failed, the directories on the way to the files it was to
publish or remove.  Then every directory in the RRDP directory other than these has something in it:
with each old file the cleanup removes the directories which are empty then.

Partial: a directory which was left empty by a run that was cut off is not removed by later runs, see
`C64_refuted_after_crash`. -/
theorem C64_no_empty_dirs_partial [Ext] (c : Config) (base name : Str) (A : Path → Prop) (f : FS)
    (hl : Layout c base name) (ho : c.rsyncEnabled = true → CleanObjects c.rsyncIncludeHost)
    (h : Tended c base name A f) : NoEmptyDirs c.rrdpDir A f :=
  h.noEmpty hl ho

section

open Demo

set_option maxRecDepth 100000

namespace Demo

/-- Versions with the snapshot in a directory of its own. -/
def nest (k : UInt8) (d : String) : Notif := ⟨1, k.toNat, uri (d ++ "/s"), snap k, []⟩

def nestFiles : List (Str × Bytes) :=
  [(uri "a/s", snap 1), (uri "b/s", snap 2), (uri "c/s", snap 3)]

def envNest (t : Time) (n : Notif) : Env := { envAt t n with
  http := fun _ r =>
    if r.uri = uri "n" then .ok .absent (some (Inst.toBytes n))
    else match nestFiles.lookup r.uri with
      | some b => .ok .absent (some b)
      | none => .other 404 }

theorem nest_sound {t : Time} {n : Notif} {fs : FS} (h1 : goodNotifB base name n = true)
    (h2 : n.deltas = []) : SoundSource conf base name (envNest t n) fs := by
  have ho : ∀ etag m, Offers conf (envNest t n) fs etag m → m = n :=
    fun etag m h => offers_only rfl (fun k r h => if_pos h) h
  refine ⟨fun etag m h => ?_, fun k r h => ?_, fun etag m h => ?_⟩
  · rw [ho _ _ h]
    exact goodNotif_of_check h1
  · show (if r.uri = uri "n" then _ else _) ≠ _
    split
    · simp
    · split <;> simp
  · rw [ho _ _ h]
    intro r1 hr1 r2 hr2 _ _ _ _ _
    unfold Notif.refs at hr1 hr2
    rw [h2] at hr1 hr2
    simp only [List.map_nil, List.mem_singleton] at hr1 hr2
    rw [hr1, hr2]

theorem noEmpty0 : NoEmptyDirs conf.rrdpDir (fun _ => False) fs0 := by
  intro q h1 _ h
  have hq : q ≠ [] := by
    rintro rfl
    exact absurd (List.prefix_nil.1 h1) (by decide)
  unfold FS.get at h
  rw [if_neg hq] at h
  cases h

def fsNest1 : FS := after conf (envNest 0 (nest 1 "a")) fs0
def fsNest2 : FS := after conf (envNest 1 (nest 2 "b")) fsNest1
def fsNest3 : FS := after conf (envNest 20 (nest 3 "c")) fsNest2

def dirA : Path := conf.rrdpDir ++ ["a".toList]

/-- The file is gone, its directory is still there. -/
def fsNestCut : FS :=
  ((process 5 conf (envNest 20 (nest 3 "c")) (World.start fsNest2)).2.crashPoints.find?
    (fun f => f.get (dirA ++ ["s".toList]) == none && f.get dirA == some .dir)).getD fs0

def fsNestEnd : FS := after conf (envNest 20 (nest 3 "c")) fsNestCut

theorem tended1 : Tended conf base name (fun _ => False) fsNest1 :=
  .done (depth := 5) (env := envNest 0 (nest 1 "a")) (.start unused0 noEmpty0)
    (nest_sound (by decide) rfl) (fun _ => rfl) (Prod.ext (by decide +kernel) rfl)

theorem tended2 : Tended conf base name (fun _ => False) fsNest2 :=
  .done (depth := 5) (env := envNest 1 (nest 2 "b")) tended1 (nest_sound (by decide) rfl)
    (fun _ => rfl) (Prod.ext (by decide +kernel) rfl)

theorem tended3 : Tended conf base name (fun _ => False) fsNest3 :=
  .done (depth := 5) (env := envNest 20 (nest 3 "c")) tended2 (nest_sound (by decide) rfl)
    (fun _ => rfl) (Prod.ext (by decide +kernel) rfl)

theorem nestCut_mem :
    fsNestCut ∈ (process 5 conf (envNest 20 (nest 3 "c")) (World.start fsNest2)).2.crashPoints := by
  decide +kernel

theorem recorded_all {c : Config} {f : FS} {s : RrdpState} {g : RrdpState → Bool}
    (hs : Recorded c f s)
    (h : ((f.read c.rrdpStatePath).bind Ext.decState).map g = some true) : g s = true := by
  obtain ⟨b, h1, h2⟩ := hs
  rw [h1, Option.bind_some, h2] at h
  simpa using h

end Demo

/-- After three updates the directory of the first snapshot is gone, and the other two are not empty. -/
example := C64_no_empty_dirs_partial conf base name _ fsNest3 layout (fun _ => cleanObjects _) tended3

example : fsNest2.get dirA = some .dir ∧ fsNest3.get dirA = none ∧
    fsNest3.get (conf.rrdpDir ++ ["b".toList]) = some .dir := by decide +kernel

/-- With a run that is cut off. -/
example := C64_no_empty_dirs_partial conf base name _ fsNestCut layout (fun _ => cleanObjects _)
  (.cut tended2 (nest_sound (by decide) rfl) nestCut_mem)

/-- **C64, refuted.** In general directories are left empty for good.  A run is cut off when it has
removed an old file, but not yet the directory of that file.  The next run ends well, without any
failure.  It finds that the file does not exist any more, takes it off the list and leaves the
directory. -/
theorem C64_refuted_after_crash : ∃ (f0 f1 : FS) (env : Env) (w : World),
    Tended conf base name (fun _ => False) f0 ∧ SoundSource conf base name env f0 ∧
    f1 ∈ (process 5 conf env (World.start f0)).2.crashPoints ∧
    SoundSource conf base name env f1 ∧ NoFaults env ∧
    process 5 conf env (World.start f1) = (.ok (), w) ∧
    (∀ s, Recorded conf w.cur s → s.deprecated.all (fun d => ! dirA.isPrefixOf d.path) = true) ∧
    ¬ NoEmptyDirs conf.rrdpDir (fun _ => False) w.cur := by
  refine ⟨fsNest2, fsNestCut, envNest 20 (nest 3 "c"), _, tended2,
    nest_sound (by decide) rfl, nestCut_mem, nest_sound (by decide) rfl,
    fun _ => rfl, Prod.ext (by decide +kernel) rfl, fun s hs => ?_, fun h => ?_⟩
  · have hx : (((process 5 conf (envNest 20 (nest 3 "c")) (World.start fsNestCut)).2.cur.read
        conf.rrdpStatePath).bind Ext.decState).map (fun s =>
        s.deprecated.all (fun d => ! dirA.isPrefixOf d.path)) = some true := by decide +kernel
    exact recorded_all hs hx
  · rcases h dirA (List.prefix_append _ _) (by decide) (by decide +kernel) with ⟨n, h⟩ | h
    · have hc : fsNestEnd.hasChild dirA = false := by decide +kernel
      have : fsNestEnd.hasChild dirA = true :=
        (FS.hasChild_iff _ _).2 ⟨dirA ++ [n], List.prefix_append _ _, by simp, h⟩
      rw [hc] at this
      cases this
    · exact h

end

end KSync
