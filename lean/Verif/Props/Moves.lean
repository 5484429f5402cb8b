import Verif.Lemmas.Lossless
import Verif.Props.Files

/-!
# Moving files into the public directories (property C56)
-/

set_option linter.unusedVariables false

namespace KSync

/-- **C56.** Whatever fails while a file is moved, and wherever the process is stopped, the whole
file is at the place it comes from or at the place it goes to, and no other file or link has
changed.  In particular the original is not removed before a complete copy exists. -/
theorem C56_move_never_loses [Ext] (a b : Path) (rel : Str) (x : Bytes) (env : Env) (fs : FS)
    (hx : fs.file? (joinPath a rel) = some x)
    (hpre : ¬ joinPath a rel <+: joinPath b rel) :
    ∀ f ∈ (moveFile a b rel env (World.start fs)).2.crashPoints,
      (f.file? (joinPath a rel) = some x ∨
        (f.get (joinPath a rel) = none ∧ f.file? (joinPath b rel) = some x)) ∧
      ∀ q, q ≠ joinPath a rel → q ≠ joinPath b rel → f.leaf q = fs.leaf q := by
  have hne : joinPath a rel ≠ joinPath b rel := by
    intro h; exact hpre (h ▸ List.prefix_refl _)
  intro f hf
  have := (moveFile_lossless (env := env) (w := World.start fs) hx hne hpre).start
    ⟨fun _ _ _ => rfl, fun _ _ _ => rfl, Or.inl hx⟩ f hf
  exact ⟨this.ends, this.others⟩

/-- **C56, at the end.** A move that reports success has moved the file. -/
theorem C56_move_moves [Ext] (a b : Path) (rel : Str) (x : Bytes) (env : Env) (fs : FS)
    (hx : fs.file? (joinPath a rel) = some x)
    (hpre : ¬ joinPath a rel <+: joinPath b rel)
    (h : (moveFile a b rel env (World.start fs)).1 = .ok ()) :
    (moveFile a b rel env (World.start fs)).2.cur.file? (joinPath b rel) = some x ∧
    (moveFile a b rel env (World.start fs)).2.cur.get (joinPath a rel) = none := by
  have hne : joinPath a rel ≠ joinPath b rel := by
    intro h; exact hpre (h ▸ List.prefix_refl _)
  exact (moveFile_run (w := World.start fs) hx hne hpre).2.2.2 h

/-- **C56, for an update.** While the files of an update are moved from the staging directory to
the RRDP directory each of them is, at every instant and whatever fails, whole in one of the two. -/
theorem C56_staged_files_survive [Ext] (c : Config) (st : StagedChanges) (env : Env) (fs : FS)
    (hap : Apart c.rrdpDir c.stagingDir) (files : List (Str × Hash))
    (hfiles : files = (st.snapshot.relPath, st.snapshot.hash) ::
      st.deltas.map (fun d => (d.relPath, d.hash)))
    (hc : ∀ r ∈ files, CleanRel r.1)
    (hst : ∀ r ∈ files, FileHas fs (c.stagingDir ++ comps r.1) r.2) :
    (∀ f ∈ (moveStaged c st env (World.start fs)).2.crashPoints, ∀ r ∈ files,
      FileHas f (c.stagingDir ++ comps r.1) r.2 ∨ FileHas f (c.rrdpDir ++ comps r.1) r.2) ∧
    ((moveStaged c st env (World.start fs)).1 = .ok () → ∀ r ∈ files,
      FileHas (moveStaged c st env (World.start fs)).2.cur (c.rrdpDir ++ comps r.1) r.2) := by
  subst hfiles
  refine ⟨fun f hf r hr => ?_, fun h r hr => ?_⟩
  · have := (moveStaged_lossless (c := c) (st := st) hap hc env (World.start fs)).start
      (fun r hr => Or.inl (hst r hr)) f hf r hr
    exact this.imp_right (·.2)
  · obtain ⟨_, _, h3⟩ := moves_ok (refs := st.refs) (l := st.refs) hap hc (env := env)
      (w := World.start fs) (w' := (moveStaged c st env (World.start fs)).2) (fun _ h => h)
      (fun r hr => Or.inl (hst r hr))
      (by rw [StagedChanges.refs_rels, ← moveStaged_eq]; exact Prod.ext h rfl)
    exact h3 r hr

/-! ## The hypotheses can be met -/

section
open Demo
set_option maxRecDepth 100000

/-- The first operation, the renaming, fails and so does the removal of the original. -/
def Demo.envMove : Env := { envAt 0 notif1 with fault := fun k => k == 0 || k == 4 }

/-- A file with something at its target. -/
def Demo.fsMove : FS := ⟨[(["d".toList], .dir), (["d".toList, "f".toList], .file [1, 2, 3] 0),
  (["d".toList, "g".toList], .file [2] 0), (["e".toList], .dir),
  (["e".toList, "f".toList], .file [9] 0)]⟩

example : ∀ f ∈ (moveFile ["d".toList] ["e".toList] "f".toList envMove
      (World.start fsMove)).2.crashPoints,
    f.file? ["d".toList, "f".toList] = some [1, 2, 3] ∨
      f.file? ["e".toList, "f".toList] = some [1, 2, 3] := fun f hf =>
  (C56_move_never_loses ["d".toList] ["e".toList] "f".toList [1, 2, 3] envMove fsMove
    (by decide +kernel) (by decide +kernel) f hf).1.imp_right (·.2)

/-- The copy is made step by step, and the target is incomplete for a while. -/
example : some [1, 2] ∈ (moveFile ["d".toList] ["e".toList] "f".toList envMove
    (World.start fsMove)).2.crashPoints.map (·.file? ["e".toList, "f".toList]) := by decide +kernel

/-- The removal fails: the file is at both places, and a failure is reported. -/
example : (moveFile ["d".toList] ["e".toList] "f".toList envMove (World.start fsMove)).1 =
      .error .io ∧
    (moveFile ["d".toList] ["e".toList] "f".toList envMove (World.start fsMove)).2.cur.file?
      ["d".toList, "f".toList] = some [1, 2, 3] := by decide +kernel

example : (moveFile ["d".toList] ["e".toList] "f".toList (envAt 0 notif1)
      (World.start fsMove)).2.cur.file? ["e".toList, "f".toList] = some [1, 2, 3] :=
  (C56_move_moves ["d".toList] ["e".toList] "f".toList [1, 2, 3] (envAt 0 notif1) fsMove
    (by decide +kernel) (by decide +kernel) (by decide +kernel)).1

/-- A staged snapshot and a staged delta. -/
def Demo.stMove : StagedChanges :=
  ⟨none, ⟨1, 2, snap 2, "s2".toList, 0⟩, [⟨0, 2, [2], "x/d2".toList⟩], 2, false⟩

def Demo.fsStaged : FS := ⟨[(["s".toList], .dir), (conf.stagingDir, .dir),
  (conf.stagingDir ++ ["s2".toList], .file (snap 2) 0), (conf.stagingDir ++ ["x".toList], .dir),
  (conf.stagingDir ++ ["x".toList, "d2".toList], .file [2] 0)]⟩

theorem Demo.stMove_clean : ∀ r ∈ [("s2".toList, snap 2), ("x/d2".toList, ([2] : Bytes))],
    CleanRel r.1 := by
  intro r hr
  have : r = ("s2".toList, snap 2) ∨ r = ("x/d2".toList, ([2] : Bytes)) := by simpa using hr
  rcases this with rfl | rfl
  · exact (goodRel_of_check (name := "n".toList) (by decide)).clean
  · exact (goodRel_of_check (name := "n".toList) (by decide)).clean

/-- Every operation from the fourth on fails. -/
def Demo.envMove2 : Env := { envAt 0 notif1 with fault := fun k => decide (3 ≤ k) }

theorem Demo.stMove_staged : ∀ r ∈ [("s2".toList, snap 2), ("x/d2".toList, ([2] : Bytes))],
    FileHas fsStaged (conf.stagingDir ++ comps r.1) r.2 := by
  intro r hr
  have : r = ("s2".toList, snap 2) ∨ r = ("x/d2".toList, ([2] : Bytes)) := by simpa using hr
  rcases this with rfl | rfl
  · exact ⟨snap 2, by decide +kernel, by decide +kernel⟩
  · exact ⟨[2], by decide +kernel, by decide +kernel⟩

example : ∀ f ∈ (moveStaged conf stMove envMove2 (World.start fsStaged)).2.crashPoints,
    FileHas f (conf.stagingDir ++ ["x".toList, "d2".toList]) ([2] : Bytes) ∨
      FileHas f (conf.rrdpDir ++ ["x".toList, "d2".toList]) ([2] : Bytes) := fun f hf =>
  (C56_staged_files_survive conf stMove envMove2 fsStaged (by unfold Apart; decide) _ rfl stMove_clean
    stMove_staged).1 f hf ("x/d2".toList, ([2] : Bytes)) (by simp [stMove])

example : FileHas (moveStaged conf stMove (envAt 0 notif1) (World.start fsStaged)).2.cur
    (conf.rrdpDir ++ ["s2".toList]) (snap 2) :=
  (C56_staged_files_survive conf stMove (envAt 0 notif1) fsStaged (by unfold Apart; decide) _ rfl stMove_clean
    stMove_staged).2 (by decide +kernel) ("s2".toList, snap 2) (by simp [stMove])

end

end KSync
