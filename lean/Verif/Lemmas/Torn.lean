import Verif.Lemmas.RsyncWhole

/-! # State files that were written only in part -/

set_option linter.unusedSectionVars false
set_option linter.unusedVariables false

namespace KSync

variable [Ext] {env : Env} {w w' : World}

theorem file_of_leaf {fs : FS} {p : Path} {b : Bytes} {t : Time}
    (h : fs.leaf p = some (.file b t)) : fs.get p = some (.file b t) := by
  unfold FS.leaf at h
  split at h
  · cases h
  · exact h

theorem loadState_torn {c : Config} {fs : FS} {b : Bytes} {t : Time}
    (h : fs.leaf c.rrdpStatePath = some (.file b t)) (hd : Ext.decState b = none) (env : Env) :
    ∃ e tick, loadState c env (World.start fs) = (.error e, { World.start fs with tick := tick }) := by
  have hr : fs.read c.rrdpStatePath = some b := by
    unfold FS.read FS.resolve
    rw [file_of_leaf h]
  have hx : (World.start fs).cur.exists? c.rrdpStatePath = true := exists_of_read hr
  unfold loadState
  rw [getFs_bind, if_pos hx]
  unfold RrdpState.recover
  by_cases hf : env.fault (World.start fs).tick = true
  · unfold readFile
    rw [M.bind_assoc, io_bind, if_pos hf]
    exact ⟨_, _, rfl⟩
  · have := readFile_run_ok (env := env) (w := World.start fs) (p := c.rrdpStatePath) hr
      (by simpa using hf)
    rw [M.bind_of_ok this, hd]
    exact ⟨_, _, rfl⟩

theorem recover_torn {c : Config} {w : World} {b : Bytes} {t : Time}
    (h : w.cur.leaf c.rsyncStatePath = some (.file b t)) (hd : Ext.decRsync b = none) (env : Env) :
    ∀ st w', RsyncDirState.recover c env w ≠ (.ok st, w') := by
  intro st w' hok
  have hr : w.cur.read c.rsyncStatePath = some b := by
    unfold FS.read FS.resolve
    rw [file_of_leaf h]
  have hx : w.cur.exists? c.rsyncStatePath = true := exists_of_read hr
  unfold RsyncDirState.recover at hok
  rw [getFs_bind, if_pos hx] at hok
  obtain ⟨b', w1, h1, h2⟩ := M.bind_ok.1 hok
  have h3 := (readFile_ok h1).1
  rw [hr] at h3
  cases h3
  rw [hd] at h2
  cases h2

theorem describes_of {c : Config} {base name : Str} {s s1 s2 : RrdpState}
    {st : StagedChanges} {w1 w2 w3 : World} (hu : NotifUri c base name) (hs : Sane c base name s)
    (e2 : s.absorb st env w1 = (.ok s1, w2)) (e3 : s1.clean c env w2 = (.ok s2, w3)) :
    Describes base s2 (newNotif s st) := by
  obtain ⟨_, _, kept, gone, new, hb⟩ := absorb_ok e2
  obtain ⟨l, rfl⟩ := clean_state e3
  refine ⟨⟨st.snapshot, hb.snapshot, rfl, rfl, rfl, hs.uriOf hu _⟩, ?_⟩
  unfold newNotif RrdpState.held
  dsimp only
  rw [hb.deltas, hb.kept_eq]
  exact List.map_congr_left (fun d _ => by rw [hs.uriOf hu])

theorem Describes.persisted {base : Str} {s : RrdpState} {n : Notif} (h : Describes base s n) :
    Describes base s.persisted n := ⟨h.snapshot, h.deltas⟩

end KSync
