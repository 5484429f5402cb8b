import Verif.Spec.Restart
import Verif.Lemmas.RsyncRun
import Verif.Lemmas.RsyncWhole
import Verif.Lemmas.StateHistory
import Verif.Lemmas.Lock

/-! # Move mode with a directory in the way -/

set_option linter.unusedSectionVars false
set_option linter.unusedVariables false

namespace KSync

variable [Ext] {env : Env} {w w' : World} {c : Config} {base name : Str}

theorem RsyncRecorded.noLink {fs : FS} {st : RsyncDirState} (h : RsyncRecorded c fs st) :
    fs.link? c.rsyncStatePath = none := by
  rcases h with ⟨b, h, _⟩ | ⟨h, _⟩
  · unfold FS.file? at h
    unfold FS.link?
    split at h
    · rename_i heq
      rw [heq]
    · cases h
  · unfold FS.leaf at h
    unfold FS.link?
    match hg : fs.get c.rsyncStatePath with
    | none => rfl
    | some .dir => rfl
    | some (.file b t) => rfl
    | some (.link t) => rw [hg] at h; cases h

/-- Nothing can be renamed to a directory that is not empty. -/
theorem rename_full {src dst : Path} (hw : w.cur.WF)
    (h : ∃ q, q ≠ [] ∧ w.cur.leaf (dst ++ q) ≠ none) :
    ∃ e, rename src dst env w = (.error e, { w with tick := w.tick + 1 }) := by
  obtain ⟨q, hq, hlq⟩ := h
  have hne : w.cur.get (dst ++ q) ≠ none := by
    intro h
    unfold FS.leaf at hlq
    rw [h] at hlq
    exact hlq rfl
  have hne' : dst ++ q ≠ dst := fun h => hq (by simpa using h)
  have hd : w.cur.get dst = some .dir := hw.above (List.prefix_append _ q) (fun h => hne' h.symm) hne
  have h := rename_end src dst env w
  generalize rename src dst env w = r at h
  cases h with
  | failed e => exact ⟨e, rfl⟩
  | noop h1 _ h2 => rw [h1] at h2; exact absurd hd h2
  | movedDir _ _ _ _ _ _ h7 =>
    rcases h7 with h7 | ⟨_, h7⟩
    · rw [hd] at h7; cases h7
    · exact absurd ((FS.hasChild_false_iff _ _).1 h7 _ (List.prefix_append _ q) hne') hne
  | movedFile n _ _ _ _ _ h6 _ => exact absurd hd h6

theorem updateRsync_stuck {s : RrdpState} {x : SnapshotState} {st : RsyncDirState}
    (hm : c.rsyncUseSymlinks = false) (ho : CleanObjects c.rsyncIncludeHost) (hw : w.cur.WF)
    (hs : s.snapshot = some x) (h : Stuck c st w.cur) (hne : st.current ≠ some x.rev) :
    (updateRsync s c env w).1 ≠ .ok () ∧
      Within (Eff.only (x.rev.path c <+: ·)) w (updateRsync s c env w).2 := by
  have key : ∀ st' w1 w2, RsyncDirState.recover c env w = (.ok st', w1) →
      makeRevision x.rev c (s.mappings.path x.relPath) env w1 = (.ok (), w2) →
      ∃ e, switchTo x.rev st' c env w2 = (.error e, { w2 with tick := w2.tick + 1 }) := by
    intro st' w1 w2 e1 e2
    obtain ⟨s1, h2⟩ := recover_ok h.recorded.noLink e1
    have hst := h2.unique h.recorded
    subst hst
    have k := makeRevision_in (rev := x.rev) (c := c) (src := s.mappings.path x.relPath) ho env w1
    rw [e2] at k
    have hw1 : w1.cur.WF := by rw [s1.cur]; exact hw
    have hw2 := k.wf hw1
    have hfr : ∀ q, ¬ x.rev.path c <+: q → w2.cur.leaf q = w.cur.leaf q := by
      intro q hq
      rw [← s1.cur]
      exact k.frame hw1 q hq
    unfold switchTo renameCurrent
    rw [if_neg (by rw [hm]; simp)]
    have hcur : (∃ q, q ≠ [] ∧ w2.cur.leaf (c.rsyncCurrent ++ q) ≠ none) ∨
        ∃ old, st'.current = some old ∧ w2.cur.link? c.rsyncCurrent = some old.dirName := by
      rcases h.current with ⟨q, hq, hlq⟩ | ⟨old, h1, h2⟩
      · exact Or.inl ⟨q, hq, by
          rw [hfr _ (fun h => rev_not_current h (List.prefix_append _ _))]
          exact hlq⟩
      · exact Or.inr ⟨old, h1, by
          rw [FS.link?_of_leaf (hfr _ (fun h => rev_not_current h (List.prefix_refl _)))]
          exact h2⟩
    rw [getFs_bind]
    cases hc : st'.current with
    | none =>
      rcases hcur with hcur | ⟨old, h1, _⟩
      · exact rename_full hw2 hcur
      · rw [hc] at h1; cases h1
    | some old =>
      have haway : ∃ q, q ≠ [] ∧ w2.cur.leaf (old.path c ++ q) ≠ none := by
        obtain ⟨q, hq, hlq⟩ := h.away old hc
        exact ⟨q, hq, by
          rw [hfr _ (fun h => hne (by rw [hc, rev_apart h (List.prefix_append _ q)]))]
          exact hlq⟩
      have isDir : ∀ {p : Path}, (∃ q, q ≠ [] ∧ w2.cur.leaf (p ++ q) ≠ none) → w2.cur.get p = some .dir := by
        rintro p ⟨q, hq, hlq⟩
        refine hw2.above (List.prefix_append _ q) (fun h => hq (by simpa using h.symm)) (fun h => ?_)
        unfold FS.leaf at hlq
        rw [h] at hlq
        exact hlq rfl
      have hex : w2.cur.exists? c.rsyncCurrent = true := by
        unfold FS.exists? FS.resolve
        rcases hcur with hcur | ⟨old', h1, h2⟩
        · rw [isDir hcur]
          rfl
        · rw [hc] at h1
          cases h1
          have h3 : w2.cur.get c.rsyncCurrent = some (.link old.dirName) := by
            unfold FS.link? at h2
            split at h2
            · rename_i heq
              rw [heq, Option.some.inj h2]
            · cases h2
          rw [h3]
          have h4 : c.rsyncCurrent.dropLast ++ [old.dirName] = old.path c := by
            unfold Config.rsyncCurrent RsyncRevision.path
            rw [List.dropLast_concat]
          show (w2.cur.get (c.rsyncCurrent.dropLast ++ [old.dirName])).isSome = true
          rw [h4, isDir haway]
          rfl
      dsimp only
      rw [if_pos hex]
      obtain ⟨e, he⟩ := rename_full (src := c.rsyncCurrent) (dst := old.path c) (env := env) hw2 haway
      exact ⟨e, by rw [M.bind_of_error he]⟩
  constructor
  · intro hok
    obtain ⟨w1, w2, w3, w4, w5, st0, st1, st2, hd⟩ := updateRsync_ok (w' := (updateRsync s c env w).2) hs
      (by rw [← hok])
    obtain ⟨e, he⟩ := key _ _ _ hd.recovered hd.made
    rw [hd.switched] at he
    cases he
  · refine updateRsync_tr (T := Within (Eff.only (x.rev.path c <+: ·))) hs (rsyncRecover_in c env w) ?_ ?_ ?_ ?_ ?_
    · exact fun st' w1 _ => makeRevision_in ho env w1
    · intro st' w1 w2 e1 e2
      obtain ⟨e, he⟩ := key _ _ _ e1 e2
      rw [he]
      exact ⟨Same.steps ⟨rfl, rfl⟩,
        ⟨.refl _, .refl _, .refl _, Nat.le_succ _, .refl _⟩, Same.steps ⟨rfl, rfl⟩⟩
    · intro st' w1 w2 w3 e1 e2 e3
      obtain ⟨e, he⟩ := key _ _ _ e1 e2
      rw [he] at e3; cases e3
    · intro st' w1 w2 w3 _ _ e1 e2 e3
      obtain ⟨e, he⟩ := key _ _ _ e1 e2
      rw [he] at e3; cases e3
    · intro st' w1 w2 w3 _ _ _ _ e1 e2 e3
      obtain ⟨e, he⟩ := key _ _ _ e1 e2
      rw [he] at e3; cases e3

/-- The places that do not change. -/
def StuckPath (c : Config) (name : Str) (st : RsyncDirState) (q : Path) : Prop :=
  q = c.notifPath name ∨ q = c.rrdpStatePath ∨ q = c.rsyncStatePath ∨ c.rsyncCurrent <+: q ∨
    ∃ old, st.current = some old ∧ old.path c <+: q

/-- What is at the places `K` is what was there. -/
def Frozen (K : Path → Prop) (f0 f : FS) : Prop :=
  f.WF ∧ ∀ q, K q → f.leaf q = f0.leaf q

theorem Frozen.change {K S : Path → Prop} {f0 f f' : FS} (h : Frozen K f0 f)
    (hc : Change S f f') (hS : ∀ q, K q → ¬ S q) : Frozen K f0 f' :=
  ⟨(hc h.1).1, fun q hq => ((hc h.1).2 q (hS q hq)).trans (h.2 q hq)⟩

abbrev Halted (c : Config) (name : Str) (st : RsyncDirState) (f0 f : FS) : Prop :=
  Frozen (StuckPath c name st) f0 f

theorem Stuck.of_leaf {st : RsyncDirState} {f0 f : FS} (hs : Stuck c st f0)
    (hl : f.leaf c.rsyncStatePath = f0.leaf c.rsyncStatePath)
    (hr : ∀ q, c.rsyncDir <+: q → f.leaf q = f0.leaf q ∨ (¬ c.rsyncCurrent <+: q ∧
      ∀ old, st.current = some old → ¬ old.path c <+: q)) : Stuck c st f := by
  refine ⟨?_, ?_, fun old ho => ?_⟩
  · rcases hs.recorded with ⟨b, h1, h2⟩ | ⟨h1, h2⟩
    · exact Or.inl ⟨b, by rw [FS.file?_of_leaf hl]; exact h1, h2⟩
    · exact Or.inr ⟨hl.trans h1, h2⟩
  · rcases hs.current with ⟨q, hq, hlq⟩ | ⟨old, h1, h2⟩
    · have hp : c.rsyncCurrent <+: c.rsyncCurrent ++ q := List.prefix_append _ _
      rcases hr _ ((List.prefix_append _ _).trans hp) with h | h
      · exact Or.inl ⟨q, hq, by rw [h]; exact hlq⟩
      · exact (h.1 hp).elim
    · rcases hr c.rsyncCurrent (List.prefix_append _ _) with h | h
      · exact Or.inr ⟨old, h1, by rw [FS.link?_of_leaf h]; exact h2⟩
      · exact (h.1 (List.prefix_refl _)).elim
  · obtain ⟨q, hq, hlq⟩ := hs.away old ho
    have hp : old.path c <+: old.path c ++ q := List.prefix_append _ _
    rcases hr _ ((List.prefix_append _ _).trans hp) with h | h
    · exact ⟨q, hq, by rw [h]; exact hlq⟩
    · exact (h.2 old ho hp).elim

theorem Halted.stuck {st : RsyncDirState} {f0 f : FS} (h : Halted c name st f0 f) (hs : Stuck c st f0) :
    Stuck c st f := by
  refine hs.of_leaf (h.2 c.rsyncStatePath (Or.inr (Or.inr (Or.inl rfl)))) (fun q _ => ?_)
  by_cases hq : StuckPath c name st q
  · exact Or.inl (h.2 q hq)
  · exact Or.inr ⟨fun h => hq (Or.inr (Or.inr (Or.inr (Or.inl h)))),
      fun old ho h => hq (Or.inr (Or.inr (Or.inr (Or.inr ⟨old, ho, h⟩))))⟩

theorem stuckPath_not_staging {st : RsyncDirState} (hl : Layout c base name) {q : Path}
    (h : StuckPath c name st q) : ¬ c.stagingDir <+: q := by
  intro hq
  rcases h with rfl | rfl | rfl | h | ⟨old, _, h⟩
  · exact hl.rrdpStaging.not_both (List.prefix_append _ _) hq
  · unfold Config.stagingDir Config.rrdpStatePath at hq
    rw [List.prefix_append_right_inj] at hq
    exact absurd hq (by decide)
  · unfold Config.stagingDir Config.rsyncStatePath at hq
    rw [List.prefix_append_right_inj] at hq
    exact absurd hq (by decide)
  · exact hl.rsyncStaging.not_both ((List.prefix_append _ _).trans h) hq
  · exact hl.rsyncStaging.not_both ((List.prefix_append _ _).trans h) hq

theorem stuckPath_not_data {st : RsyncDirState} (hl : Layout c base name) {q : Path}
    (h : StuckPath c name st q) : ¬ DataPath c name q := by
  intro hd
  have hq := hd.below
  rcases h with rfl | rfl | rfl | h | ⟨old, _, h⟩
  · obtain ⟨a, cs, h1, _, h2⟩ := hd
    unfold Config.notifPath at h2
    have := List.append_cancel_left h2
    injection this with this
    exact h1 this.symm
  · exact hl.rrdpState.1 hq
  · exact hl.rrdpRsyncState.1 hq
  · exact hl.rrdpRsync.not_both hq ((List.prefix_append _ _).trans h)
  · exact hl.rrdpRsync.not_both hq ((List.prefix_append _ _).trans h)

theorem stuckPath_not_rev {st : RsyncDirState} {rev : RsyncRevision} (hl : Layout c base name) {q : Path}
    (hne : st.current ≠ some rev) (h : StuckPath c name st q) : ¬ rev.path c <+: q := by
  intro hr
  have hq : c.rsyncDir <+: q := (List.prefix_append _ _).trans hr
  rcases h with rfl | rfl | rfl | h | ⟨old, ho, h⟩
  · exact hl.rrdpRsync.not_both (List.prefix_append _ _) hq
  · exact hl.rsyncState.1 hq
  · exact hl.rsyncRsyncState.1 hq
  · exact rev_not_current hr h
  · exact hne (by rw [ho, rev_apart hr h])

/-- A run in which the rsync part cannot be completed. -/
theorem run_blocked {depth : Nat} {K : Path → Prop} {f0 f1 : FS} (hl : Layout c base name)
    (hc : RunConds c base name env f1) (h0 : Frozen K f0 f1)
    (k1 : ∀ q, K q → ¬ c.stagingDir <+: q) (k2 : ∀ q, K q → ¬ DataPath c name q)
    (part : ∀ {s st' w n}, AtPublish depth c base name env (World.start f1) s st' w n →
      ∀ w1 s1 w2 s2 w3, moveStaged c st' env w = (.ok (), w1) →
      s.absorb st' env w1 = (.ok s1, w2) → s1.clean c env w2 = (.ok s2, w3) →
      (rsyncPart c s2 env w3).1 ≠ .ok () ∧ ∃ R : Path → Prop, (∀ q, K q → ¬ R q) ∧
        Within (Eff.only R) w3 (rsyncPart c s2 env w3).2) :
    Keeps (Frozen K f0) (World.start f1) (process depth c env (World.start f1)).2 ∧
    ((process depth c env (World.start f1)).1 = .ok () →
      (process depth c env (World.start f1)).2.crashPoints = [f1]) := by
  refine ⟨?_, fun hok => ?_⟩
  · rcases run_cases (depth := depth) (w := World.start f1) hc with ⟨h1, _⟩ | ⟨s, st', w, n, h1, h2⟩
    · exact Keeps.of_within h1 (fun f f' hf hch => hf.change hch k1)
    · have hpre : Keeps (Frozen K f0) (World.start f1) w :=
        Keeps.of_within h1.within (fun f f' hf hch => hf.change hch k1)
      refine Tr.trans hpre ?_
      rw [h2]
      have happ : ∀ {u u' : World}, Within (applyEff c name) u u' → Keeps (Frozen K f0) u u' :=
        fun h => Keeps.of_within h (fun f f' hf hch => hf.change hch (fun q hq hq' =>
          hq'.elim (k1 q hq) (k2 q hq)))
      refine publish_by (T := Keeps (Frozen K f0)) (h1.pubPre hc) h1.wf ?_ ?_ ?_ ?_ ?_ ?_
      · exact happ
      · exact fun w1 _ _ hn => Keeps.of_within hn (fun f f' hf hch => hf.change hch (fun q hq hq' => hq'))
      · exact fun w1 s1 w2 e1 e2 a1 a2 a3 => happ a3
      · intro w1 s1 w2 s2 w3 e1 e2 e3 _ _ _
        obtain ⟨R, hR, hin⟩ := (part h1 w1 s1 w2 s2 w3 e1 e2 e3).2
        exact Keeps.of_within hin (fun f f' hf hch => hf.change hch hR)
      · intro w1 s1 w2 s2 w3 w4 e1 e2 e3 e4
        exact ((part h1 w1 s1 w2 s2 w3 e1 e2 e3).1 (by rw [e4])).elim
      · intro w1 s1 w2 s2 w3 w4 w5 e1 e2 e3 e4
        exact ((part h1 w1 s1 w2 s2 w3 e1 e2 e3).1 (by rw [e4])).elim
  · rcases run_ok (w := World.start f1) (w' := (process depth c env (World.start f1)).2) hc (by rw [← hok])
      with ⟨h1, _⟩ | ⟨s, st', w1, n, h1, h2⟩
    · unfold World.crashPoints
      rw [h1.1, h1.2]
      rfl
    · obtain ⟨v1, s1, v2, s2, v3, v4, v5, e1, e2, e3, e4, _⟩ := publish_ok h2
      exact ((part h1 v1 s1 v2 s2 v3 e1 e2 e3).1 (by rw [e4])).elim

/-- One run. -/
theorem run_halted {depth : Nat} {st : RsyncDirState} {f0 f1 : FS} (hl : Layout c base name)
    (ho : CleanObjects c.rsyncIncludeHost) (he : c.rsyncEnabled = true) (hm : c.rsyncUseSymlinks = false)
    (hs : Stuck c st f0) (h0 : Halted c name st f0 f1) (hsane : SaneState c base name f1)
    (hr : OtherRevisions c base name st env f1) :
    Keeps (Halted c name st f0) (World.start f1) (process depth c env (World.start f1)).2 ∧
    ((process depth c env (World.start f1)).1 = .ok () →
      (process depth c env (World.start f1)).2.crashPoints = [f1]) := by
  have hc : RunConds c base name env f1 := ⟨hl.uri, h0.1, hsane, hr.1, fun _ => ho⟩
  refine run_blocked hl hc h0 (fun q hq => stuckPath_not_staging hl hq)
    (fun q hq => stuckPath_not_data hl hq) ?_
  intro s st' w n h w1 s1 w2 s2 w3 e1 e2 e3
  have rev : st.current ≠ some st'.snapshot.rev := by
    obtain ⟨etag, n0, h1, h2⟩ := h.offered
    have := hr.2 etag n0 h1
    unfold Notif.rev at this
    unfold SnapshotState.rev
    rw [h.staged.snapSession, h.staged.snapSerial, h2.session, h2.serial]
    exact this
  have hrd := rsyncReady hl hc h e1 e2 e3
  have hh : Stuck c st w3.cur := by
    refine (h0.stuck hs).of_leaf (hrd.leaf _ (stuckPath_not_staging (st := st) hl (Or.inr (Or.inr (Or.inl rfl))))
      hl.rrdpRsyncState.1) (fun q hq => Or.inl (hrd.leaf q ?_ ?_))
    · exact fun h => hl.rsyncStaging.not_both hq h
    · exact fun h => hl.rrdpRsync.not_both h hq
  unfold rsyncPart
  rw [if_pos he]
  have := updateRsync_stuck (env := env) hm ho hrd.wf hrd.snapshot hh rev
  exact ⟨this.1, _, fun q hq => stuckPath_not_rev hl rev hq, this.2⟩

/-- Any number of runs. -/
theorem history_halted {st : RsyncDirState} {f0 f : FS} (hl : Layout c base name)
    (ho : CleanObjects c.rsyncIncludeHost) (he : c.rsyncEnabled = true) (hm : c.rsyncUseSymlinks = false)
    (hw : f0.WF) (hn : f0.link? c.rrdpStatePath = none) (hsane : SaneState c base name f0)
    (hs : Stuck c st f0) {i : Unit}
    (h : History (ι := Unit) c (fun _ g => g = f0)
      (fun _ _ _ env fs => OtherRevisions c base name st env fs) i f) :
    Halted c name st f0 f ∧ SaneState c base name f := by
  have sane : ∀ {g}, Halted c name st f0 g → SaneState c base name g := fun hg s hr =>
    hsane s ((Recorded.of_leaf hn (hg.2 _ (Or.inr (Or.inl rfl)))).1 hr)
  induction h with
  | start h => subst h; exact ⟨⟨hw, fun _ _ => rfl⟩, hsane⟩
  | run _ hok hf ih =>
    have := (run_halted hl ho he hm hs ih.1 ih.2 hok).1.start ih.1 _ hf
    exact ⟨this, sane this⟩

end KSync
