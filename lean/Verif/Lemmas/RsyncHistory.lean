import Verif.Spec.RsyncHistory
import Verif.Lemmas.Objects
import Verif.Lemmas.LifetimeRun
import Verif.Lemmas.Steady
import Verif.Lemmas.Versions

/-! # The rsync directory over many runs -/

set_option linter.unusedSectionVars false
set_option linter.unusedSimpArgs false
set_option linter.unusedVariables false

namespace KSync

variable [Ext] {env : Env} {w w' : World}

/-! ## Files stay files -/

/-- What is a file remains one. -/
def FilesStay (f f' : FS) : Prop := ∀ q, (f.file? q).isSome → (f'.file? q).isSome

theorem FilesStay.trans {a b d : FS} (h : FilesStay a b) (h' : FilesStay b d) : FilesStay a d :=
  fun q hq => h' q (h q hq)

theorem FilesStay.of_leaf {f f' : FS} (h : ∀ q, f'.leaf q = f.leaf q) : FilesStay f f' :=
  fun q hq => by rw [FS.file?_of_leaf (h q)]; exact hq

theorem writeBuf_stay (p : Path) (b : Bytes) : Does FilesStay (writeBuf p b) := by
  intro env w
  refine (writeBuf_writing p b env w).mono ?_
  rintro f f' ⟨h1, h2⟩ q hq
  by_cases hp : q = p
  · subst hp
    rcases h2 with h2 | ⟨k, t, h2⟩
    · rw [FS.file?_of_leaf h2]; exact hq
    · unfold FS.file?
      rw [file_of_leaf h2]
      rfl
  · rw [FS.file?_of_leaf (h1 q hp)]; exact hq

theorem setMtime_stay (p : Path) (t : Time) : Does FilesStay (setMtime p t) := by
  unfold setMtime
  refine io_getFs_does (fun n env w => ?_)
  split
  · rename_i b t' h
    refine Steps.of_push (fun q hq => ?_)
    have hp : p ≠ [] := by rintro rfl; simp at h
    unfold FS.file?
    by_cases hpq : q = p
    · subst hpq
      rw [FS.get_set_self _ hp]
      rfl
    · rw [FS.get_set_ne _ _ hpq]
      exact hq
  · exact Steps.refl

theorem fixSince_stay (p : Path) (b : Bytes) : Does FilesStay (fixSince p b) := by
  unfold fixSince
  have h := setMtime_stay p
  split
  · exact Rel.pure _
  · rel_auto

theorem createOutPath_stay (out : Path) : Does FilesStay (createOutPath out) := by
  unfold createOutPath
  have h : Does FilesStay (createDirAll out) := fun env w =>
    (createDirAll_mkdirs out env w).mono (fun f f' h => FilesStay.of_leaf h.leaf)
  rel_auto

theorem makeRevision_stay {rev : RsyncRevision} {c : Config} {src : Path} :
    Does FilesStay (makeRevision rev c src) := by
  unfold makeRevision writeSnapshotTree
  have h1 := createOutPath_stay (rev.path c)
  have h2 : ∀ e, Does FilesStay (publishObject (rev.path c) c.rsyncIncludeHost e) := by
    intro e
    unfold publishObject
    have h1 := writeBuf_stay
    have h3 : ∀ p, Does FilesStay (createPathForFile p) := fun p env w =>
      (createPathForFile_mkdirs p env w).mono (fun f f' h => FilesStay.of_leaf h.leaf)
    have h2 := fixSince_stay
    rel_auto
  have h3 : ∀ els, Does FilesStay (M.forEach els (publishObject (rev.path c) c.rsyncIncludeHost)) :=
    fun els => Rel.forEach (fun e _ => h2 e)
  have h4 : Does FilesStay (readFile src) := (readFile_same src).quiet
  rel_auto


/-! ## The rsync part, perhaps for a revision that was published before -/

/-- While the revision is being made. -/
structure Making (c : Config) (rev : RsyncRevision) (f0 f : FS) : Prop where
  wf : f.WF
  state : f.leaf c.rsyncStatePath = f0.leaf c.rsyncStatePath
  current : f.leaf c.rsyncCurrent = f0.leaf c.rsyncCurrent
  other : ∀ r : RsyncRevision, r ≠ rev → ∀ q, r.path c <+: q → f.leaf q = f0.leaf q
  files : ∀ q, rev.path c <+: q → (f0.file? q).isSome → (f.file? q).isSome

/-- The states that may be written. -/
def Follows (rev : RsyncRevision) (st st2 : RsyncDirState) : Prop :=
  st2.current = some rev ∧ ∀ d ∈ st2.old, d ∈ st.old ∨ st.current = some d.revision

/-- From the switch on. -/
structure InPlace (env : Env) (c : Config) (rev : RsyncRevision) (els : List (RsyncUri × Bytes)) (f0 f : FS) : Prop where
  wf : f.WF
  current : f.link? c.rsyncCurrent = some rev.dirName
  objects : Whole env f (rev.path c) c.rsyncIncludeHost els
  state : f.leaf c.rsyncStatePath = f0.leaf c.rsyncStatePath ∨ ∃ st st2 k t, RsyncRecorded c f0 st ∧
    Follows rev st st2 ∧ f.leaf c.rsyncStatePath = some (.file ((Ext.encRsync st2).take k) t)

theorem Making.refl {c : Config} {rev : RsyncRevision} {f : FS} (h : f.WF) : Making c rev f f :=
  ⟨h, rfl, rfl, fun _ _ _ _ => rfl, fun _ _ h => h⟩

theorem updateRsync_retry {s : RrdpState} {c : Config} {x : SnapshotState}
    (hm : c.rsyncUseSymlinks = true) (ho : CleanObjects c.rsyncIncludeHost) (hw : w.cur.WF)
    (hl : w.cur.link? c.rsyncStatePath = none) (ha : Apart c.rsyncDir c.rsyncStatePath)
    (hs : s.snapshot = some x) (hb : w.cur.link? (s.mappings.path x.relPath) = none)
    (hbr : Brisk c env)
    (hd : ∀ st, RsyncRecorded c w.cur st → ∀ d ∈ st.old, d.revision = x.rev →
      ∀ k, env.clock k < d.since + c.cleanupAfter) :
    Keeps (fun f => Making c x.rev w.cur f ∨ ∃ els, MadeFrom (s.mappings.path x.relPath) els w.cur ∧
      InPlace env c x.rev els w.cur f) w (updateRsync s c env w).2 ∧
    ((updateRsync s c env w).1 = .ok () → ∃ els, MadeFrom (s.mappings.path x.relPath) els w.cur ∧
      InPlace env c x.rev els w.cur (updateRsync s c env w).2.cur) := by
  have curState : c.rsyncStatePath ≠ c.rsyncCurrent := fun h => ha.1 (h ▸ List.prefix_append _ _)
  have tmpState : c.rsyncStatePath ≠ c.rsyncTmp := fun h => ha.1 (h ▸ List.prefix_append _ _)
  have revState : ∀ {r : RsyncRevision} {q : Path}, r.path c <+: q → q ≠ c.rsyncStatePath :=
    fun h1 h2 => ha.1 ((List.prefix_append _ _).trans (h2 ▸ h1))
  have making : ∀ st w1, RsyncDirState.recover c env w = (.ok st, w1) →
      Keeps (Making c x.rev w.cur) w1 (makeRevision x.rev c (s.mappings.path x.relPath) env w1).2 := by
    intro st w1 e1
    have k1 := makeRevision_in (rev := x.rev) (c := c) (src := s.mappings.path x.relPath) ho env w1
    have k2 := makeRevision_stay (rev := x.rev) (c := c) (src := s.mappings.path x.relPath) env w1
    refine Keeps.of_steps (k1.steps.and k2) ?_
    rintro f f' h ⟨g1, g2⟩
    obtain ⟨g1, g3⟩ := g1 h.wf
    refine ⟨g1, ?_, ?_, fun r hr q hq => ?_, fun q hq hf => g2 q (h.files q hq hf)⟩
    · rw [g3 _ (fun h => revState h rfl)]; exact h.state
    · rw [g3 _ (fun h => rev_not_current h (List.prefix_refl _))]; exact h.current
    · rw [g3 q (fun h => hr (rev_apart hq h))]; exact h.other r hr q hq
  have made : ∀ st w1 w2, RsyncDirState.recover c env w = (.ok st, w1) →
      makeRevision x.rev c (s.mappings.path x.relPath) env w1 = (.ok (), w2) →
      RsyncRecorded c w.cur st ∧ Making c x.rev w.cur w2.cur ∧
      ∃ els, MadeFrom (s.mappings.path x.relPath) els w.cur ∧
        Whole env w2.cur (x.rev.path c) c.rsyncIncludeHost els := by
    intro st w1 w2 e1 e2
    obtain ⟨s1, hrec⟩ := recover_ok hl e1
    obtain ⟨b, g1, g2, g3, g4⟩ := makeRevision_has ho (by rw [s1.cur]; exact hw) (by rw [s1.cur]; exact hb) e2
    have k := (making st w1 e1 (by rw [s1.cur]; exact Making.refl hw)).1
    rw [e2] at k
    rw [s1.cur] at g1
    exact ⟨hrec, k, _, ⟨b, g1, g2, rfl⟩, g4⟩
  have switching : ∀ w2 els, 
      Keeps (fun f => (Making c x.rev w.cur f ∧
        Whole env f (x.rev.path c) c.rsyncIncludeHost els) ∨
        (InPlace env c x.rev els w.cur f ∧ f.leaf c.rsyncStatePath = w.cur.leaf c.rsyncStatePath))
        w2 (symlinkCurrent x.rev c env w2).2 := by
    intro w2 els
    have k1 := symlinkCurrent_steps (rev := x.rev) (c := c) env w2
    have k2 := symlinkCurrent_in (r := x.rev) (c := c) (E := Eff.only (fun _ => True))
      (fun _ _ => trivial) (fun _ _ => trivial) env w2
    refine Keeps.of_steps (k1.and k2.steps) ?_
    rintro f f' h ⟨⟨g1, g2⟩, g3⟩
    have hg : ∀ r : RsyncRevision, ∀ q, r.path c <+: q → f'.leaf q = f.leaf q := fun r q hq =>
      leaf_of_get (g1 q
      (fun h => rev_not_tmp hq (h ▸ List.prefix_refl _))
      (fun h => rev_not_current hq (h ▸ List.prefix_refl _)))
    have hst : f'.leaf c.rsyncStatePath = f.leaf c.rsyncStatePath := leaf_of_get (g1 _ tmpState curState)
    rcases h with ⟨a1, a3⟩ | ⟨a1, a2⟩
    · rcases g2 with g2 | ⟨_, g2⟩
      · refine Or.inl ⟨⟨(g3 a1.wf).1, hst.trans a1.state, (leaf_of_get g2).trans a1.current,
          fun r hr q hq => (hg r q hq).trans (a1.other r hr q hq), fun q hq hf => ?_⟩, a3.of_leaf (hg x.rev)⟩
        rw [FS.file?_of_leaf (hg _ q hq)]
        exact a1.files q hq hf
      · exact Or.inr ⟨⟨(g3 a1.wf).1, by unfold FS.link?; rw [g2], a3.of_leaf (hg x.rev),
          Or.inl (hst.trans a1.state)⟩, hst.trans a1.state⟩
    · refine Or.inr ⟨⟨(g3 a1.wf).1, ?_, a1.objects.of_leaf (hg x.rev), Or.inl (hst.trans a2)⟩, hst.trans a2⟩
      rcases g2 with g2 | ⟨_, g2⟩
      · rw [FS.link?_of_leaf (leaf_of_get g2)]; exact a1.current
      · unfold FS.link?; rw [g2]
  have switched : ∀ st w1 w2 w3, RsyncDirState.recover c env w = (.ok st, w1) →
      makeRevision x.rev c (s.mappings.path x.relPath) env w1 = (.ok (), w2) →
      switchTo x.rev st c env w2 = (.ok (), w3) →
      RsyncRecorded c w.cur st ∧ ∃ els, MadeFrom (s.mappings.path x.relPath) els w.cur ∧
        InPlace env c x.rev els w.cur w3.cur := by
    intro st w1 w2 w3 e1 e2 e3
    obtain ⟨hrec, g1, els, g3, g4⟩ := made st w1 w2 e1 e2
    have hk := (switching w2 els (Or.inl ⟨g1, g4⟩)).1
    unfold switchTo at e3
    rw [if_pos hm] at e3
    rw [e3] at hk
    refine ⟨hrec, els, g3, ?_⟩
    have hlk : w3.cur.link? c.rsyncCurrent = some x.rev.dirName := by
      unfold FS.link?; rw [symlinkCurrent_ok e3]
    rcases hk with ⟨a1, a2⟩ | h
    · exact ⟨a1.wf, hlk, a2, Or.inl a1.state⟩
    · exact h.1
  have frame : ∀ els {T : Path → Prop}, ¬ T c.rsyncCurrent → (∀ q, x.rev.path c <+: q → ¬ T q) →
      ¬ T c.rsyncStatePath →
      ∀ f f', InPlace env c x.rev els w.cur f → Change T f f' → InPlace env c x.rev els w.cur f' := by
    rintro els T hT1 hT2 hT3 f f' a a4
    obtain ⟨b1, b2⟩ := a4 a.wf
    refine ⟨b1, ?_, a.objects.of_leaf (fun q hq => b2 q (hT2 q hq)), ?_⟩
    · rw [FS.link?_of_leaf (b2 _ hT1)]; exact a.current
    · rw [b2 _ hT3]; exact a.state
  have cleaned : ∀ st w3 st1 w4 els, RsyncRecorded c w.cur st →
      st.updateCurrent x.rev env w3 = (.ok st1, w4) → InPlace env c x.rev els w.cur w3.cur →
      InPlace env c x.rev els w.cur w4.cur ∧ Keeps (InPlace env c x.rev els w.cur) w4 (st1.cleanOld c env w4).2 := by
    intro st w3 st1 w4 els hrec e4 hS
    obtain ⟨_, s4, _, hold⟩ := updateCurrent_ok e4
    refine ⟨by rw [s4.cur]; exact hS, Keeps.of_within (cleanOld_within (c := c)) (frame els ?_ ?_ ?_)⟩
    · rintro ⟨d, _, _, h⟩
      exact rev_not_current h (List.prefix_refl _)
    · rintro q hq ⟨d, hd1, hd2, h⟩
      have he : d.revision = x.rev := rev_apart h hq
      have hin : d ∈ st.old ∨ ∃ i, d.since = env.clock i := by
        rcases hold with ⟨_, h1⟩ | ⟨old, _, h1, _⟩
        · rw [h1] at hd1; exact Or.inl hd1
        · rw [h1] at hd1
          rcases List.mem_append.1 hd1 with hd1 | hd1
          · exact Or.inl hd1
          · rw [List.mem_singleton] at hd1
            subst hd1
            exact Or.inr ⟨_, rfl⟩
      rcases hin with hin | ⟨i, hi⟩
      · exact absurd (hd st hrec d hin he w4.tick) (Int.not_lt.2 hd2)
      · rw [hi] at hd2
        exact absurd (hbr i w4.tick) (Int.not_lt.2 hd2)
    · rintro ⟨d, _, _, h⟩
      exact revState h rfl
  have follows : ∀ st w3 st1 w4 st2 w5, st.updateCurrent x.rev env w3 = (.ok st1, w4) →
      st1.cleanOld c env w4 = (.ok st2, w5) → Follows x.rev st st2 := by
    intro st w3 st1 w4 st2 w5 e4 e5
    obtain ⟨h1, _, _, hold⟩ := updateCurrent_ok e4
    obtain ⟨h2, h3, _⟩ := cleanOld_ok e5
    refine ⟨h2.trans h1, fun d hd => ?_⟩
    have hd := ((h3 d).1 hd).1
    rcases hold with ⟨_, h1⟩ | ⟨old, h4, h1, _⟩
    · rw [h1] at hd; exact Or.inl hd
    · rw [h1] at hd
      rcases List.mem_append.1 hd with hd | hd
      · exact Or.inl hd
      · rw [List.mem_singleton] at hd
        subst hd
        exact Or.inr h4
  have persisted : ∀ els w5 st st2, RsyncRecorded c w.cur st → Follows x.rev st st2 →
      Keeps (InPlace env c x.rev els w.cur) w5 (RsyncDirState.persist st2 c env w5).2 := by
    intro els w5 st st2 hrec hf
    have k1 := writeBuf_writing c.rsyncStatePath (Ext.encRsync st2) env w5
    have k2 := writeBuf_in (E := Eff.only (· = c.rsyncStatePath)) rfl (Ext.encRsync st2) env w5
    refine Keeps.of_steps (k1.and k2.steps) ?_
    rintro f f' h ⟨⟨g1, g2⟩, g3⟩
    refine ⟨(g3 h.wf).1, ?_, h.objects.of_leaf (fun q hq => g1 q (revState hq)), ?_⟩
    · rw [FS.link?_of_leaf (g1 _ (fun h => curState h.symm))]; exact h.current
    · rcases g2 with g2 | ⟨k, t, g2⟩
      · rw [g2]; exact h.state
      · exact Or.inr ⟨st, st2, k, t, hrec, hf, g2⟩
  constructor
  · refine updateRsync_tr (T := Keeps _) hs ?_ ?_ ?_ ?_ ?_ ?_
    · exact Keeps.of_same (recover_same c env w)
    · intro st w1 e1
      obtain ⟨s1, hrec⟩ := recover_ok hl e1
      exact Keeps.via (making st w1 e1) (by rw [s1.cur]; exact Making.refl hw) (fun f hf => Or.inl hf)
    · intro st w1 w2 e1 e2
      obtain ⟨hrec, g1, els, g3, g4⟩ := made st w1 w2 e1 e2
      unfold switchTo
      rw [if_pos hm]
      refine Keeps.via (switching w2 els) (Or.inl ⟨g1, g4⟩) ?_
      rintro f (⟨a1, _⟩ | ⟨a1, _⟩)
      · exact Or.inl a1
      · exact Or.inr ⟨els, g3, a1⟩
    · intro st w1 w2 w3 _ _ _
      exact Keeps.of_same (updateCurrent_same _ _ env w3)
    · intro st w1 w2 w3 st1 w4 e1 e2 e3 e4
      obtain ⟨hrec, els, g3, hS⟩ := switched st w1 w2 w3 e1 e2 e3
      obtain ⟨a1, a2⟩ := cleaned st w3 st1 w4 els hrec e4 hS
      exact Keeps.via a2 a1 (fun f hf => Or.inr ⟨els, g3, hf⟩)
    · intro st w1 w2 w3 st1 w4 st2 w5 e1 e2 e3 e4 e5
      obtain ⟨hrec, els, g3, hS⟩ := switched st w1 w2 w3 e1 e2 e3
      obtain ⟨a1, a2⟩ := cleaned st w3 st1 w4 els hrec e4 hS
      rw [e5] at a2
      exact Keeps.via (persisted els w5 st st2 hrec (follows _ _ _ _ _ _ e4 e5)) (a2 a1).1
        (fun f hf => Or.inr ⟨els, g3, hf⟩)
  · intro hok
    obtain ⟨w1, w2, w3, w4, w5, st, st1, st2, d⟩ := updateRsync_ok hs (Prod.ext hok rfl)
    obtain ⟨hrec, els, g3, hS⟩ := switched st w1 w2 w3 d.recovered d.made d.switched
    obtain ⟨a1, a2⟩ := cleaned st w3 st1 w4 els hrec d.updated hS
    rw [d.cleaned] at a2
    have a3 := persisted els w5 st st2 hrec (follows _ _ _ _ _ _ d.updated d.cleaned)
    rw [d.persisted] at a3
    exact ⟨els, g3, (a3 (a2 a1).1).1⟩

/-! ## A whole run -/

/-- Nothing has happened yet. -/
def NotBegun (c : Config) (fs f : FS) : Prop :=
  ∀ q, RsyncArea c q ∨ q = c.rrdpStatePath → f.leaf q = fs.leaf q

/-- The revision announced is in place. -/
def NowServed (c : Config) (base name : Str) (env : Env) (fs : FS) (n : Notif) (f : FS) : Prop :=
  Announces c base name env fs n ∧ ∃ b rel, n.snapUri = base ++ rel ∧ Ext.sha b = n.snapHash ∧
    (Ext.streamSnapshot b).2 = true ∧ InPlace env c n.rev (Ext.streamSnapshot b).1 fs f

/-- The instants of a run, as far as the rsync directory is concerned. -/
def RsyncPhase (c : Config) (base name : Str) (env : Env) (fs f : FS) : Prop :=
  NotBegun c fs f ∨
  (∃ n, Announces c base name env fs n ∧ f.leaf c.rrdpStatePath = fs.leaf c.rrdpStatePath ∧
    Making c n.rev fs f) ∨
  ∃ n, NowServed c base name env fs n f

theorem RsyncReady.leaf_area {c : Config} {base name : Str} {fs : FS} {s : RrdpState}
    {x : SnapshotState} (hl : Layout c base name)
    (h : RsyncReady c base name env fs s x w) {q : Path} (hq : RsyncArea c q ∨ q = c.rrdpStatePath) :
    w.cur.leaf q = fs.leaf q := by
  rcases hq with (hq | rfl) | rfl
  · exact h.leaf q (fun h' => hl.rsyncStaging.not_both hq h') (fun h' => hl.rrdp_not_rsync h' (Or.inl hq))
  · exact h.leaf _ rsyncState_not_staging (fun h' => hl.rrdp_not_rsync h' (Or.inr rfl))
  · exact h.leaf _ rrdpState_not_staging hl.rrdpState.1

theorem rev_below {c : Config} {r : RsyncRevision} {q : Path} (h : r.path c <+: q) : RsyncArea c q :=
  Or.inl ((List.prefix_append _ _).trans h)

theorem RsyncReady.instants {c : Config} {base name : Str} {fs : FS} {s : RrdpState}
    {x : SnapshotState} (hl : Layout c base name) (hc : RunConds c base name env fs)
    (he : c.rsyncEnabled = true)
    (hm : c.rsyncUseSymlinks = true) (hcs : CleanSource c base env fs)
    (hlk : fs.link? c.rsyncStatePath = none) (hbr : Brisk c env)
    (hd : ∀ n, Announces c base name env fs n → ∀ st, RsyncRecorded c fs st → ∀ d ∈ st.old,
      d.revision = n.rev → ∀ k, env.clock k < d.since + c.cleanupAfter)
    (hr : RsyncReady c base name env fs s x w) :
    Keeps (RsyncPhase c base name env fs) w (updateRsync s c env w).2 ∧
    ((updateRsync s c env w).1 = .ok () →
      ∃ n, NowServed c base name env fs n (updateRsync s c env w).2.cur) := by
  obtain ⟨n, ha, hv, hh, hu⟩ := hr.version
  obtain ⟨hsl, hsb⟩ := hr.source hcs
  have hst := hr.leaf_area hl (Or.inl (Or.inr rfl))
  have harea : ∀ q, RsyncArea c q → w.cur.leaf q = fs.leaf q := fun q hq => hr.leaf_area hl (Or.inl hq)
  obtain ⟨k1, k2⟩ := updateRsync_retry (env := env) (w := w) (s := s) hm (hc.objects he) hr.wf
    (by rw [FS.link?_of_leaf hst]; exact hlk) hl.rsyncRsyncState hr.snapshot
    (by rw [hr.path]; exact hsl) hbr
    (fun st h1 d h2 h3 => hd n ha st (h1.of_leaf hst) d h2 (h3.trans hv))
  have made : ∀ f, Making c x.rev w.cur f → Making c n.rev fs f := by
    intro f h
    rw [← hv]
    refine ⟨h.wf, h.state.trans hst, h.current.trans (harea _ (Or.inl (List.prefix_append _ _))),
      fun r h1 q h2 => (h.other r h1 q h2).trans (harea _ (rev_below h2)), fun q h1 h2 => ?_⟩
    refine h.files q h1 ?_
    rw [FS.file?_of_leaf (harea _ (rev_below h1))]
    exact h2
  have placed : ∀ f els, MadeFrom (s.mappings.path x.relPath) els w.cur → InPlace env c x.rev els w.cur f →
      NowServed c base name env fs n f := by
    rintro f els ⟨b, g1, g2, rfl⟩ h
    rw [hr.path] at g1
    refine ⟨ha, b, x.relPath, hu, (hsb b g1).trans hh, g2, h.wf, ?_, ?_, ?_⟩
    · rw [← hv]; exact h.current
    · rw [← hv]; exact h.objects
    · rw [← hv]
      rcases h.state with h1 | ⟨st, st2, k, t, h1, h2, h3⟩
      · exact Or.inl (h1.trans hst)
      · exact Or.inr ⟨st, st2, k, t, h1.of_leaf hst, h2, h3⟩
  refine ⟨?_, fun hok => ?_⟩
  · have k3 := rsyncPart_within (c := c) (s := s) hc.objects env w
    unfold rsyncPart at k3
    rw [if_pos he] at k3
    have k4 : Keeps (fun f => f.WF ∧ f.leaf c.rrdpStatePath = fs.leaf c.rrdpStatePath) w
        (updateRsync s c env w).2 := by
      refine Keeps.of_within k3 ?_
      rintro f f' ⟨g1, g2⟩ g3
      exact ⟨(g3 g1).1, ((g3 g1).2 _ (fun h => rrdpState_not_rsync hl h.2)).trans g2⟩
    refine Keeps.via (k1.and k4)
      ⟨Or.inl (Making.refl hr.wf), hr.wf, hr.leaf_area hl (Or.inr rfl)⟩ ?_
    rintro f ⟨h1 | ⟨els, h1, h2⟩, _, h3⟩
    · exact Or.inr (Or.inl ⟨n, ha, h3, made f h1⟩)
    · exact Or.inr (Or.inr ⟨n, placed f els h1 h2⟩)
  · obtain ⟨els, h1, h2⟩ := k2 hok
    exact ⟨n, placed _ els h1 h2⟩

theorem NowServed.same {c : Config} {base name : Str} {fs f f' : FS} {n : Notif}
    (h : NowServed c base name env fs n f) (hs : RsyncSame c f f') (hw : f'.WF) :
    NowServed c base name env fs n f' := by
  obtain ⟨ha, b, rel, h1, h2, h3, h4⟩ := h
  refine ⟨ha, b, rel, h1, h2, h3, hw, ?_, h4.objects.of_leaf (fun q hq => hs.1 q (rev_below hq)), ?_⟩
  · rw [FS.link?_of_leaf (hs.1 c.rsyncCurrent (Or.inl (List.prefix_append _ _)))]; exact h4.current
  · rw [hs.1 _ (Or.inr rfl)]; exact h4.state

theorem run_rsync_instants {depth : Nat} {c : Config} {base name : Str} {fs : FS}
    (hl : Layout c base name) (hc : RunConds c base name env fs) (he : c.rsyncEnabled = true)
    (hm : c.rsyncUseSymlinks = true) (hcs : CleanSource c base env fs)
    (hlk : fs.link? c.rsyncStatePath = none) (hbr : Brisk c env)
    (hd : ∀ n, Announces c base name env fs n → ∀ st, RsyncRecorded c fs st → ∀ d ∈ st.old,
      d.revision = n.rev → ∀ k, env.clock k < d.since + c.cleanupAfter) :
    (∀ f ∈ (process depth c env (World.start fs)).2.crashPoints, RsyncPhase c base name env fs f) ∧
    ∀ w', process depth c env (World.start fs) = (.ok (), w') → w'.cur.WF → w'.crashPoints = [fs] ∨
      ∃ n, NowServed c base name env fs n w'.cur := by
  constructor
  · refine run_rsync_phases (Q := fun f => ∃ n, NowServed c base name env fs n f) hl hc he
      (fun f hf => Or.inr (Or.inr hf)) (fun f _ hf => Or.inl hf) ?_
      (fun s x w hr _ => hr.instants hl hc he hm hcs hlk hbr hd)
    rintro f f' ⟨n, h⟩ hs hw
    exact ⟨n, h.same hs hw⟩
  · intro w' h hw
    rcases run_rsync_ok hl hc he h with h1 | ⟨s, x, w3, w4, hr, hu, hsame, _⟩
    · exact Or.inl h1
    · have := (hr.instants hl hc he hm hcs hlk hbr hd).2
      rw [hu] at this
      obtain ⟨n, hn⟩ := this rfl
      exact Or.inr ⟨n, hn.same hsame hw⟩

/-! ## Over many runs -/

theorem lastObject_some {ih : Bool} {els : List (RsyncUri × Bytes)} {e : RsyncUri × Bytes} (he : e ∈ els) :
    ∃ e', lastObject ih els (comps (objectRel ih e.1)) = some e' := by
  unfold lastObject
  match h : els.reverse.find? (fun x => decide (comps (objectRel ih x.1) = comps (objectRel ih e.1))) with
  | some e' => exact ⟨e', h⟩
  | none =>
    rw [List.find?_eq_none] at h
    exact absurd (decide_eq_true rfl) (h e (List.mem_reverse.2 he))

theorem HasObjects.filesThere {f : FS} {d : Path} {ih : Bool} {els : List (RsyncUri × Bytes)}
    (h : HasObjects f d ih els) : FilesThere f d ih els := by
  intro e he
  obtain ⟨e', h1⟩ := lastObject_some (ih := ih) he
  obtain ⟨t, h2⟩ := h _ _ h1
  unfold FS.file?
  rw [file_of_leaf h2]
  rfl

theorem Version.le_antisymm {a b : Version} (h : a.le b) (h' : b.le a) : a = b := by
  unfold Version.le at *
  exact Prod.ext (by omega) (by omega)

theorem version_inj {life : SourceLife} {r r' : RsyncRevision}
    (h : r.version life.age = r'.version life.age) : r = r' := by
  unfold RsyncRevision.version at h
  injection h with h1 h2
  have := life.distinct _ _ h1
  cases r; cases r'
  simp_all

def Progress.version (p : Progress) : Version := (p.age, p.serial)

theorem Progress.le.version {p p' : Progress} (h : p.le p') : p.version.le p'.version := by
  unfold Progress.le at h
  unfold Version.le Progress.version
  dsimp only
  omega

section
variable {life : SourceLife} {c : Config} {base name : Str} {p p' : Progress}

/-- What is served. -/
def Serving (life : SourceLife) (c : Config) (f : FS) : Prop :=
  f.leaf c.rsyncCurrent = none ∨ ∃ r b, f.link? c.rsyncCurrent = some r.dirName ∧ IsSnapshotOf life r b ∧
    FilesThere f (r.path c) c.rsyncIncludeHost (Ext.streamSnapshot b).1 ∧
    (InAccord c f r → HasObjects f (r.path c) c.rsyncIncludeHost (Ext.streamSnapshot b).1)

structure RsyncKept (life : SourceLife) (c : Config) (base name : Str) (p : Progress) (f : FS) : Prop where
  kept : Kept life c base name p f
  noLink : f.link? c.rsyncStatePath = none
  current : ∀ st, RsyncRecorded c f st → ∀ r, st.current = some r → (r.version life.age).le p.version
  old : ∀ st, RsyncRecorded c f st → ∀ d ∈ st.old, ∃ r, st.current = some r ∧
    (d.revision.version life.age).le (r.version life.age)
  serving : Serving life c f

theorem RsyncKept.start {f : FS} (h : Untouched c f) : RsyncKept life c base name p f := by
  have hs : f.get c.rsyncStatePath = none := h.empty _ (by simp [Config.places]) _ (List.prefix_refl _)
  have hn : f.leaf c.rsyncStatePath = none := by unfold FS.leaf; rw [hs]
  have hrec : ∀ st, RsyncRecorded c f st → st = ⟨none, []⟩ := by
    rintro st (⟨b, h1, _⟩ | ⟨_, h1⟩)
    · unfold FS.file? at h1
      rw [hs] at h1
      cases h1
    · exact h1
  refine ⟨Kept.start h.pristine, by unfold FS.link?; rw [hs], fun st h1 r h2 => ?_,
    fun st h1 d h2 => ?_, Or.inl ?_⟩
  · rw [hrec st h1] at h2; cases h2
  · rw [hrec st h1] at h2; cases h2
  · have : f.get c.rsyncCurrent = none :=
      h.empty c.rsyncDir (by simp [Config.places]) _ (List.prefix_append _ _)
    unfold FS.leaf
    rw [this]

theorem Announces.offers {fs : FS} {n : Notif} (h : Announces c base name env fs n) :
    ∃ etag, Offers c env fs etag n := by
  obtain ⟨s, _, h, _⟩ := h
  exact ⟨_, h⟩

theorem GoodRun.notBefore_version {depth : Nat} {fs : FS} (h : GoodRun life c base name p p' depth env fs)
    {n : Notif} (hn : Announces c base name env fs n) :
    p.version.le (n.rev.version life.age) ∧ (n.rev.version life.age).le p'.version := by
  obtain ⟨etag, ho⟩ := hn.offers
  have h1 := h.notBefore _ _ ho
  have h2 := h.notAfter _ _ ho
  unfold SourceLife.NotBefore at h1
  unfold SourceLife.NotAfter at h2
  unfold Version.le Progress.version RsyncRevision.version Notif.rev
  dsimp only
  exact ⟨by omega, by omega⟩

/-- What the state says and what is announced are different versions. -/
theorem Announces.ne {fs : FS} {n : Notif} (h : Announces c base name env fs n) {s : RrdpState}
    {x : SnapshotState} {r : RsyncRevision} (hs : Recorded c fs s) (hx : s.snapshot = some x)
    (h1 : x.session = r.session) (h2 : x.serial = r.serial) : r ≠ n.rev := by
  obtain ⟨s', hi, _, hn⟩ := h
  rw [← hi.recorded hs] at hn
  rintro rfl
  rcases hn x hx with h | h
  · exact h h1
  · have : x.serial = n.serial := h2
    omega

theorem RsyncKept.due {fs : FS} {depth : Nat} (h : RsyncKept life c base name p fs)
    (hr : TimelyRun life c base name p p' depth env fs) :
    ∀ n, Announces c base name env fs n → ∀ st, RsyncRecorded c fs st → ∀ d ∈ st.old,
      d.revision = n.rev → ∀ k, env.clock k < d.since + c.cleanupAfter := by
  intro n hn st hst d hd he
  obtain ⟨r, h1, h2⟩ := h.old st hst d hd
  have h3 := (hr.good.notBefore_version hn).1
  have h4 := h.current st hst r h1
  rw [he] at h2
  have : n.rev = r := version_inj (Version.le_antisymm h2 (Version.le_trans h4 h3))
  exact hr.timely st r hst h1 d hd (he.trans this)

theorem Kept.conds {fs : FS} {depth : Nat} (hl : Layout c base name)
    (ho : c.rsyncEnabled = true → CleanObjects c.rsyncIncludeHost) (h : Kept life c base name p fs)
    (hr : GoodRun life c base name p p' depth env fs) : RunConds c base name env fs :=
  ⟨hl.uri, h.wf, fun s hs => (h.state s hs).sane, hr.source, ho⟩

theorem RsyncKept.instants {fs : FS} {depth : Nat} (hl : Layout c base name)
    (ho : CleanObjects c.rsyncIncludeHost) (he : c.rsyncEnabled = true) (hm : c.rsyncUseSymlinks = true)
    (h : RsyncKept life c base name p fs) (hr : TimelyRun life c base name p p' depth env fs) :
    (∀ f ∈ (process depth c env (World.start fs)).2.crashPoints, RsyncPhase c base name env fs f) ∧
    ∀ w', process depth c env (World.start fs) = (.ok (), w') → w'.cur.WF → w'.crashPoints = [fs] ∨
      ∃ n, NowServed c base name env fs n w'.cur :=
  run_rsync_instants hl (h.kept.conds hl (fun _ => ho) hr.good) he hm
    ⟨hr.good.no304, h.kept.links, fun _ _ hn => (hr.good.lists _ _ hn).oneHash⟩ h.noLink hr.good.brisk
    (h.due hr)

theorem recorded_rsync_take {f : FS} {st st' : RsyncDirState} {k : Nat} {t : Time}
    (h : f.leaf c.rsyncStatePath = some (.file ((Ext.encRsync st).take k) t))
    (hr : RsyncRecorded c f st') : st' = st := by
  rcases hr with ⟨b, h1, h2⟩ | ⟨h1, _⟩
  · unfold FS.file? at h1
    rw [file_of_leaf h] at h1
    dsimp only at h1
    injection h1 with h1
    subst h1
    by_cases hk : k < (Ext.encRsync st).length
    · rw [Ext.dec_rsync_torn st k hk] at h2; cases h2
    · rw [List.take_of_length_le (by omega), Ext.dec_enc_rsync] at h2
      cases h2; rfl
  · rw [h] at h1; cases h1

theorem NowServed.snapshotOf {fs f : FS} {n : Notif} {depth : Nat}
    (hr : GoodRun life c base name p p' depth env fs) (h : NowServed c base name env fs n f) :
    ∃ b, f.link? c.rsyncCurrent = some n.rev.dirName ∧ IsSnapshotOf life n.rev b ∧
      Whole env f (n.rev.path c) c.rsyncIncludeHost (Ext.streamSnapshot b).1 := by
  obtain ⟨ha, b, rel, h1, h2, h3, h4⟩ := h
  obtain ⟨etag, ho⟩ := ha.offers
  refine ⟨b, h4.current, ⟨⟨comps rel, ?_⟩, h3⟩, h4.objects⟩
  rw [(hr.lists _ _ ho).snapshot rel h1, h2]
  rfl

theorem Making.objects {fs f : FS} {n : Notif} (h : Making c n.rev fs f)
    (hst : f.leaf c.rrdpStatePath = fs.leaf c.rrdpStatePath) {r : RsyncRevision} (hr : r ≠ n.rev)
    {els : List (RsyncUri × Bytes)} (ho : HasObjects fs (r.path c) c.rsyncIncludeHost els) :
    HasObjects f (r.path c) c.rsyncIncludeHost els := ho.of_leaf (fun q hq => h.other r hr q hq)

theorem RsyncKept.run {fs f : FS} {depth : Nat} (hl : Layout c base name)
    (ho : CleanObjects c.rsyncIncludeHost) (he : c.rsyncEnabled = true) (hm : c.rsyncUseSymlinks = true)
    (h : RsyncKept life c base name p fs) (hr : TimelyRun life c base name p p' depth env fs)
    (hf : f ∈ (process depth c env (World.start fs)).2.crashPoints) :
    RsyncKept life c base name p' f := by
  have hk := run_kept hl (fun _ => ho) h.kept hr.good f hf
  have hle := hr.good.later.version
  -- as long as the rsync state is the same
  have same : f.leaf c.rsyncStatePath = fs.leaf c.rsyncStatePath →
      f.link? c.rsyncStatePath = none ∧
      (∀ st, RsyncRecorded c f st → ∀ r, st.current = some r → (r.version life.age).le p'.version) ∧
      (∀ st, RsyncRecorded c f st → ∀ d ∈ st.old, ∃ r, st.current = some r ∧
        (d.revision.version life.age).le (r.version life.age)) := by
    intro hs
    refine ⟨by rw [FS.link?_of_leaf hs]; exact h.noLink, fun st h1 r h2 => ?_, fun st h1 => ?_⟩
    · exact Version.le_trans (h.current st (h1.of_leaf hs) r h2) hle
    · exact h.old st (h1.of_leaf hs)
  have accord : f.leaf c.rrdpStatePath = fs.leaf c.rrdpStatePath →
      f.leaf c.rsyncCurrent = fs.leaf c.rsyncCurrent → ∀ r, InAccord c f r → InAccord c fs r := by
    rintro h1 h2 r ⟨⟨s, x, g1, g2⟩, g3⟩
    exact ⟨⟨s, x, (Recorded.of_leaf h.kept.noLink h1).1 g1, g2⟩, by rw [← FS.link?_of_leaf h2]; exact g3⟩
  rcases (h.instants hl ho he hm hr).1 f hf with h1 | ⟨n, ha, h1, h2⟩ | ⟨n, h1⟩
  · obtain ⟨g1, g2, g3⟩ := same (h1 _ (Or.inl (Or.inr rfl)))
    have hcur : f.leaf c.rsyncCurrent = fs.leaf c.rsyncCurrent :=
      h1 _ (Or.inl (Or.inl (List.prefix_append _ _)))
    refine ⟨hk, g1, g2, g3, ?_⟩
    rcases h.serving with h2 | ⟨r, b, a1, a2, a3, a4⟩
    · exact Or.inl (hcur.trans h2)
    · refine Or.inr ⟨r, b, by rw [FS.link?_of_leaf hcur]; exact a1, a2, fun e hel => ?_, fun hacc => ?_⟩
      · rw [FS.file?_of_leaf (h1 _ (Or.inl (rev_below (List.prefix_append _ _))))]
        exact a3 e hel
      · exact (a4 (accord (h1 _ (Or.inr rfl)) hcur r hacc)).of_leaf
          (fun q hq => h1 _ (Or.inl (rev_below hq)))
  · obtain ⟨g1, g2, g3⟩ := same h2.state
    refine ⟨hk, g1, g2, g3, ?_⟩
    rcases h.serving with h3 | ⟨r, b, a1, a2, a3, a4⟩
    · exact Or.inl (h2.current.trans h3)
    · refine Or.inr ⟨r, b, by rw [FS.link?_of_leaf h2.current]; exact a1, a2, fun e hel => ?_, fun hacc => ?_⟩
      · by_cases hrn : r = n.rev
        · subst hrn
          exact h2.files _ (List.prefix_append _ _) (a3 e hel)
        · rw [FS.file?_of_leaf (h2.other r hrn _ (List.prefix_append _ _))]
          exact a3 e hel
      · have hacc' := accord h1 h2.current r hacc
        obtain ⟨s, x, b1, b2, b3, b4⟩ := hacc'.1
        exact h2.objects h1 (ha.ne b1 b2 b3 b4) (a4 hacc')
  · obtain ⟨b, b1, b2, b3⟩ := h1.snapshotOf hr.good
    have hserv : Serving life c f := Or.inr ⟨n.rev, b, b1, b2, b3.1.filesThere, fun _ => b3.1⟩
    obtain ⟨ha, _, _, _, _, _, h4⟩ := h1
    obtain ⟨v1, v2⟩ := hr.good.notBefore_version ha
    rcases h4.state with h5 | ⟨st, st2, k, t, h5, ⟨h6, h7⟩, h8⟩
    · obtain ⟨g1, g2, g3⟩ := same h5
      exact ⟨hk, g1, g2, g3, hserv⟩
    · refine ⟨hk, by unfold FS.link?; rw [file_of_leaf h8], fun st' g1 r g2 => ?_, fun st' g1 d g2 => ?_,
        hserv⟩
      · rw [recorded_rsync_take h8 g1, h6] at g2
        cases g2
        exact v2
      · rw [recorded_rsync_take h8 g1] at g2 ⊢
        refine ⟨_, h6, ?_⟩
        rcases h7 d g2 with h9 | h9
        · obtain ⟨r, c1, c2⟩ := h.old st h5 d h9
          exact Version.le_trans c2 (Version.le_trans (h.current st h5 r c1) v1)
        · exact Version.le_trans (h.current st h5 _ h9) v1

theorem TimelyLifetime.kept {f : FS} (hl : Layout c base name)
    (ho : CleanObjects c.rsyncIncludeHost) (he : c.rsyncEnabled = true) (hm : c.rsyncUseSymlinks = true)
    (h : TimelyLifetime life c base name p f) : RsyncKept life c base name p f := by
  unfold TimelyLifetime at h
  induction h with
  | start h => exact RsyncKept.start h
  | run _ h1 h2 ih => exact RsyncKept.run hl ho he hm ih h1 h2

theorem FaultlessLifetime.timely {f : FS} (h : FaultlessLifetime life c base name p f) :
    TimelyLifetime life c base name p f := by
  unfold FaultlessLifetime at h
  induction h with
  | start h => exact History.start h
  | run _ h1 h2 ih => exact History.run ih h1.1 h2

/-- What is served has its times. -/
theorem FaultlessLifetime.times {f : FS} (hl : Layout c base name)
    (ho : CleanObjects c.rsyncIncludeHost) (he : c.rsyncEnabled = true) (hm : c.rsyncUseSymlinks = true)
    (h : FaultlessLifetime life c base name p f) : ∀ r, InAccord c f r → ∃ b, IsSnapshotOf life r b ∧
      HasObjects f (r.path c) c.rsyncIncludeHost (Ext.streamSnapshot b).1 ∧
      OwnTimes f (r.path c) c.rsyncIncludeHost (Ext.streamSnapshot b).1 := by
  unfold FaultlessLifetime at h
  induction h with
  | start h =>
    intro r hr
    have : (_ : FS).get c.rsyncCurrent = none :=
      h.empty c.rsyncDir (by simp [Config.places]) _ (List.prefix_append _ _)
    have h2 := hr.2
    unfold FS.link? at h2
    rw [this] at h2
    cases h2
  | @run i j depth env fs f h0 h1 h2 ih =>
    have hk := FaultlessLifetime.timely (life := life) h0
    have hk := hk.kept hl ho he hm
    have accord : f.leaf c.rrdpStatePath = fs.leaf c.rrdpStatePath →
        f.leaf c.rsyncCurrent = fs.leaf c.rsyncCurrent → ∀ r, InAccord c f r → InAccord c fs r := by
      rintro h1 h2 r ⟨⟨s, x, g1, g2⟩, g3⟩
      exact ⟨⟨s, x, (Recorded.of_leaf hk.kept.noLink h1).1 g1, g2⟩, by rw [← FS.link?_of_leaf h2]; exact g3⟩
    intro r hacc
    rcases (hk.instants hl ho he hm h1.1).1 f h2 with h3 | ⟨n, ha, h3, h4⟩ | ⟨n, h3⟩
    · have hcur : f.leaf c.rsyncCurrent = fs.leaf c.rsyncCurrent :=
        h3 _ (Or.inl (Or.inl (List.prefix_append _ _)))
      obtain ⟨b, b1, b2, b3⟩ := ih r (accord (h3 _ (Or.inr rfl)) hcur r hacc)
      exact ⟨b, b1, b2.of_leaf (fun q hq => h3 _ (Or.inl (rev_below hq))),
        b3.of_leaf (fun q hq => h3 _ (Or.inl (rev_below hq)))⟩
    · have hacc' := accord h3 h4.current r hacc
      obtain ⟨b, b1, b2, b3⟩ := ih r hacc'
      obtain ⟨s, x, c1, c2, c3, c4⟩ := hacc'.1
      have hne := ha.ne c1 c2 c3 c4
      exact ⟨b, b1, b2.of_leaf (fun q hq => h4.other r hne q hq), b3.of_leaf (fun q hq => h4.other r hne q hq)⟩
    · obtain ⟨b, b1, b2, b3⟩ := h3.snapshotOf h1.1.good
      have : n.rev = r := RsyncRevision.dirName_inj (Option.some.inj (b1.symm.trans hacc.2))
      rw [← this]
      exact ⟨b, b2, b3.1, b3.2 h1.2⟩

/-- A run that starts with everything in accord. -/
theorem RsyncKept.exact {fs f : FS} {depth : Nat} {r : RsyncRevision} (hl : Layout c base name)
    (ho : CleanObjects c.rsyncIncludeHost) (he : c.rsyncEnabled = true) (hm : c.rsyncUseSymlinks = true)
    (h : RsyncKept life c base name p fs) (hr : TimelyRun life c base name p p' depth env fs)
    (hacc : InAccord c fs r) (hf : f ∈ (process depth c env (World.start fs)).2.crashPoints) :
    ∃ r' b, f.link? c.rsyncCurrent = some r'.dirName ∧ IsSnapshotOf life r' b ∧
      HasObjects f (r'.path c) c.rsyncIncludeHost (Ext.streamSnapshot b).1 ∧
      (r' = r ∨ ∃ n, Announces c base name env fs n ∧ r' = n.rev) := by
  obtain ⟨s, x, b1, b2, b3, b4⟩ := hacc.1
  have b5 := hacc.2
  have hserv : ∃ b, IsSnapshotOf life r b ∧
      HasObjects fs (r.path c) c.rsyncIncludeHost (Ext.streamSnapshot b).1 := by
    rcases h.serving with h2 | ⟨r', b, a1, a2, a3, a4⟩
    · unfold FS.link? at b5
      unfold FS.leaf at h2
      split at b5
      · rename_i hg
        rw [hg] at h2
        cases h2
      · cases b5
    · rw [b5] at a1
      injection a1 with a1
      have := RsyncRevision.dirName_inj a1
      subst this
      exact ⟨b, a2, a4 hacc⟩
  obtain ⟨b, h1, h2⟩ := hserv
  rcases (h.instants hl ho he hm hr).1 f hf with h3 | ⟨n, ha, h3, h4⟩ | ⟨n, h3⟩
  · have hcur : f.leaf c.rsyncCurrent = fs.leaf c.rsyncCurrent :=
      h3 _ (Or.inl (Or.inl (List.prefix_append _ _)))
    exact ⟨r, b, by rw [FS.link?_of_leaf hcur]; exact b5, h1,
      h2.of_leaf (fun q hq => h3 _ (Or.inl (rev_below hq))), Or.inl rfl⟩
  · exact ⟨r, b, by rw [FS.link?_of_leaf h4.current]; exact b5, h1,
      h4.objects h3 (ha.ne b1 b2 b3 b4) h2, Or.inl rfl⟩
  · obtain ⟨b', c1, c2, c3⟩ := h3.snapshotOf hr.good
    exact ⟨n.rev, b', c1, c2, c3.1, Or.inr ⟨n, h3.1, rfl⟩⟩

end

end KSync
