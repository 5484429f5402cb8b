import Verif.Lemmas.TidyRun
import Verif.Lemmas.StateHistory

/-! # The invariant of an installation over a source that keeps to its names -/

set_option linter.unusedSectionVars false
set_option linter.unusedVariables false

namespace KSync

variable [Ext]

section
variable {life : SourceLife} {T : SourceTree} {c : Config} {base name : Str} {p p' : Progress}

/-- The paths that the state knows are those of the source. -/
structure Named (T : SourceTree) (c : Config) (s : RrdpState) : Prop where
  snapshot : ∀ x, s.snapshot = some x → T.files (comps x.relPath)
  deltas : ∀ d ∈ s.deltas, T.files (comps d.relPath)
  deprecated : ∀ e ∈ s.deprecated, ∃ rel, T.files (comps rel) ∧ e.path = c.pubPath rel

theorem Named.fresh : Named T c (freshState c base name) :=
  ⟨fun x h => (by cases h), fun d h => (by cases h), fun e h => (by cases h)⟩

theorem Named.congr {s s' : RrdpState} (h : Named T c s) (h1 : s'.snapshot = s.snapshot)
    (h2 : s'.deltas = s.deltas) (h3 : s'.deprecated = s.deprecated) : Named T c s' :=
  ⟨by rw [h1]; exact h.snapshot, by rw [h2]; exact h.deltas, by rw [h3]; exact h.deprecated⟩

theorem Named.refers {s : RrdpState} (h : Named T c s) {q : Path} (hq : s.Refers c q) :
    ∃ rel, T.files (comps rel) ∧ q = c.pubPath rel := by
  rcases hq with ⟨x, h1, h2⟩ | ⟨d, h1, h2⟩
  · exact ⟨_, h.snapshot x h1, h2⟩
  · exact ⟨_, h.deltas d h1, h2⟩

/-- The notification is of the version of the snapshot held, or of a later one. -/
def Ahead (life : SourceLife) (c : Config) (name : Str) (f : FS) : Prop :=
  ∀ s x, Recorded c f s → s.snapshot = some x → ∃ n t,
    f.leaf (c.notifPath name) = some (.file (Ext.writeNotif n) t) ∧
    (life.age x.session < life.age n.session ∨ (x.session = n.session ∧ x.serial ≤ n.serial))

structure Steady (life : SourceLife) (T : SourceTree) (c : Config) (base name : Str) (p : Progress)
    (f : FS) : Prop where
  kept : Kept life c base name p f
  plan : (planOf T c name).Good f
  named : ∀ s, Recorded c f s → Named T c s
  ahead : Ahead life c name f

/-- The files of what is staged. -/
theorem staged_named {s : RrdpState} {st : StagedChanges} {n : Notif} (h : StagedAs base s n st)
    (hn : T.Has c base n) :
    T.files (comps st.snapshot.relPath) ∧ ∀ d ∈ st.deltas, T.files (comps d.relPath) := by
  refine ⟨hn.files (n.snapUri, n.snapHash) (List.mem_cons_self ..) _ h.snapUri, fun d hd => ?_⟩
  have h1 : (⟨d.serial, base ++ d.relPath, d.hash⟩ : DeltaInfo) ∈ n.deltas := by
    have : (⟨d.serial, base ++ d.relPath, d.hash⟩ : DeltaInfo) ∈
        n.deltas.filter (fun d => s.deltaIsNew st.sessionReset d.serial) := by
      rw [← h.deltas]
      exact List.mem_map.2 ⟨d, hd, rfl⟩
    exact (List.mem_filter.1 this).1
  exact hn.files (base ++ d.relPath, d.hash)
    (List.mem_cons_of_mem _ (List.mem_map.2 ⟨_, h1, rfl⟩)) _ rfl

theorem InUse.named {f : FS} {s : RrdpState} (h : InUse c base name f s)
    (hn : ∀ s, Recorded c f s → Named T c s) : Named T c s := by
  rcases h with h | ⟨_, rfl⟩
  · exact hn s h
  · exact Named.fresh

theorem NewState.named {depth : Nat} {env : Env} {f0 : FS} {s s2 : RrdpState} {st : StagedChanges}
    {n : Notif} (h : NewState depth c base name env f0 s s2 st n) (hs : Named T c s)
    (h1 : T.files (comps st.snapshot.relPath)) (h2 : ∀ d ∈ st.deltas, T.files (comps d.relPath)) :
    Named T c s2 := by
  refine ⟨fun x hx => ?_, fun d hd => ?_, fun e he => ?_⟩
  · rw [h.snapshot] at hx
    cases hx
    exact h1
  · rcases h.deltas d hd with hd | hd
    · exact hs.deltas d hd
    · exact h2 d hd
  · rcases h.deprecated e he with he | he
    · exact hs.deprecated e he
    · exact hs.refers he

theorem run_steady {depth : Nat} {env : Env} {f0 : FS} (hT : T.Tidy name)
    (hl : Layout c base name) (ho : c.rsyncEnabled = true → CleanObjects c.rsyncIncludeHost)
    (hsym : c.rsyncEnabled = true → c.rsyncUseSymlinks = true)
    (hk : Steady life T c base name p f0) (hr : TidyRun life T c base name p p' depth env f0) :
    ∀ f ∈ (process depth c env (World.start f0)).2.crashPoints, Steady life T c base name p' f := by
  intro f hf
  have hc : RunConds c base name env f0 :=
    ⟨hl.uri, hk.kept.wf, fun s hs => (hk.kept.state s hs).sane, hr.good.source, ho⟩
  have old : f.leaf c.rrdpStatePath = f0.leaf c.rrdpStatePath → ∀ s, Recorded c f s → Recorded c f0 s :=
    fun he s => (Recorded.of_leaf hk.kept.noLink he).1
  have hnew : ∀ {s st w n}, AtPublish depth c base name env (World.start f0) s st w n →
      Named T c s ∧ T.files (comps st.snapshot.relPath) ∧ (∀ d ∈ st.deltas, T.files (comps d.relPath)) ∧
      st.snapshot.session = n.session ∧ st.snapshot.serial = n.serial ∧
      ∀ s', Recorded c f0 s' → ∀ x, s'.snapshot = some x →
        life.age x.session < life.age n.session ∨ (x.session = n.session ∧ x.serial < n.serial) := by
    intro s st w n h1
    obtain ⟨s0, n0, hrd, hof⟩ := readyAt hl hc hk.kept hr.good h1
    obtain ⟨v, hv⟩ := hrd.same
    obtain ⟨g1, g2⟩ := staged_named h1.staged ((hr.has _ _ hof).limited hrd.step.limited)
    refine ⟨(hrd.inUse.named hk.named).congr ?_ ?_ ?_, g1, g2, h1.staged.snapSession,
      h1.staged.snapSerial, fun s' hs' x hx => hrd.step.later_version ?_⟩
    · rw [hv]
    · rw [hv]
    · rw [hv]
    · rw [hv, ← hrd.inUse.recorded hs']
      exact hx
  refine ⟨run_kept hl ho hk.kept hr.good f hf,
    run_good (planOf_sound hT hl) hl ho hsym hk.kept hr hk.plan f hf, fun s hs => ?_, fun s x hs hx => ?_⟩
  · rcases (run_records hl hc f hf).2 with ⟨g1, _⟩ | ⟨s1, st, w, n, t, k1, _, k3⟩
    · exact hk.named s (old g1 s hs)
    · rcases k3 with k3 | ⟨s2, k, t', b1, b2⟩
      · exact hk.named s (old k3 s hs)
      · obtain ⟨a1, a2, a3, _⟩ := hnew k1
        rw [recorded_take b2 hs]
        exact (b1.named a1 a2 a3).congr rfl rfl rfl
  · rcases (run_records hl hc f hf).2 with ⟨g1, g2⟩ | ⟨s1, st, w, n, t, k1, k2, k3⟩
    · obtain ⟨n, t, h1, h2⟩ := hk.ahead s x (old g1 s hs) hx
      exact ⟨n, t, g2.trans h1, h2⟩
    · obtain ⟨_, _, _, a4, a5, a6⟩ := hnew k1
      refine ⟨_, t, k2, ?_⟩
      show life.age x.session < life.age st.snapshot.session ∨
        (x.session = st.snapshot.session ∧ x.serial ≤ st.snapshot.serial)
      rcases k3 with k3 | ⟨s2, k, t', b1, b2⟩
      · rw [a4, a5]
        rcases a6 s (old k3 s hs) x hx with h | ⟨h, h'⟩
        · exact Or.inl h
        · exact Or.inr ⟨h, Nat.le_of_lt h'⟩
      · rw [recorded_take b2 hs] at hx
        rw [show s2.persisted.snapshot = s2.snapshot from rfl, b1.snapshot] at hx
        cases hx
        exact Or.inr ⟨rfl, Nat.le_refl _⟩

theorem Untouched.pristine {f : FS} (h : Untouched c f) : Pristine c name f := by
  have hrrdp := h.empty c.rrdpDir (by unfold Config.places; simp)
  have hstag := h.empty c.stagingDir (by unfold Config.places; simp)
  have hst := h.empty c.rrdpStatePath (by unfold Config.places; simp)
  refine ⟨h.wf, hst _ (List.prefix_refl _), ?_, fun q hq => ?_⟩
  · unfold FS.leaf
    rw [hrrdp (c.notifPath name) (List.prefix_append _ _)]
  · unfold FS.link?
    rw [hstag q hq]

theorem Steady.start {f : FS} (hl : Layout c base name) (h : Untouched c f) :
    Steady life T c base name p f := by
  have hp : Pristine c name f := h.pristine
  have hr : ∀ s, ¬ Recorded c f s := by
    rintro s ⟨b, h1, _⟩
    unfold FS.read FS.resolve at h1
    rw [hp.noState] at h1
    cases h1
  exact ⟨Kept.start hp, h.good hl, fun s hs => (hr s hs).elim, fun s x hs _ => (hr s hs).elim⟩

theorem TidyLifetime.steady {f : FS} (hT : T.Tidy name)
    (hl : Layout c base name) (ho : c.rsyncEnabled = true → CleanObjects c.rsyncIncludeHost)
    (hsym : c.rsyncEnabled = true → c.rsyncUseSymlinks = true)
    (h : TidyLifetime life T c base name p f) : Steady life T c base name p f := by
  unfold TidyLifetime at h
  induction h with
  | start h => exact Steady.start hl h
  | run _ h1 h2 ih => exact run_steady hT hl ho hsym ih h1 _ h2

end

end KSync
