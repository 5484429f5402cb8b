import Verif.Lemmas.RsyncLedger
import Verif.Lemmas.RsyncClient
import Verif.Lemmas.Tags
import Verif.Spec.Dated

/-! # The times in the state files are those at which the runs took place -/

set_option linter.unusedSectionVars false
set_option linter.unusedVariables false

namespace KSync

variable [Ext] {c : Config} {base name : Str} {P : Time → Prop} {A : Path → Prop} {env : Env}

/-! ## RRDP -/

/-- Removals recorded at some instant of a run were recorded before or scheduled by the clock of the run. -/
theorem run_deprecated {depth : Nat} {fs : FS} (hl : Layout c base name)
    (hc : RunConds c base name env fs) (hn : fs.link? c.rrdpStatePath = none) :
    ∀ f ∈ (process depth c env (World.start fs)).2.crashPoints, ∀ s', Recorded c f s' →
      ∀ d ∈ s'.deprecated, ∃ s, InUse c base name fs s ∧
        (d ∈ s.deprecated ∨ (s.Refers c d.path ∧ ∃ i, d.since = env.clock i)) := by
  intro f hf s' hs' d hd
  have same : f.leaf c.rrdpStatePath = fs.leaf c.rrdpStatePath → ∃ s, InUse c base name fs s ∧
      (d ∈ s.deprecated ∨ (s.Refers c d.path ∧ ∃ i, d.since = env.clock i)) := fun h =>
    ⟨s', Or.inl ((Recorded.of_leaf hn h).1 hs'), Or.inl hd⟩
  obtain ⟨_, ⟨h1, _⟩ | ⟨s, st, w, n, t, h1, _, h2 | ⟨s2, k, t', h3, h4⟩⟩⟩ := run_records hl hc f hf
  · exact same h1
  · exact same h2
  · obtain ⟨s0, n0, a1, ⟨v, rfl⟩, _⟩ := h1.origin
    rw [recorded_take h4 hs'] at hd
    exact ⟨s0, a1, h3.since d hd⟩

/-- All removals in the recorded state were scheduled at times in `P`. -/
def FileTimes (c : Config) (P : Time → Prop) (f : FS) : Prop :=
  ∀ s, Recorded c f s → ∀ d ∈ s.deprecated, P d.since

theorem FileTimes.run {depth : Nat} {fs : FS} (hl : Layout c base name)
    (hc : RunConds c base name env fs) (hn : fs.link? c.rrdpStatePath = none)
    (hp : ∀ k, P (env.clock k)) (h : FileTimes c P fs) :
    ∀ f ∈ (process depth c env (World.start fs)).2.crashPoints, FileTimes c P f := by
  intro f hf s' hs' d hd
  obtain ⟨s, h1, h2 | ⟨_, i, h2⟩⟩ := run_deprecated hl hc hn f hf s' hs' d hd
  · rcases h1 with h1 | ⟨_, rfl⟩
    · exact h s h1 d h2
    · cases h2
  · rw [h2]; exact hp i

/-! ## rsync -/

/-- All old revisions in the recorded rsync state were replaced at times in `P`. -/
structure RevisionTimes (c : Config) (P : Time → Prop) (f : FS) : Prop where
  wf : f.WF
  noLink : f.link? c.rsyncStatePath = none
  times : ∀ st, RsyncRecorded c f st → ∀ d ∈ st.old, P d.since

theorem RevisionTimes.of_leaf {f f' : FS} (h : RevisionTimes c P f) (hw : f'.WF)
    (hl : f'.leaf c.rsyncStatePath = f.leaf c.rsyncStatePath) : RevisionTimes c P f' :=
  ⟨hw, by rw [FS.link?_of_leaf hl]; exact h.noLink, fun st hst => h.times st (hst.of_leaf hl)⟩

theorem RevisionTimes.change {f f' : FS} {S : Path → Prop} (h : RevisionTimes c P f)
    (hch : Change S f f') (h2 : ¬ S c.rsyncStatePath) : RevisionTimes c P f' :=
  h.of_leaf (hch h.wf).1 ((hch h.wf).2 _ h2)

theorem RevisionTimes.run {depth : Nat} {fs : FS} (hl : Layout c base name)
    (hc : RunConds c base name env fs) (he : c.rsyncEnabled = true) (hp : ∀ k, P (env.clock k))
    (h : RevisionTimes c P fs) :
    ∀ f ∈ (process depth c env (World.start fs)).2.crashPoints, RevisionTimes c P f := by
  have ha := hl.rsyncRsyncState
  refine run_rsync_keeps hl hc he (fun f h1 h2 => h.of_leaf h1 (h2 _ (Or.inr rfl)))
    (fun f f' g1 hs hw => g1.of_leaf hw (hs.1 _ (Or.inr rfl))) ?_
  intro s x w hr
  have hlk3 : w.cur.link? c.rsyncStatePath = none := by
    rw [FS.link?_of_leaf (hr.area hl (Or.inr rfl))]; exact h.noLink
  have old1 : ∀ st' st1 w1 w3 w4, RsyncDirState.recover c env w = (.ok st', w1) →
      st'.updateCurrent x.rev env w3 = (.ok st1, w4) → ∀ d ∈ st1.old, P d.since := by
    intro st' st1 w1 w3 w4 e1 e4 d hd
    have hrec : RsyncRecorded c fs st' := (recover_ok hlk3 e1).2.of_leaf (hr.area hl (Or.inr rfl))
    obtain ⟨_, _, _, h3⟩ := updateCurrent_ok e4
    rcases h3 with ⟨_, h4⟩ | ⟨old, _, h5, _⟩
    · rw [h4] at hd
      exact h.times st' hrec d hd
    · rw [h5] at hd
      rcases List.mem_append.1 hd with hd | hd
      · exact h.times st' hrec d hd
      · rw [List.mem_singleton] at hd
        subst hd
        exact hp w3.tick
  refine updateRsync_tr (T := Keeps (RevisionTimes c P)) hr.snapshot ?_ ?_ ?_ ?_ ?_ ?_
  · exact Keeps.of_same (recover_same c env w)
  · intro st' w1 _
    exact Keeps.of_within (makeRevision_in (hc.objects he) env w1) (fun f f' g1 g2 => g1.change g2
      (fun h' => ha.1 ((List.prefix_append _ _).trans h')))
  · intro st' w1 w2 e1 _
    refine Keeps.of_within (switchTo_in (E := Eff.only (fun q => c.rsyncTmp <+: q ∨
      c.rsyncCurrent <+: q ∨ x.rev.path c <+: q ∨
      ∃ old, st'.current = some old ∧ c.rsyncUseSymlinks = false ∧ old.path c <+: q))
      (fun q h => Or.inl h) (fun q h => Or.inr (Or.inl h))
      (fun old h1 h2 q h3 => Or.inr (Or.inr (Or.inr ⟨old, h1, h2, h3⟩)))
      (fun q h => Or.inr (Or.inr (Or.inl h))) env w2) (fun f f' g1 g2 => g1.change g2 ?_)
    rintro (h | h | h | ⟨old, h1, h2, h3⟩)
    · exact ha.1 ((List.prefix_append _ _).trans h)
    · exact ha.1 ((List.prefix_append _ _).trans h)
    · exact ha.1 ((List.prefix_append _ _).trans h)
    · exact ha.1 ((List.prefix_append _ _).trans h3)
  · intro st' w1 w2 w3 _ _ _
    exact Keeps.of_same (updateCurrent_same _ _ env w3)
  · intro st' w1 w2 w3 st1 w4 e1 _ _ e4
    refine Keeps.of_within (cleanOld_within (st := st1) (c := c) (env := env) (w := w4))
      (fun f f' g1 g2 => g1.change g2 ?_)
    rintro ⟨d, hd, h5, h6⟩
    exact ha.1 ((List.prefix_append _ _).trans h6)
  · intro st' w1 w2 w3 st1 w4 st2 w5 e1 _ _ e4 e5
    have hw := writeBuf_in (E := Eff.only (· = c.rsyncStatePath)) rfl (Ext.encRsync st2) env w5
    refine Keeps.of_steps ((writeBuf_writing c.rsyncStatePath (Ext.encRsync st2) env w5).and hw.steps) ?_
    rintro f f' g1 ⟨⟨g2, g3⟩, g4⟩
    rcases g3 with g3 | ⟨k, t, g3⟩
    · exact g1.of_leaf (g4 g1.wf).1 g3
    · refine ⟨(g4 g1.wf).1, by unfold FS.link?; rw [file_of_leaf g3], fun st hst d hd => ?_⟩
      rw [recorded_rsync_take g3 hst] at hd
      exact old1 st' st1 w1 w3 w4 e1 e4 d (((cleanOld_ok e5).2.1 d).1 hd).1

/-! ## Histories -/

theorem Dated.ledger {f : FS} (h : Dated c base name P A f) :
    ∃ A', Ledger c base name A' f ∧ ∀ q, A' q → A q := by
  induction h with
  | start h _ => exact ⟨_, .start h, fun _ => id⟩
  | done _ _ h1 h2 ih => obtain ⟨A', hA, hs⟩ := ih; exact ⟨_, .done hA h1 h2, hs⟩
  | idle _ _ h1 h2 h3 ih =>
    obtain ⟨A', hA, hs⟩ := ih
    exact ⟨_, .idle hA h1 h2 (fun q hq => h3 q (Or.inl hq)) (h3 _ (Or.inr (Or.inl rfl))), hs⟩
  | cut _ _ h1 h2 ih =>
    obtain ⟨A', hA, hs⟩ := ih
    refine ⟨_, .cut hA h1 h2, fun q hq => ?_⟩
    rcases hq with hq | hq | hq
    · exact Or.inl (hs q hq)
    · exact Or.inr (Or.inl hq)
    · exact Or.inr (Or.inr (Or.inl hq))

theorem Dated.rsyncLedger {f : FS} (h : Dated c base name P A f) :
    ∃ A', RsyncLedger c base name A' f ∧ ∀ q, A' q → A q := by
  induction h with
  | start h h' => exact ⟨_, .start h h', fun _ => id⟩
  | done _ _ h1 h2 ih => obtain ⟨A', hA, hs⟩ := ih; exact ⟨_, .done hA h1 h2, hs⟩
  | idle _ _ h1 h2 h3 ih =>
    obtain ⟨A', hA, hs⟩ := ih
    exact ⟨_, .idle hA h1 h2 (fun q hq => h3 q (Or.inr (Or.inr hq))), hs⟩
  | cut _ _ h1 h2 ih =>
    obtain ⟨A', hA, hs⟩ := ih
    refine ⟨_, .cut hA h1 h2, fun q hq => ?_⟩
    rcases hq with hq | hq | hq
    · exact Or.inl (hs q hq)
    · exact Or.inr (Or.inr (Or.inr (Or.inl hq)))
    · exact Or.inr (Or.inr (Or.inr (Or.inr hq)))

theorem Dated.booked {f : FS} (hl : Layout c base name)
    (ho : c.rsyncEnabled = true → CleanObjects c.rsyncIncludeHost) (h : Dated c base name P A f) :
    Booked c base name A f := by
  obtain ⟨A', hA, hs⟩ := h.ledger
  exact (hA.booked hl ho).mono hs

theorem Dated.fileTimes {f : FS} (hl : Layout c base name)
    (ho : c.rsyncEnabled = true → CleanObjects c.rsyncIncludeHost) (h : Dated c base name P A f) :
    FileTimes c P f := by
  induction h with
  | start h _ =>
    rintro s ⟨b, h1, _⟩
    unfold FS.read FS.resolve at h1
    rw [h.pristine.noState] at h1
    cases h1
  | done h0 hp h1 h2 ih =>
    have hb := h0.booked hl ho
    exact FileTimes.run hl (hb.conds hl ho h1) hb.noLink hp ih _ (by rw [h2]; exact List.mem_cons_self)
  | idle h0 hp h1 h2 _ ih =>
    have hb := h0.booked hl ho
    exact FileTimes.run hl (hb.conds hl ho h1) hb.noLink hp ih _ h2
  | cut h0 hp h1 h2 ih =>
    have hb := h0.booked hl ho
    exact FileTimes.run hl (hb.conds hl ho h1) hb.noLink hp ih _ h2

theorem Dated.revisionTimes {f : FS} (hl : Layout c base name) (ho : CleanObjects c.rsyncIncludeHost)
    (he : c.rsyncEnabled = true) (h : Dated c base name P A f) : RevisionTimes c P f := by
  have ho' : c.rsyncEnabled = true → CleanObjects c.rsyncIncludeHost := fun _ => ho
  induction h with
  | start h h' =>
    have h0 := h' _ (Or.inr rfl)
    refine ⟨h.pristine.wf, ?_, ?_⟩
    · rw [FS.link?_eq_none]
      intro l hg
      unfold FS.leaf at h0
      rw [hg] at h0
      cases h0
    · rintro st (⟨b, h1, _⟩ | ⟨_, rfl⟩) d hd
      · unfold FS.file? at h1
        unfold FS.leaf at h0
        split at h1
        · rename_i hg
          rw [hg] at h0; cases h0
        · cases h1
      · cases hd
  | done h0 hp h1 h2 ih =>
    exact ih.run hl ((h0.booked hl ho').conds hl ho' h1) he hp _ (by rw [h2]; exact List.mem_cons_self)
  | idle h0 hp h1 h2 _ ih => exact ih.run hl ((h0.booked hl ho').conds hl ho' h1) he hp _ h2
  | cut h0 hp h1 h2 ih => exact ih.run hl ((h0.booked hl ho').conds hl ho' h1) he hp _ h2

end KSync
