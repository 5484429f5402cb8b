import Verif.Lemmas.RsyncLedger
import Verif.Lemmas.RsyncHistory
import Verif.Lemmas.StateHistory
import Verif.Props.Rsync
import Verif.Spec.Client

/-! # A revision that somebody reads stays for the cleanup time -/

set_option linter.unusedSectionVars false
set_option linter.unusedVariables false

namespace KSync

variable [Ext]

/-- The directory of `r` is as in `g`, and if the rsync state has `r` among the old revisions, then
since `t0` or later. -/
structure Reading (c : Config) (r : RsyncRevision) (t0 : Time) (g f : FS) : Prop where
  wf : f.WF
  noLink : f.link? c.rsyncStatePath = none
  tree : ∀ q, r.path c <+: q → f.leaf q = g.leaf q
  later : ∀ st, RsyncRecorded c f st → ∀ d ∈ st.old, d.revision = r → t0 ≤ d.since

theorem Reading.of_leaf {c : Config} {r : RsyncRevision} {t0 : Time} {g f f' : FS}
    (h : Reading c r t0 g f) (hw : f'.WF) (hl : ∀ q, RsyncArea c q → f'.leaf q = f.leaf q) :
    Reading c r t0 g f' :=
  ⟨hw, by rw [FS.link?_of_leaf (hl _ (Or.inr rfl))]; exact h.noLink,
    fun q hq => (hl q (rev_below hq)).trans (h.tree q hq),
    fun st hst => h.later st (hst.of_leaf (hl _ (Or.inr rfl)))⟩

theorem Reading.change {c : Config} {r : RsyncRevision} {t0 : Time} {g f f' : FS} {S : Path → Prop}
    (h : Reading c r t0 g f) (hch : Change S f f') (h1 : ∀ q, r.path c <+: q → ¬ S q)
    (h2 : ¬ S c.rsyncStatePath) : Reading c r t0 g f' := by
  have hs := (hch h.wf).2 _ h2
  exact ⟨(hch h.wf).1, by rw [FS.link?_of_leaf hs]; exact h.noLink,
    fun q hq => ((hch h.wf).2 q (h1 q hq)).trans (h.tree q hq),
    fun st hst => h.later st (hst.of_leaf hs)⟩

theorem run_reading {depth : Nat} {c : Config} {base name : Str} {env : Env} {fs g : FS}
    {r : RsyncRevision} {t0 : Time} (hl : Layout c base name) (hc : RunConds c base name env fs)
    (he : c.rsyncEnabled = true) (hm : c.rsyncUseSymlinks = true)
    (hnew : ∀ n, Announces c base name env fs n → n.rev ≠ r)
    (hclock : ∀ i, t0 ≤ env.clock i ∧ env.clock i < t0 + c.cleanupAfter)
    (h : Reading c r t0 g fs) :
    ∀ f ∈ (process depth c env (World.start fs)).2.crashPoints, Reading c r t0 g f := by
  have ha := hl.rsyncRsyncState
  have out : ∀ q, c.rsyncDir <+: q → q ≠ c.rsyncStatePath := fun q hq e => ha.1 (e ▸ hq)
  refine run_rsync_keeps hl hc he (fun f h1 h2 => h.of_leaf h1 h2)
    (fun f f' g1 hs hw => g1.of_leaf hw hs.1) ?_
  intro s x w hr
  obtain ⟨n, ha', hv, _⟩ := hr.version
  have hne : x.rev ≠ r := by rw [hv]; exact hnew n ha'
  have hlk3 : w.cur.link? c.rsyncStatePath = none := by
    rw [FS.link?_of_leaf (hr.area hl (Or.inr rfl))]; exact h.noLink
  have rec0 : ∀ st' w1, RsyncDirState.recover c env w = (.ok st', w1) → RsyncRecorded c fs st' := by
    intro st' w1 e1
    obtain ⟨_, h1⟩ := recover_ok hlk3 e1
    exact h1.of_leaf (hr.area hl (Or.inr rfl))
  have notRev : ∀ q, r.path c <+: q → ¬ x.rev.path c <+: q :=
    fun q hq h => hne (rev_apart h hq)
  have old1 : ∀ st' st1 w1 w3 w4, RsyncDirState.recover c env w = (.ok st', w1) →
      st'.updateCurrent x.rev env w3 = (.ok st1, w4) → ∀ d ∈ st1.old, d.revision = r → t0 ≤ d.since := by
    intro st' st1 w1 w3 w4 e1 e4 d hd hdr
    have hrec := rec0 st' w1 e1
    obtain ⟨_, _, _, h3⟩ := updateCurrent_ok e4
    rcases h3 with ⟨_, h4⟩ | ⟨old, _, h5, _⟩
    · rw [h4] at hd
      exact h.later st' hrec d hd hdr
    · rw [h5] at hd
      rcases List.mem_append.1 hd with hd | hd
      · exact h.later st' hrec d hd hdr
      · rw [List.mem_singleton] at hd
        subst hd
        exact (hclock w3.tick).1
  refine updateRsync_tr (T := Keeps (Reading c r t0 g)) hr.snapshot ?_ ?_ ?_ ?_ ?_ ?_
  · exact Keeps.of_same (recover_same c env w)
  · intro st' w1 _
    exact Keeps.of_within (makeRevision_in (hc.objects he) env w1) (fun f f' g1 g2 => g1.change g2 notRev
      (fun h' => ha.1 ((List.prefix_append _ _).trans h')))
  · intro st' w1 w2 e1 _
    refine Keeps.of_within (switchTo_in (E := Eff.only (fun q => c.rsyncTmp <+: q ∨
      c.rsyncCurrent <+: q ∨ x.rev.path c <+: q ∨
      ∃ old, st'.current = some old ∧ c.rsyncUseSymlinks = false ∧ old.path c <+: q))
      (fun q h => Or.inl h) (fun q h => Or.inr (Or.inl h))
      (fun old h1 h2 q h3 => Or.inr (Or.inr (Or.inr ⟨old, h1, h2, h3⟩)))
      (fun q h => Or.inr (Or.inr (Or.inl h))) env w2) (fun f f' g1 g2 => g1.change g2 ?_ ?_)
    · rintro q hq (h | h | h | ⟨old, h1, h2, h3⟩)
      · exact rev_not_tmp hq h
      · exact rev_not_current hq h
      · exact notRev q hq h
      · rw [hm] at h2; cases h2
    · rintro (h | h | h | ⟨old, h1, h2, h3⟩)
      · exact ha.1 ((List.prefix_append _ _).trans h)
      · exact ha.1 ((List.prefix_append _ _).trans h)
      · exact ha.1 ((List.prefix_append _ _).trans h)
      · exact ha.1 ((List.prefix_append _ _).trans h3)
  · intro st' w1 w2 w3 _ _ _
    exact Keeps.of_same (updateCurrent_same _ _ env w3)
  · intro st' w1 w2 w3 st1 w4 e1 _ _ e4
    refine Keeps.of_within (cleanOld_within (st := st1) (c := c) (env := env) (w := w4))
      (fun f f' g1 g2 => g1.change g2 ?_ ?_)
    · rintro q hq ⟨d, hd, h5, h6⟩
      have := rev_apart h6 hq
      have h7 := old1 st' st1 w1 w3 w4 e1 e4 d hd this
      have h8 : t0 + c.cleanupAfter ≤ d.since + c.cleanupAfter := Int.add_le_add_right h7 _
      exact absurd (hclock w4.tick).2 (Int.not_lt.2 (Int.le_trans h8 h5))
    · rintro ⟨d, hd, h5, h6⟩
      exact ha.1 ((List.prefix_append _ _).trans h6)
  · intro st' w1 w2 w3 st1 w4 st2 w5 e1 _ _ e4 e5
    have hw := writeBuf_in (E := Eff.only (· = c.rsyncStatePath)) rfl (Ext.encRsync st2) env w5
    refine Keeps.of_steps ((writeBuf_writing c.rsyncStatePath (Ext.encRsync st2) env w5).and hw.steps) ?_
    rintro f f' g1 ⟨⟨g2, g3⟩, g4⟩
    have htree : ∀ q, r.path c <+: q → f'.leaf q = g.leaf q := fun q hq =>
      (g2 q (out q ((List.prefix_append _ _).trans hq))).trans (g1.tree q hq)
    rcases g3 with g3 | ⟨k, t, g3⟩
    · exact ⟨(g4 g1.wf).1, by rw [FS.link?_of_leaf g3]; exact g1.noLink, htree,
        fun st hst => g1.later st (hst.of_leaf g3)⟩
    · refine ⟨(g4 g1.wf).1, by unfold FS.link?; rw [file_of_leaf g3], htree, fun st hst d hd hdr => ?_⟩
      rw [recorded_rsync_take g3 hst] at hd
      exact old1 st' st1 w1 w3 w4 e1 e4 d (((cleanOld_ok e5).2.1 d).1 hd).1 hdr

/-! ## Versions do not come back -/

section
variable {life : SourceLife} {c : Config} {base name : Str} {p p' : Progress}

/-- There is an RRDP state and it is of version `r` or later. -/
structure Since (life : SourceLife) (c : Config) (r : RsyncRevision) (p : Progress) (f : FS) : Prop where
  there : f.leaf c.rrdpStatePath ≠ none
  state : ∀ s, Recorded c f s → ∃ x, s.snapshot = some x ∧
    (r.version life.age).le ((⟨x.session, x.serial⟩ : RsyncRevision).version life.age)
  reached : (r.version life.age).le p.version

theorem Since.not_again {depth : Nat} {env : Env} {fs : FS} {r : RsyncRevision}
    (h : Since life c r p fs) (hlk : fs.link? c.rrdpStatePath = none)
    (hk : Kept life c base name p fs) (hr : GoodRun life c base name p p' depth env fs) :
    ∀ n, Announces c base name env fs n → n.rev ≠ r := by
  rintro n hn rfl
  have h1 := (hr.notBefore_version hn).1
  obtain ⟨s, hi, _, hnv⟩ := hn
  rcases hi with hi | ⟨hi, _⟩
  · obtain ⟨x, hx, h2⟩ := h.state s hi
    have h3 := ((hk.state s hi).snapshot x hx).2
    have h4 : ((⟨x.session, x.serial⟩ : RsyncRevision).version life.age).le p.version := h3
    have := version_inj (life := life) (Version.le_antisymm h2 (Version.le_trans h4 h1))
    rcases hnv x hx with h5 | h5
    · exact h5 (congrArg RsyncRevision.session this).symm
    · have : n.serial = x.serial := congrArg RsyncRevision.serial this
      omega
  · refine h.there ?_
    unfold FS.exists? FS.resolve at hi
    unfold FS.link? at hlk
    unfold FS.leaf
    cases hg : fs.get c.rrdpStatePath with
    | none => rfl
    | some x =>
      rw [hg] at hi hlk
      cases x with
      | file b t => cases hi
      | dir => rfl
      | link t => cases hlk

theorem Since.run {depth : Nat} {env : Env} {fs : FS} {r : RsyncRevision} (hl : Layout c base name)
    (hc : RunConds c base name env fs) (h : Since life c r p fs)
    (hk : Kept life c base name p fs) (hr : GoodRun life c base name p p' depth env fs) :
    ∀ f ∈ (process depth c env (World.start fs)).2.crashPoints, Since life c r p' f := by
  intro f hf
  have hle := Version.le_trans h.reached hr.later.version
  have same : f.leaf c.rrdpStatePath = fs.leaf c.rrdpStatePath → Since life c r p' f := fun hs =>
    ⟨by rw [hs]; exact h.there, fun s hrs => h.state s ((Recorded.of_leaf hk.noLink hs).1 hrs), hle⟩
  obtain ⟨_, ⟨h1, _⟩ | ⟨s, st, w, n, t, h1, _, h2 | ⟨s2, k, t', h3, h4⟩⟩⟩ := run_records hl hc f hf
  · exact same h1
  · exact same h2
  · refine ⟨by rw [h4]; exact nofun, fun s' hs' => ?_, hle⟩
    rw [recorded_take h4 hs']
    refine ⟨st.snapshot, h3.snapshot, ?_⟩
    obtain ⟨s0, n0, _, _, a3, a4, _⟩ := h1.origin
    have h5 := hr.notBefore _ _ a3
    obtain ⟨ds, _, rfl⟩ := a4
    have h6 : st.snapshot.session = n0.session := h1.staged.snapSession
    have h7 : st.snapshot.serial = n0.serial := h1.staged.snapSerial
    refine Version.le_trans h.reached ?_
    unfold SourceLife.NotBefore at h5
    unfold Version.le Progress.version RsyncRevision.version
    dsimp only
    rw [h6, h7]
    omega

/-- Revision directories of an installation that starts with nothing. -/
theorem NewLifetime.kept {f : FS}
    (hl : Layout c base name) (ho : CleanObjects c.rsyncIncludeHost) (he : c.rsyncEnabled = true)
    (h : NewLifetime life c base name p f) : Kept life c base name p f ∧
      (c.rsyncUseSymlinks = true → RsyncSound c f) := by
  unfold NewLifetime at h
  induction h with
  | start h =>
    refine ⟨Kept.start h.pristine, fun hm => ?_⟩
    unfold RsyncSound
    rw [if_pos hm]
    refine RevsClear.start h.wf (fun q hq => ?_)
    have : ∀ d ∈ c.places, d <+: q → _ := fun d hd hq => h.empty d hd q hq
    unfold FS.leaf
    rcases hq with hq | rfl
    · rw [this c.rsyncDir (by simp [Config.places]) hq]
    · rw [this c.rsyncStatePath (by simp [Config.places]) (List.prefix_refl _)]
  | run _ h1 h2 ih =>
    refine ⟨run_kept hl (fun _ => ho) ih.1 h1 _ h2, fun hm => ?_⟩
    exact run_rsyncSound hl ho he (ih.1.conds hl (fun _ => ho) h1)
      ⟨h1.no304, ih.1.links, fun _ _ hn => (h1.lists _ _ hn).oneHash⟩ (ih.2 hm) _ h2

end

end KSync
