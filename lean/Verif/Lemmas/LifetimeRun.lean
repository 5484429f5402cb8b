import Verif.Lemmas.Lifetime

/-! # A run keeps the invariant of an installation -/

set_option linter.unusedSectionVars false
set_option linter.unusedVariables false

namespace KSync

variable [Ext]

section
variable {life : SourceLife} {c : Config} {base name : Str} {p p' : Progress}

theorem rrdpState_not_staging : ¬ c.stagingDir <+: c.rrdpStatePath := by
  unfold Config.stagingDir Config.rrdpStatePath
  rw [List.prefix_append_right_inj]
  decide

theorem rsyncState_not_staging : ¬ c.stagingDir <+: c.rsyncStatePath := by
  unfold Config.stagingDir Config.rsyncStatePath
  rw [List.prefix_append_right_inj]
  decide

theorem GoodRel.not_notif {rel : Str} (h : GoodRel name rel) : c.pubPath rel ≠ c.notifPath name := by
  intro he
  have := h.dataPath (c := c) (List.prefix_refl _)
  rw [show c.rrdpDir ++ comps rel = c.rrdpDir ++ [name] from he] at this
  exact not_dataPath_single (Or.inl rfl) this

theorem GoodRel.not_tmp {rel : Str} (h : GoodRel name rel) :
    c.pubPath rel ≠ c.rrdpDir ++ [name ++ ".tmp".toList] := by
  intro he
  have := h.dataPath (c := c) (List.prefix_refl _)
  rw [show c.rrdpDir ++ comps rel = c.rrdpDir ++ [name ++ ".tmp".toList] from he] at this
  exact not_dataPath_single (Or.inr rfl) this

/-- Nothing but the staging area has changed. -/
structure OnlyStaging (c : Config) (f0 f : FS) : Prop where
  wf : f.WF
  links : NoLinks f c.stagingDir
  leaf : ∀ q, ¬ c.stagingDir <+: q → f.leaf q = f0.leaf q

theorem OnlyStaging.kept (hl : Layout c base name) {f0 f : FS} (h : OnlyStaging c f0 f)
    (hk : Kept life c base name p f0) : Kept life c base name p f :=
  hk.transfer h.wf h.links (h.leaf _ rrdpState_not_staging)
    (h.leaf _ (hl.rrdpStaging.not_both (List.prefix_append _ _)))
    (fun rel k _ _ _ _ hf => hf.of_leaf (h.leaf _ (hl.rrdpStaging.not_both (List.prefix_append _ _))))

/-- A change outside the RRDP directory, the staging area and the state. -/
theorem Kept.elsewhere (hl : Layout c base name) {S : Path → Prop} {f f' : FS}
    (hk : Kept life c base name p f) (h : Change S f f')
    (hS : ∀ q, S q → ¬ c.rrdpDir <+: q ∧ ¬ c.stagingDir <+: q ∧ q ≠ c.rrdpStatePath) :
    Kept life c base name p f' := by
  obtain ⟨h1, h2⟩ := Change.linkless (d := c.stagingDir) (fun q hq hs => (hS q hs).2.1 hq) h hk.wf
    hk.links
  have h3 := (h hk.wf).2
  have h4 : ∀ q, c.rrdpDir <+: q → f'.leaf q = f.leaf q := fun q hq => h3 q (fun hs => (hS q hs).1 hq)
  exact hk.transfer h1 h2 (h3 _ (fun hs => (hS _ hs).2.2 rfl)) (h4 _ (List.prefix_append _ _))
    (fun rel k _ _ _ _ hf => hf.of_leaf (h4 _ (List.prefix_append _ _)))

theorem prepare_onlyStaging {depth : Nat} {env : Env} {f0 : FS}
    (hc : RunConds c base name env f0) (hn : NoLinks f0 c.stagingDir) :
    Keeps (OnlyStaging c f0) (World.start f0) (prepare depth c env (World.start f0)).2 := by
  have h1 := prepare_keeps_linkless (depth := depth) (w := World.start f0) c.stagingDir hc
  have h2 : Keeps (fun f => f.WF ∧ ∀ q, ¬ c.stagingDir <+: q → f.leaf q = f0.leaf q) (World.start f0)
      (prepare depth c env (World.start f0)).2 := by
    refine Keeps.of_within (prepare_within (depth := depth) hc.uri hc.state hc.source) ?_
    rintro f f' ⟨g1, g2⟩ g3
    obtain ⟨g4, g5⟩ := g3 g1
    exact ⟨g4, fun q hq => (g5 q hq).trans (g2 q hq)⟩
  refine (h1.and h2).via ⟨⟨hc.wf, hn⟩, hc.wf, fun _ _ => rfl⟩ ?_
  rintro f ⟨⟨a, b⟩, _, d⟩
  exact ⟨a, b, d⟩

/-- What is known when a run of an installation is about to publish. -/
structure Ready (life : SourceLife) (depth : Nat) (c : Config) (base name : Str) (p p' : Progress)
    (env : Env) (f0 : FS) (s0 s : RrdpState) (n0 n : Notif) (st : StagedChanges) (w : World) :
    Prop where
  layout : Layout c base name
  conds : RunConds c base name env f0
  before : Kept life c base name p f0
  run : GoodRun life c base name p p' depth env f0
  at_ : AtPublish depth c base name env (World.start f0) s st w n
  inUse : InUse c base name f0 s0
  same : ∃ v, s = { s0 with validator := v }
  step : Stepping life c base name p p' s n0 n st
  only : OnlyStaging c f0 w.cur
  staged : ∀ r ∈ st.refs, FileHas w.cur (c.stagingDir ++ comps r.1) r.2

namespace Ready

variable {depth : Nat} {env : Env} {f0 : FS} {s0 s : RrdpState} {n0 n : Notif} {st : StagedChanges}
  {w : World}

theorem kept (h : Ready life depth c base name p p' env f0 s0 s n0 n st w) :
    Kept life c base name p' w.cur := h.only.kept h.layout (h.before.mono h.run.later)

theorem pub (h : Ready life depth c base name p p' env f0 s0 s n0 n st w) :
    PubPre c base name s st := h.at_.pubPre h.conds

/-- As long as the state file is as before, `s0` is what can be recorded. -/
theorem recorded (h : Ready life depth c base name p p' env f0 s0 s n0 n st w) {f : FS}
    (hf : f.leaf c.rrdpStatePath = f0.leaf c.rrdpStatePath) {s' : RrdpState} (hr : Recorded c f s') :
    s' = s0 := h.inUse.recorded ((Recorded.of_leaf h.before.noLink hf).1 hr)

theorem held (h : Ready life depth c base name p p' env f0 s0 s n0 n st w) {f : FS}
    (hf : f.leaf c.rrdpStatePath = f0.leaf c.rrdpStatePath)
    (hs : s.deltas ≠ [] ∨ s.deprecated ≠ []) : Recorded c f s0 := by
  rw [Recorded.of_leaf h.before.noLink hf]
  obtain ⟨v, hv⟩ := h.same
  rcases h.inUse with hi | ⟨_, hi⟩
  · exact hi
  · rw [hv, hi] at hs
    rcases hs with hs | hs <;> exact absurd rfl hs

theorem deprecated (h : Ready life depth c base name p p' env f0 s0 s n0 n st w) :
    s0.deprecated = s.deprecated := by
  obtain ⟨v, hv⟩ := h.same
  rw [hv]

/-- Moving by renaming. -/
theorem move_nc (h : Ready life depth c base name p p' env f0 s0 s n0 n st w) :
    KeepsNC (Kept life c base name p') w (moveStaged c st env w).2 := by
  have hw := moveStaged_within (c := c) h.pub.goodSnap h.pub.goodDeltas env w
  have hgood := st_refs_good h.pub.goodSnap h.pub.goodDeltas
  refine KeepsNC.of_within hw (fun hnc => ?_)
  have h1 : Keeps (MovePhase c w.cur st.refs) w (moveStaged c st env w).2 := by
    have := moves_phase h.layout.rrdpStaging (fs0 := w.cur) (refs := st.refs)
      (fun r hr => (hgood r hr).clean) (l := st.refs) (fun r hr => hr) env w
    rw [moveStaged_eq, ← StagedChanges.refs_rels]
    rw [moveStaged_eq, ← StagedChanges.refs_rels] at hnc
    exact this.2 hnc
  have h2 : Keeps (fun f => f.WF ∧ NoLinks f c.stagingDir) w (moveStaged c st env w).2 := by
    refine Keeps.of_steps ((moveStaged_linkless h.layout.rrdpStaging h.pub.goodSnap h.pub.goodDeltas
      env w).and hw.steps) ?_
    rintro f f' ⟨g1, g2⟩ ⟨g3, g4⟩
    exact ⟨(g4 g1).1, g3 g2⟩
  refine (h1.and h2).via ⟨⟨fun r hr => Or.inl (h.staged r hr), fun q _ => Or.inl rfl⟩, h.only.wf,
    h.only.links⟩ ?_
  rintro f ⟨h3, h4, h5⟩
  refine h.kept.transfer h4 h5 ?_ ?_ (fun rel k g1 g2 g3 g4 g5 => ?_)
  · rcases h3.other _ rrdpState_not_staging with h6 | ⟨r, _, h6, _⟩
    · exact h6
    · exact absurd (h6 ▸ List.prefix_append _ _) h.layout.rrdpState.1
  · rcases h3.other (c.notifPath name) (h.layout.rrdpStaging.not_both (List.prefix_append _ _)) with
      h6 | ⟨r, hr, h6, _⟩
    · exact h6
    · exact absurd h6.symm (hgood r hr).not_notif
  · rcases h3.other (c.pubPath rel) (h.layout.rrdpStaging.not_both (List.prefix_append _ _)) with
      h6 | ⟨r, hr, h6, h7⟩
    · exact g5.of_leaf h6
    · have := h.step.roleHash r hr
      rw [← pubPath_inj h6, g2] at this
      rw [this]; exact h7

/-- Moving in any way, if notification and state were in step. -/
theorem move_step (h : Ready life depth c base name p p' env f0 s0 s n0 n st w)
    (hi : InStep c base name f0) :
    Keeps (Kept life c base name p') w (moveStaged c st env w).2 := by
  have hw := moveStaged_within (c := c) h.pub.goodSnap h.pub.goodDeltas env w
  have hgood := st_refs_good h.pub.goodSnap h.pub.goodDeltas
  have hrel : ∀ q, q ∈ st.rels → ∃ r ∈ st.refs, r.1 = q := fun q hq => by
    rw [← StagedChanges.refs_rels] at hq
    obtain ⟨r, h1, h2⟩ := List.mem_map.1 hq
    exact ⟨r, h1, h2⟩
  have hst : w.cur.leaf c.rrdpStatePath = f0.leaf c.rrdpStatePath :=
    h.only.leaf _ rrdpState_not_staging
  have hnt : w.cur.leaf (c.notifPath name) = f0.leaf (c.notifPath name) :=
    h.only.leaf _ (h.layout.rrdpStaging.not_both (List.prefix_append _ _))
  have hi' : InStep c base name w.cur := by
    unfold InStep
    rw [hnt]
    refine hi.imp id ?_
    rintro ⟨s', n', t, a1, a2, a3⟩
    exact ⟨s', n', t, (Recorded.of_leaf h.before.noLink hst).2 a1, a2, a3⟩
  have h1 := moveStaged_frame h.layout.rrdpStaging h.pub.goodSnap h.pub.goodDeltas w.cur env w
  have h2 : Keeps (fun f => f.WF ∧ NoLinks f c.stagingDir) w (moveStaged c st env w).2 := by
    refine Keeps.of_steps ((moveStaged_linkless h.layout.rrdpStaging h.pub.goodSnap h.pub.goodDeltas
      env w).and hw.steps) ?_
    rintro f f' ⟨g1, g2⟩ ⟨g3, g4⟩
    exact ⟨(g4 g1).1, g3 g2⟩
  refine (h1.and h2).via ⟨⟨fun q hq he => ?_, fun q _ _ => rfl⟩, h.only.wf, h.only.links⟩ ?_
  · obtain ⟨r, hr, rfl⟩ := hrel q hq
    obtain ⟨b, hb, _⟩ := h.staged r hr
    unfold FS.file? at hb
    rw [he] at hb
    cases hb
  rintro f ⟨h3, h4, h5⟩
  refine h.kept.transfer h4 h5 ?_ ?_ (fun rel k g1 g2 g3 g4 g5 => ?_)
  · exact h3.other _ rrdpState_not_staging (fun q _ h6 =>
      h.layout.rrdpState.1 (h6 ▸ List.prefix_append _ _))
  · refine h3.other _ (h.layout.rrdpStaging.not_both (List.prefix_append _ _)) (fun q hq h6 => ?_)
    obtain ⟨r, hr, rfl⟩ := hrel q hq
    exact (hgood r hr).not_notif h6.symm
  · obtain ⟨s', a1, a2⟩ := g4 hi'
    have := h.recorded hst a1
    subst this
    refine g5.of_leaf (h3.other _ (h.layout.rrdpStaging.not_both (List.prefix_append _ _))
      (fun q hq h6 => ?_))
    obtain ⟨r, hr, rfl⟩ := hrel q hq
    obtain ⟨v, hv⟩ := h.same
    have hh : HeldFile s rel k := by rw [hv]; exact a2
    exact (h.step.fresh r hr).1 (by
      have := hh.refers (c := c)
      rw [show c.pubPath rel = c.pubPath r.1 from h6] at this
      exact this)

/-- What has been removed: only what the state had marked for removal. -/
theorem due (h : Ready life depth c base name p p' env f0 s0 s n0 n st w) {w1 w2 : World}
    {s1 : RrdpState} (e2 : s.absorb st env w1 = (.ok s1, w2)) {d : DeprecatedFile}
    (hd : d ∈ s1.deprecated) (ht : d.since + c.cleanupAfter ≤ env.clock w2.tick) :
    d ∈ s.deprecated := by
  obtain ⟨_, _, kept, gone, new, hb⟩ := absorb_ok e2
  rw [hb.deprecated, List.mem_append] at hd
  rcases hd with hd | hd
  · exact hd
  · obtain ⟨k, _, _, hk⟩ := hb.newSince d hd
    have := h.run.brisk k w2.tick
    rw [hk] at ht
    exact absurd this (Int.not_lt.2 ht)

/-- Before the rsync part, the state file is as it was. -/
theorem stateLeaf (h : Ready life depth c base name p p' env f0 s0 s n0 n st w) {w1 w2 : World}
    {s1 : RrdpState} (e1 : moveStaged c st env w = (.ok (), w1))
    (e2 : s.absorb st env w1 = (.ok s1, w2)) :
    w2.cur.leaf c.rrdpStatePath = f0.leaf c.rrdpStatePath := by
  have hm := moveStaged_within (c := c) h.pub.goodSnap h.pub.goodDeltas env w
  rw [e1] at hm
  rw [(absorb_ok e2).1.1, hm.frame h.at_.wf]
  · exact h.only.leaf _ rrdpState_not_staging
  · rintro (h' | h')
    · exact rrdpState_not_staging h'
    · exact h.layout.rrdpState.1 h'.below

theorem clean_keeps (h : Ready life depth c base name p p' env f0 s0 s n0 n st w) {w1 w2 : World}
    {s1 : RrdpState} (e1 : moveStaged c st env w = (.ok (), w1))
    (e2 : s.absorb st env w1 = (.ok s1, w2)) (hw2 : w2.cur.WF) (hs1 : Sane c base name s1) :
    Keeps (Kept life c base name p') w2 (s1.clean c env w2).2 := by
  intro hk
  have hsl := h.stateLeaf e1 e2
  let Q : FS → Prop := fun f => Kept life c base name p' f ∧
    f.leaf c.rrdpStatePath = f0.leaf c.rrdpStatePath
  have hpath : ∀ q, (∃ d ∈ s1.deprecated, d.path = q ∧
      d.since + c.cleanupAfter ≤ env.clock w2.tick) → DataPath c name q ∧
      ∃ d ∈ s.deprecated, d.path = q := by
    rintro q ⟨d, h1, rfl, h3⟩
    obtain ⟨rel, g1, g2⟩ := hs1.deprecated d h1
    refine ⟨?_, d, h.due e2 h1 h3, rfl⟩
    rw [g2]
    exact g1.dataPath (List.prefix_refl _)
  have : Keeps Q w2 (s1.clean c env w2).2 := by
    refine Keeps.of_within (clean_within hw2) ?_
    rintro f f' ⟨g1, g2⟩ g3
    obtain ⟨g4, g5⟩ := Change.linkless (d := c.stagingDir) (fun q hq hs =>
      h.layout.rrdpStaging.not_both (hpath q hs).1.below hq) g3 g1.wf g1.links
    have g6 := (g3 g1.wf).2
    have g7 : f'.leaf c.rrdpStatePath = f.leaf c.rrdpStatePath :=
      g6 _ (fun hs => h.layout.rrdpState.1 (hpath _ hs).1.below)
    refine ⟨g1.transfer g4 g5 g7 ?_ (fun rel k a1 a2 a3 a4 a5 => ?_), g7.trans g2⟩
    · exact g6 _ (fun hs => not_dataPath_single (Or.inl rfl) (hpath _ hs).1)
    · refine a5.of_leaf (g6 _ (fun hs => ?_))
      obtain ⟨d, b1, b2⟩ := (hpath _ hs).2
      have hr := h.held g2 (Or.inr (fun he => by rw [he] at b1; cases b1))
      exact a3 s0 hr d (by rw [h.deprecated]; exact b1) b2
  obtain ⟨a, b⟩ := this ⟨hk, hsl⟩
  exact ⟨a.1, fun f hf => (b f hf).imp id And.left⟩

theorem rsync_keeps (h : Ready life depth c base name p p' env f0 s0 s n0 n st w) {w3 : World}
    {w' : World} (hr : Within (rsyncEff c) w3 w') : Keeps (Kept life c base name p') w3 w' := by
  refine Keeps.of_within hr (fun f f' hk hch => hk.elsewhere h.layout hch ?_)
  rintro q ⟨_, hq | rfl⟩
  · exact ⟨fun h' => h.layout.rrdpRsync.not_both h' hq, fun h' => h.layout.rsyncStaging.not_both hq h',
      fun h' => h.layout.rsyncState.1 (h' ▸ hq)⟩
  · refine ⟨h.layout.rrdpRsyncState.1, rsyncState_not_staging, ?_⟩
    unfold Config.rsyncStatePath Config.rrdpStatePath
    intro h'
    have := List.append_cancel_left h'
    revert this
    decide

/-- Just before the notification is written, all that it refers to is there. -/
theorem backed (h : Ready life depth c base name p p' env f0 s0 s n0 n st w)
    {w1 w2 w3 w4 : World} {s1 s2 : RrdpState}
    (e1 : moveStaged c st env w = (.ok (), w1)) (e2 : s.absorb st env w1 = (.ok s1, w2))
    (e3 : s1.clean c env w2 = (.ok s2, w3)) (e4 : rsyncPart c s2 env w3 = (.ok (), w4))
    (hw2 : w2.cur.WF) (hw3 : w3.cur.WF) (hs1 : Sane c base name s1)
    (hk : Kept life c base name p' w4.cur) :
    Backed life c base name p' w4.cur (newNotif s st) ∧
      w4.cur.leaf c.rrdpStatePath = f0.leaf c.rrdpStatePath := by
  have hgood := st_refs_good h.pub.goodSnap h.pub.goodDeltas
  have hr := rsyncPart_within (s := s2) h.pub.objects env w3
  rw [e4] at hr
  have hcl := clean_within (s := s1) (c := c) (env := env) hw2
  rw [e3] at hcl
  have hst4 : w4.cur.leaf c.rrdpStatePath = f0.leaf c.rrdpStatePath := by
    rw [hr.frame hw3 _ (fun hq => rrdpState_not_rsync h.layout hq.2)]
    exact (before_rsync h.conds h.at_ e1 e2 e3).2 _ rrdpState_not_staging h.layout.rrdpState.1
  have hrec : ∀ s', Recorded c w4.cur s' → s'.deprecated = s.deprecated := fun s' hs' => by
    rw [h.recorded hst4 hs']; exact h.deprecated
  have hmoved := moveStaged_published h.layout.rrdpStaging h.pub.goodSnap h.pub.goodDeltas h.staged e1
  obtain ⟨hsame, _, kept, gone, new, hb⟩ := absorb_ok e2
  have hstaged : ∀ r ∈ st.refs, GoodRel name r.1 ∧ (life.role (comps r.1)).hash = r.2 ∧
      FileHas w4.cur (c.pubPath r.1) r.2 ∧ Spared c w4.cur r.1 := by
    intro r hrr
    refine ⟨hgood r hrr, h.step.roleHash r hrr, ?_, fun s' hs' e he => ?_⟩
    · refine (hmoved r hrr).of_leaf ?_
      rw [hr.frame hw3 (c.pubPath r.1)
          (fun hq => h.layout.rrdp_not_rsync (List.prefix_append _ _) hq.2),
        hcl.frame hw2 (c.pubPath r.1) ?_, hsame.1]
      rintro ⟨d, a1, a2, a3⟩
      exact (h.step.fresh r hrr).2 d (h.due e2 a1 a3) a2
    · rw [hrec s' hs'] at he
      exact (h.step.fresh r hrr).2 e he
  have hd := describes_of h.conds.uri h.pub.sane e2 e3
  obtain ⟨l, hl⟩ := clean_state e3
  refine ⟨⟨?_, fun r hr' => ?_⟩, hst4⟩
  · have := h.step.bounded
    unfold newNotif
    dsimp only
    rw [h.step.staged.snapSession, h.step.staged.snapSerial]
    exact this
  · obtain ⟨rel, h1, h2⟩ := hd.heldFile hr'
    refine ⟨rel, h1, ?_⟩
    have hcase : (∃ r' ∈ st.refs, r'.1 = rel ∧ r'.2 = r.2) ∨ ∃ d ∈ kept, d.relPath = rel ∧ d.hash = r.2 := by
      rcases h2 with ⟨x, g1, g2, g3⟩ | ⟨d, g1, g2, g3⟩
      · rw [hl] at g1
        have : s1.snapshot = some x := g1
        rw [hb.snapshot] at this
        cases this
        exact Or.inl ⟨_, List.mem_cons_self .., g2, g3⟩
      · rw [hl] at g1
        have : d ∈ s1.deltas := g1
        rw [hb.deltas, (mergeDeltas_perm _ _).mem_iff, List.mem_append] at this
        rcases this with g | g
        · exact Or.inr ⟨d, g, g2, g3⟩
        · exact Or.inl ⟨_, List.mem_cons_of_mem _ (List.mem_map.2 ⟨d, g, rfl⟩), g2, g3⟩
    rcases hcase with ⟨r', g1, rfl, g3⟩ | ⟨d, g1, g2, g3⟩
    · rw [← g3]; exact hstaged r' g1
    · have hds : d ∈ s.deltas := by rw [hb.split]; exact List.mem_append_left _ g1
      have hrec0 := h.held hst4 (Or.inl (fun he => by rw [he] at hds; cases hds))
      have hh : HeldFile s rel r.2 := Or.inr ⟨d, hds, g2, g3⟩
      obtain ⟨k1, k2, k3⟩ := h.step.proper.heldFile hh
      refine ⟨k1, k2, hk.files s0 hrec0 rel r.2 ?_, fun s' hs' e he => ?_⟩
      · obtain ⟨v, hv⟩ := h.same
        rw [hv] at hh; exact hh
      · rw [hrec s' hs'] at he
        exact k3 e he

theorem announce_keeps (h : Ready life depth c base name p p' env f0 s0 s n0 n st w)
    {w4 w5 : World} (hb : Kept life c base name p' w4.cur → Backed life c base name p' w4.cur (newNotif s st))
    (hw : Within (notifEff c name) w4 w5)
    (ha : Steps (Announcing (c.rrdpDir ++ [name ++ ".tmp".toList]) (c.notifPath name)
      (Ext.writeNotif (newNotif s st))) w4 w5) : Keeps (Kept life c base name p') w4 w5 := by
  intro hk
  have : Keeps (fun f => Kept life c base name p' f ∧ Backed life c base name p' f (newNotif s st))
      w4 w5 := by
    refine Keeps.of_steps (ha.and hw.steps) ?_
    rintro f f' ⟨g1, g2⟩ ⟨⟨g3, g4⟩, g5⟩
    have nb : ∀ q, (q = c.rrdpDir ++ [name ++ ".tmp".toList] ∨ q = c.notifPath name) →
        c.rrdpDir <+: q := by
      rintro q (rfl | rfl) <;> exact List.prefix_append _ _
    have hwf := (g5 g1.wf).1
    have hlk : NoLinks f' c.stagingDir := fun q hq => by
      rw [FS.link?_of_leaf (g3 q (fun h' => h.layout.rrdpStaging.not_both (nb q h') hq))]
      exact g1.links q hq
    have hst : f'.leaf c.rrdpStatePath = f.leaf c.rrdpStatePath :=
      g3 _ (fun h' => h.layout.rrdpState.1 (nb _ h'))
    have hfile : ∀ rel k, GoodRel name rel → FileHas f (c.pubPath rel) k →
        FileHas f' (c.pubPath rel) k := fun rel k a1 a2 => a2.of_leaf (g3 _ (by
      rintro (h' | h')
      · exact a1.not_tmp h'
      · exact a1.not_notif h'))
    have hrec : ∀ s, Recorded c f' s ↔ Recorded c f s := fun s => Recorded.of_leaf g1.noLink hst
    have hbk : Backed life c base name p' f' (newNotif s st) :=
      g2.transfer (fun s => (hrec s).1) (fun rel k a1 _ _ _ a5 => hfile rel k a1 a5)
    refine ⟨?_, hbk⟩
    rcases g4 with g4 | ⟨t, g4⟩
    · exact g1.transfer hwf hlk hst g4 (fun rel k a1 _ _ _ a5 => hfile rel k a1 a5)
    · refine ⟨hwf, hlk, by rw [FS.link?_of_leaf hst]; exact g1.noLink,
        fun s hs => g1.state s ((hrec s).1 hs), fun s hs rel k hh => ?_, Or.inr ⟨_, t, g4, hbk⟩⟩
      have hs' := (hrec s).1 hs
      exact hfile rel k ((g1.state s hs').heldFile hh).1 (g1.files s hs' rel k hh)
  obtain ⟨a, b⟩ := this ⟨hk, hb hk⟩
  exact ⟨a.1, fun f hf => (b f hf).imp id And.left⟩

theorem persist_keeps (h : Ready life depth c base name p p' env f0 s0 s n0 n st w)
    {w5 w6 : World} {s2 : RrdpState} (hd : Describes base s2 (newNotif s st))
    (hp2 : Proper life c base name p' s2)
    (hn : ∃ t, w5.cur.get (c.notifPath name) = some (.file (Ext.writeNotif (newNotif s st)) t))
    (hw : Within (Eff.only (· = c.rrdpStatePath)) w5 w6)
    (ha : Steps (Writing c.rrdpStatePath (Ext.encState s2)) w5 w6) :
    Keeps (Kept life c base name p') w5 w6 := by
  intro hk
  obtain ⟨t, hn⟩ := hn
  have hnl : w5.cur.leaf (c.notifPath name) = some (.file (Ext.writeNotif (newNotif s st)) t) := by
    unfold FS.leaf; rw [hn]
  have hb5 : Backed life c base name p' w5.cur (newNotif s st) := by
    rcases hk.notif with h1 | ⟨n', t', h1, h2⟩
    · rw [hnl] at h1; cases h1
    · rw [hnl] at h1
      injection h1 with h1
      injection h1 with h1 _
      rw [writeNotif_inj h1]; exact h2
  let Q : FS → Prop := fun f => f.WF ∧ (∀ q, q ≠ c.rrdpStatePath → f.leaf q = w5.cur.leaf q) ∧
    (f.leaf c.rrdpStatePath = w5.cur.leaf c.rrdpStatePath ∨
      ∃ k t, f.leaf c.rrdpStatePath = some (.file ((Ext.encState s2).take k) t))
  have hQ : Keeps Q w5 w6 := by
    refine Keeps.of_steps (ha.and hw.steps) ?_
    rintro f f' ⟨g1, g2, g3⟩ ⟨⟨g4, g5⟩, g6⟩
    refine ⟨(g6 g1).1, fun q hq => (g4 q hq).trans (g2 q hq), ?_⟩
    rcases g5 with g5 | g5
    · rw [g5]; exact g3
    · exact Or.inr g5
  refine (hQ.via ⟨hk.wf, fun _ _ => rfl, Or.inl rfl⟩ ?_) hk
  rintro f ⟨h1, h2, h3⟩
  have hlk : NoLinks f c.stagingDir := fun q hq => by
    rw [FS.link?_of_leaf (h2 q (fun e => rrdpState_not_staging (e ▸ hq)))]
    exact hk.links q hq
  have hne : ∀ q, c.rrdpDir <+: q → q ≠ c.rrdpStatePath := fun q hq e => h.layout.rrdpState.1 (e ▸ hq)
  have hnotif := h2 (c.notifPath name) (hne _ (List.prefix_append _ _))
  have hfile : ∀ rel k, FileHas w5.cur (c.pubPath rel) k → FileHas f (c.pubPath rel) k :=
    fun rel k a => a.of_leaf (h2 _ (hne _ (List.prefix_append _ _)))
  rcases h3 with h3 | ⟨k, t', h3⟩
  · exact hk.transfer h1 hlk h3 hnotif (fun rel k _ _ _ _ a => hfile rel k a)
  · have hrec : ∀ s', Recorded c f s' → s' = s2.persisted := by
      rintro s' ⟨b, b1, b2⟩
      unfold FS.read FS.resolve at b1
      rw [file_of_leaf h3] at b1
      dsimp only at b1
      injection b1 with b1
      rw [← b1] at b2
      by_cases hk' : k < (Ext.encState s2).length
      · rw [Ext.dec_torn s2 k hk'] at b2; cases b2
      · rw [List.take_of_length_le (by omega), Ext.dec_enc] at b2
        cases b2; rfl
    have hheld : ∀ rel k, HeldFile s2 rel k → FileHas f (c.pubPath rel) k := by
      intro rel k hh
      obtain ⟨rel', a1, _, _, a4, _⟩ := hb5.refs _ (hd.heldRef hh)
      have := List.append_cancel_left a1
      subst this
      exact hfile _ _ a4
    refine ⟨h1, hlk, ?_, fun s' hs' => ?_, fun s' hs' rel k hh => ?_, Or.inr ⟨_, t, hnotif.trans hnl, ?_⟩⟩
    · unfold FS.link?
      rw [file_of_leaf h3]
    · rw [hrec s' hs']; exact hp2.persisted
    · rw [hrec s' hs'] at hh; exact hheld rel k hh
    · refine ⟨hb5.version, fun r hr => ?_⟩
      obtain ⟨rel, a1, a2, a3, a4, _⟩ := hb5.refs r hr
      refine ⟨rel, a1, a2, a3, hfile _ _ a4, fun s' hs' e he => ?_⟩
      rw [hrec s' hs'] at he
      obtain ⟨rel', c1, c2⟩ := hd.heldFile hr
      have := List.append_cancel_left (c1.symm.trans a1)
      subst this
      exact (hp2.heldFile c2).2.2 e he

/-- The state after the run. -/
theorem next_proper (h : Ready life depth c base name p p' env f0 s0 s n0 n st w)
    {w1 w2 w3 : World} {s1 s2 : RrdpState}
    (e2 : s.absorb st env w1 = (.ok s1, w2)) (e3 : s1.clean c env w2 = (.ok s2, w3))
    (hs2 : Sane c base name s2) : Proper life c base name p' s2 := by
  obtain ⟨_, _, kept, gone, new, hb⟩ := absorb_ok e2
  obtain ⟨now, w', _, _, _, hl, _⟩ := clean_ok e3
  refine h.step.next hb hl (fun e he => (List.mem_filter.1 he).1) hs2 ?_
  have hd := describes_of h.conds.uri h.pub.sane e2 e3
  rw [← hd.deltas]
  exact (newNotif_update h.conds.uri h.pub.sane h.step.staged h.step.asc h.at_.prepared.decided
    h.step.proper.order).order

theorem publish_kept (h : Ready life depth c base name p p' env f0 s0 s n0 n st w)
    (hm : (publish c s st env w).2.copied = w.copied ∨ InStep c base name f0) :
    Keeps (Kept life c base name p') w (publish c s st env w).2 := by
  have hw2 : ∀ w1 w2 s1, moveStaged c st env w = (.ok (), w1) → s.absorb st env w1 = (.ok s1, w2) →
      w2.cur.WF := fun w1 w2 s1 e1 e2 => by
    have hmw := moveStaged_within (c := c) h.pub.goodSnap h.pub.goodDeltas env w
    rw [e1] at hmw
    rw [(absorb_ok e2).1.1]; exact hmw.wf h.at_.wf
  have k5 : ∀ w1 s1 w2 s2 w3 w4, moveStaged c st env w = (.ok (), w1) →
      s.absorb st env w1 = (.ok s1, w2) → s1.clean c env w2 = (.ok s2, w3) →
      rsyncPart c s2 env w3 = (.ok (), w4) → Kept life c base name p' w4.cur →
      Backed life c base name p' w4.cur (newNotif s st) := by
    intro w1 s1 w2 s2 w3 w4 e1 e2 e3 e4 hk
    exact (h.backed e1 e2 e3 e4 (hw2 _ _ _ e1 e2) (before_rsync h.conds h.at_ e1 e2 e3).1
      (absorb_sane e2 h.pub.sane h.pub.goodSnap h.pub.goodDeltas) hk).1
  rcases hm with hm | hm
  · refine (publish_by (T := KeepsNC (Kept life c base name p')) h.pub h.at_.wf ?_ ?_ ?_ ?_ ?_ ?_).2 hm
    · exact fun _ => h.move_nc
    · exact fun w1 _ _ hn => KeepsNC.of_within hn (fun _ => Keeps.of_within hn
        (fun f f' hk hch => hk.elsewhere h.layout hch (fun q hq => hq.elim)))
    · exact fun w1 s1 w2 e1 e2 a1 a2 a3 => KeepsNC.of_within a3 (fun _ => h.clean_keeps e1 e2 a1 a2)
    · exact fun w1 s1 w2 s2 w3 e1 e2 e3 _ _ a => KeepsNC.of_within a (fun _ => h.rsync_keeps a)
    · exact fun w1 s1 w2 s2 w3 w4 e1 e2 e3 e4 _ _ a1 a2 => KeepsNC.of_within a1 (fun _ =>
        h.announce_keeps (k5 w1 s1 w2 s2 w3 w4 e1 e2 e3 e4) a1 a2)
    · exact fun w1 s1 w2 s2 w3 w4 w5 e1 e2 e3 e4 e5 _ hs2 hn a1 a2 => KeepsNC.of_within a1 (fun _ =>
        h.persist_keeps (describes_of h.conds.uri h.pub.sane e2 e3) (h.next_proper e2 e3 hs2) hn a1 a2)
  · refine publish_by (T := Keeps (Kept life c base name p')) h.pub h.at_.wf ?_ ?_ ?_ ?_ ?_ ?_
    · exact fun _ => h.move_step hm
    · exact fun w1 _ _ hn => Keeps.of_within hn
        (fun f f' hk hch => hk.elsewhere h.layout hch (fun q hq => hq.elim))
    · exact fun w1 s1 w2 e1 e2 a1 a2 a3 => h.clean_keeps e1 e2 a1 a2
    · exact fun w1 s1 w2 s2 w3 e1 e2 e3 _ _ a => h.rsync_keeps a
    · exact fun w1 s1 w2 s2 w3 w4 e1 e2 e3 e4 _ _ a1 a2 =>
        h.announce_keeps (k5 w1 s1 w2 s2 w3 w4 e1 e2 e3 e4) a1 a2
    · exact fun w1 s1 w2 s2 w3 w4 w5 e1 e2 e3 e4 e5 _ hs2 hn a1 a2 =>
        h.persist_keeps (describes_of h.conds.uri h.pub.sane e2 e3) (h.next_proper e2 e3 hs2) hn a1 a2

end Ready

/-- What is known when the run is about to publish. -/
theorem readyAt {depth : Nat} {env : Env} {f0 : FS} {s : RrdpState} {st : StagedChanges} {w : World}
    {n : Notif} (hl : Layout c base name) (hc : RunConds c base name env f0)
    (hk : Kept life c base name p f0) (hr : GoodRun life c base name p p' depth env f0)
    (h1 : AtPublish depth c base name env (World.start f0) s st w n) :
    ∃ s0 n0, Ready life depth c base name p p' env f0 s0 s n0 n st w ∧
      Offers c env f0 s0.source.etag n0 := by
  obtain ⟨s0, n0, a1, a2, a3, a4, a5⟩ := h1.origin
  have hpre := prepare_onlyStaging (depth := depth) hc hk.links
  have hprep := h1.prep
  rw [hprep] at hpre
  have honly := (hpre ⟨hk.wf, hk.links, fun _ _ => rfl⟩).1
  have hprop : Proper life c base name p s := by
    obtain ⟨v, rfl⟩ := a2
    refine Proper.withValidator ?_ v
    rcases a1 with a1 | ⟨_, rfl⟩
    · exact hk.state s0 a1
    · exact freshState_proper life p
  obtain ⟨d1, d2⟩ := decide_reset h1.prepared.decided
  have hst : Stepping life c base name p p' s n0 n st :=
    ⟨hprop, h1.staged, a4, a5, d1, d2, (hr.lists _ _ a3).limited a4, hr.notBefore _ _ a3,
      hr.notAfter _ _ a3, hr.later, fun h0 => by
        obtain ⟨v, rfl⟩ := a2
        rcases a1 with a1 | ⟨_, rfl⟩
        · exact hr.limit h0 s0 a1
        · rfl⟩
  exact ⟨s0, n0, ⟨hl, hc, hk, hr, h1, a1, a2, hst, honly, prepare_staged hc hr.no304
    (fun etag n hn => (hr.lists _ _ hn).oneHash) hk.links hprep⟩, a3⟩

theorem run_kept {depth : Nat} {env : Env} {f0 : FS} (hl : Layout c base name)
    (ho : c.rsyncEnabled = true → CleanObjects c.rsyncIncludeHost)
    (hk : Kept life c base name p f0) (hr : GoodRun life c base name p p' depth env f0) :
    ∀ f ∈ (process depth c env (World.start f0)).2.crashPoints, Kept life c base name p' f := by
  have hc : RunConds c base name env f0 :=
    ⟨hl.uri, hk.wf, fun s hs => (hk.state s hs).sane, hr.source, ho⟩
  have hpre := prepare_onlyStaging (depth := depth) hc hk.links
  have h0 : OnlyStaging c f0 f0 := ⟨hk.wf, hk.links, fun _ _ => rfl⟩
  have hk' : ∀ f, OnlyStaging c f0 f → Kept life c base name p' f :=
    fun f hf => hf.kept hl (hk.mono hr.later)
  rcases run_cases (depth := depth) (w := World.start f0) hc with ⟨_, h1⟩ | ⟨s, st, w, n, h1, h2⟩
  · have : (process depth c env (World.start f0)).2 = (prepare depth c env (World.start f0)).2 := by
      rw [process_eq]
      match h3 : prepare depth c env (World.start f0) with
      | (.error e, w1) => rw [M.bind_of_error h3]
      | (.ok none, w1) => rw [M.bind_of_ok h3]; rfl
      | (.ok (some (s, st)), w1) => exact (h1 _ _ _ h3).elim
    rw [this]
    exact fun f hf => hk' f (hpre.start h0 f hf)
  · obtain ⟨s0, n0, hready, _⟩ := readyAt hl hc hk hr h1
    rw [h1.prep] at hpre
    have hcop : w.copied = [] := h1.within.logs.copied.eq_of_false
    rw [h2]
    have hpub := hready.publish_kept (by
      have := hr.moves
      rw [h2] at this
      rw [hcop]; exact this)
    have hpre' : Keeps (Kept life c base name p') (World.start f0) w :=
      Keeps.via hpre h0 hk'
    exact (Tr.trans hpre' hpub).start (hk.mono hr.later)

theorem Lifetime.kept (hl : Layout c base name)
    (ho : c.rsyncEnabled = true → CleanObjects c.rsyncIncludeHost) {f : FS}
    (h : Lifetime life c base name p f) : Kept life c base name p f := by
  unfold Lifetime at h
  induction h with
  | start h => exact Kept.start h
  | run _ h1 h2 ih => exact run_kept hl ho ih h1 _ h2

end

end KSync
