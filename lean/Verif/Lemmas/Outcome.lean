import Verif.Lemmas.Moves

/-! # What a publication makes of the state a run started with -/

set_option linter.unusedSectionVars false
set_option linter.unusedSimpArgs false
set_option linter.unusedVariables false

namespace KSync

theorem due_iff {a b n : Int} : a ≤ n - b ↔ a + b ≤ n := by omega
theorem not_due_iff {a b n : Int} : a > n - b ↔ n < a + b := by omega

variable [Ext]

theorem freshState_ordered {c : Config} {base name : Str} :
    Descending ((freshState c base name).held base) := by
  unfold Descending RrdpState.held freshState; simp

theorem InUse.ordered {c : Config} {base name : Str} {fs : FS} {s : RrdpState}
    (h : InUse c base name fs s) (ho : OrderedState c base fs) : Descending (s.held base) := by
  rcases h with h | ⟨_, rfl⟩
  · exact ho s h
  · exact freshState_ordered

theorem Removable.congr {c : Config} {env : Env} {s s' : RrdpState} {q : Path}
    (h1 : s'.snapshot = s.snapshot) (h2 : s'.deltas = s.deltas) (h3 : s'.deprecated = s.deprecated)
    (h : Removable c env s q) : Removable c env s' q := by
  unfold Removable RrdpState.Refers at *
  rw [h1, h2, h3]; exact h

theorem Update.congr {base : Str} {s s' : RrdpState} {n n' : Notif}
    (h1 : s'.snapshot = s.snapshot) (h2 : s'.deltas = s.deltas)
    (h : Update base s n n') : Update base s' n n' := by
  obtain ⟨a, b, d⟩ := h
  refine ⟨a, b, ?_⟩
  unfold NewDelta SameSession RrdpState.held at *
  rw [h1, h2]; exact d

/-- The state a run started with, when it is about to publish. -/
theorem AtPublish.origin {depth : Nat} {c : Config} {base name : Str} {env : Env} {w w1 : World}
    {s : RrdpState} {st : StagedChanges} {n : Notif}
    (h : AtPublish depth c base name env w s st w1 n) :
    ∃ s0 n0, InUse c base name w.cur s0 ∧ (∃ v, s = { s0 with validator := v }) ∧
      Offers c env w.cur s0.source.etag n0 ∧ Limited c n0 n ∧
      n.deltas.Pairwise (fun a b => a.serial < b.serial) := by
  obtain ⟨s0, h1, h2, n0, h3, ds, h4, rfl⟩ := h.prepared.before
  exact ⟨s0, n0, h1, h2, h3, ⟨ds, sortVerify_limit h4, rfl⟩, (sortVerify_limit h4).ascending⟩

theorem AtPublish.update {depth : Nat} {c : Config} {base name : Str} {env : Env} {w w1 : World}
    {s : RrdpState} {st : StagedChanges} {n : Notif}
    (h : AtPublish depth c base name env w s st w1 n) (hu : NotifUri c base name)
    (ho : OrderedState c base w.cur) :
    ∃ s0 n0, InUse c base name w.cur s0 ∧ (∃ v, s = { s0 with validator := v }) ∧
      Offers c env w.cur s0.source.etag n0 ∧ Limited c n0 n ∧ NewVersion s0 n ∧
      Update base s0 n (newNotif s st) := by
  obtain ⟨s0, n0, h1, ⟨v, rfl⟩, h3, h4, h5⟩ := h.origin
  refine ⟨s0, n0, h1, ⟨v, rfl⟩, h3, h4, ?_, ?_⟩
  · exact (decide_reset h.prepared.decided).2
  · exact Update.congr (s := { s0 with validator := v }) rfl rfl
      (newNotif_update hu h.sane h.staged h5 h.prepared.decided (h1.ordered ho))

/-- All the new notification refers to is below the base. -/
theorem newNotif_base {c : Config} {base name : Str} {s : RrdpState} (hu : NotifUri c base name)
    (hs : Sane c base name s) (st : StagedChanges) :
    ∀ r ∈ (newNotif s st).refs, ∃ rel, r.1 = base ++ rel := by
  intro r hr
  unfold Notif.refs newNotif at hr
  dsimp only at hr
  rcases List.mem_cons.1 hr with rfl | hr
  · exact ⟨_, hs.uriOf hu _⟩
  · rw [List.map_map] at hr
    obtain ⟨d, _, rfl⟩ := List.mem_map.1 hr
    exact ⟨_, hs.uriOf hu _⟩

/-- Staging fails if something is outside the base. -/
theorem StagedAs.inside {base : Str} {s : RrdpState} {n : Notif} {st : StagedChanges}
    (h : StagedAs base s n st) : (∃ rel, n.snapUri = base ++ rel) ∧
    ∀ d ∈ n.deltas, s.deltaIsNew st.sessionReset d.serial = true → ∃ rel, d.uri = base ++ rel := by
  refine ⟨⟨_, h.snapUri⟩, fun d hd hn => ?_⟩
  have : d ∈ n.deltas.filter (fun d => s.deltaIsNew st.sessionReset d.serial) :=
    List.mem_filter.2 ⟨hd, hn⟩
  rw [← h.deltas] at this
  obtain ⟨x, _, rfl⟩ := List.mem_map.1 this
  exact ⟨_, rfl⟩

/-- New deltas are among the staged files. -/
theorem StagedAs.newRef {base : Str} {s : RrdpState} {n : Notif} {st : StagedChanges}
    (h : StagedAs base s n st) {d : DeltaInfo} (hd : d ∈ n.deltas)
    (hn : s.deltaIsNew st.sessionReset d.serial = true) :
    ∃ rel, d.uri = base ++ rel ∧ (rel, d.hash) ∈ st.refs := by
  have : d ∈ n.deltas.filter (fun d => s.deltaIsNew st.sessionReset d.serial) :=
    List.mem_filter.2 ⟨hd, hn⟩
  rw [← h.deltas] at this
  obtain ⟨x, hx, rfl⟩ := List.mem_map.1 this
  exact ⟨x.relPath, rfl, List.mem_cons_of_mem _ (List.mem_map.2 ⟨x, hx, rfl⟩)⟩

theorem StagedAs.snapRef {base : Str} {s : RrdpState} {n : Notif} {st : StagedChanges}
    (h : StagedAs base s n st) : (st.snapshot.relPath, n.snapHash) ∈ st.refs := by
  unfold StagedChanges.refs
  rw [h.snapHash]
  exact List.mem_cons_self ..

theorem st_refs_good {name : Str} {st : StagedChanges} (h1 : GoodRel name st.snapshot.relPath)
    (h2 : ∀ d ∈ st.deltas, GoodRel name d.relPath) : ∀ r ∈ st.refs, GoodRel name r.1 := by
  intro r hr
  rcases List.mem_cons.1 hr with rfl | hr
  · exact h1
  · obtain ⟨d, hd, rfl⟩ := List.mem_map.1 hr
    exact h2 d hd

/-- Whatever was staged is in place at the end of a successful publication, unless it was
to be removed. -/
theorem published_or {depth : Nat} {c : Config} {base name : Str} {env : Env} {w w1 w' : World}
    {s : RrdpState} {st : StagedChanges} {n : Notif} (hl : Layout c base name)
    (hc : RunConds c base name env w.cur) (h0 : No304 env)
    (ho : ∀ etag n, Offers c env w.cur etag n → OneHashPerPath base n)
    (hlk : NoLinks w.cur c.stagingDir)
    (h : AtPublish depth c base name env w s st w1 n)
    (h' : publish c s st env w1 = (.ok (), w')) :
    ∀ r ∈ st.refs, FileHas w'.cur (c.pubPath r.1) r.2 ∨ Removable c env s (c.pubPath r.1) := by
  have hst := prepare_staged hc h0 ho hlk h.prep
  obtain ⟨wa, wb, wc, s1, s2, kept, gone, new, hd⟩ := publish_done hl (h.pubPre hc) h.wf h'
  have hp := moveStaged_published (name := name) hl.rrdpStaging h.goodSnap h.goodDeltas hst hd.moved
  intro r hr
  have hg := st_refs_good h.goodSnap h.goodDeltas r hr
  rcases hd.survives_or h.sane (hg.dataPath (List.prefix_refl _)) with h1 | h1
  · exact Or.inl ((hp r hr).of_leaf h1)
  · exact Or.inr h1

/-- During a publication nothing in the RRDP directory disappears, except temporary files
and what may be removed. -/
theorem publish_removes {c : Config} {base name : Str} {s : RrdpState}
    {st : StagedChanges} {env : Env} {w : World} (hl : Layout c base name)
    (hp : PubPre c base name s st) (hw : w.cur.WF) (fs : FS) :
    Keeps (fun f => f.WF ∧ ∀ q, c.rrdpDir <+: q → q ≠ c.rrdpDir ++ [name ++ ".tmp".toList] →
        fs.leaf q ≠ none → f.leaf q = none → Removable c env s q) w
      (publish c s st env w).2 := by
  let P : FS → Prop := fun f => f.WF ∧ ∀ q, c.rrdpDir <+: q →
      q ≠ c.rrdpDir ++ [name ++ ".tmp".toList] →
      fs.leaf q ≠ none → f.leaf q = none → Removable c env s q
  have frame : ∀ {S : Path → Prop}, (∀ q, c.rrdpDir <+: q → ¬ S q) →
      ∀ f f' : FS, P f → Change S f f' → P f' := by
    rintro S hS f f' ⟨h1, h2⟩ h3
    obtain ⟨h4, h5⟩ := h3 h1
    refine ⟨h4, fun q a1 a2 a3 a4 => h2 q a1 a2 a3 ?_⟩
    rw [← h5 q (hS q a1)]; exact a4
  refine publish_by (T := Keeps P) hp hw ?_ ?_ ?_ ?_ ?_ ?_
  · intro h
    have hm := moveStaged_moveRel hl.rrdpStaging hp.goodSnap hp.goodDeltas env w
    refine Keeps.of_steps (hm.and h.steps) ?_
    rintro f f' ⟨h1, h2⟩ ⟨h3, h4⟩
    refine ⟨(h4 h1).1, fun q a1 a2 a3 a4 => h2 q a1 a2 a3 ?_⟩
    by_cases hn : f.leaf q = none
    · exact hn
    · exact absurd a4 (h3.1 h1 q a1 hn)
  · exact fun _ _ _ h => Keeps.of_within h (frame fun _ _ h => h)
  · intro w1 s1 w2 e1 e2 hw2 _ _
    obtain ⟨_, _, kept, gone, new, ha⟩ := absorb_ok e2
    refine Keeps.of_within (clean_within (env := env) hw2) ?_
    rintro f f' ⟨h1, h2⟩ h3
    obtain ⟨h4, h5⟩ := h3 h1
    refine ⟨h4, fun q a1 a2 a3 a4 => ?_⟩
    by_cases hd : ∃ d ∈ s1.deprecated, d.path = q ∧ d.since + c.cleanupAfter ≤ env.clock w2.tick
    · obtain ⟨d, b1, rfl, b3⟩ := hd
      exact removable_of hp.sane ha b1 b3
    · refine h2 q a1 a2 a3 ?_
      rw [← h5 q hd]; exact a4
  · intro _ _ _ _ _ _ _ _ _ _ h
    refine Keeps.of_within h (frame fun q hq => ?_)
    rintro ⟨_, h | h⟩
    · exact hl.rrdpRsync.not_both hq h
    · exact hl.rrdpRsyncState.1 (h ▸ hq)
  · intro _ _ _ _ _ _ _ _ _ _ _ _ h h'
    refine Keeps.of_steps (h'.and h.steps) ?_
    rintro f f' ⟨g1, g2⟩ ⟨⟨g3, g4⟩, g5⟩
    refine ⟨(g5 g1).1, fun q a1 a2 a3 a4 => ?_⟩
    by_cases hq : q = c.notifPath name
    · subst hq
      rcases g4 with g4 | ⟨t, g4⟩
      · exact g2 _ a1 a2 a3 (g4 ▸ a4)
      · rw [g4] at a4; cases a4
    · refine g2 q a1 a2 a3 ?_
      rw [← g3 q]
      · exact a4
      · rintro (h | h)
        · exact a2 h
        · exact hq h
  · intro _ _ _ _ _ _ _ _ _ _ _ _ _ _ _ h _
    refine Keeps.of_within h (frame fun q hq h => ?_)
    exact hl.rrdpState.1 (h ▸ hq)

end KSync
