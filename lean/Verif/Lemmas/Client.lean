import Verif.Lemmas.LifetimeRun
import Verif.Lemmas.StateHistory

/-! # Files that somebody relies on stay for the cleanup time -/

set_option linter.unusedSectionVars false
set_option linter.unusedVariables false

namespace KSync

variable [Ext]

/-- The state describes what is published at `q`, or wants it removed. -/
def RrdpState.Knows (c : Config) (s : RrdpState) (q : Path) : Prop :=
  s.Refers c q ∨ ∃ e ∈ s.deprecated, e.path = q

/-- The files `W` (relative path and hash) are in place, and whatever of them the recorded state wants
removed was scheduled at `t0` or later.  If `K`, that state knows all of them. -/
structure Relied (life : SourceLife) (c : Config) (name : Str) (t0 : Time) (W : Str → Hash → Prop)
    (K : Prop) (f : FS) : Prop where
  wf : f.WF
  noLink : f.link? c.rrdpStatePath = none
  files : ∀ rel k, W rel k → FileHas f (c.pubPath rel) k
  later : ∀ rel k, W rel k → ∀ s, Recorded c f s → ∀ e ∈ s.deprecated, e.path = c.pubPath rel →
    t0 ≤ e.since
  there : K → f.leaf c.rrdpStatePath ≠ none
  known : K → ∀ rel k, W rel k → ∀ s, Recorded c f s → s.Knows c (c.pubPath rel)

section
variable {life : SourceLife} {c : Config} {base name : Str} {p p' : Progress} {t0 : Time}
  {W : Str → Hash → Prop} {K : Prop}

theorem Relied.transfer {f f' : FS} (h : Relied life c name t0 W K f) (hw : f'.WF)
    (hs : f'.leaf c.rrdpStatePath = f.leaf c.rrdpStatePath)
    (hf : ∀ rel k, W rel k → FileHas f (c.pubPath rel) k → FileHas f' (c.pubPath rel) k) :
    Relied life c name t0 W K f' :=
  ⟨hw, by rw [FS.link?_of_leaf hs]; exact h.noLink, fun rel k hW => hf rel k hW (h.files rel k hW),
    fun rel k hW s hr => h.later rel k hW s ((Recorded.of_leaf h.noLink hs).1 hr),
    fun hK => by rw [hs]; exact h.there hK,
    fun hK rel k hW s hr => h.known hK rel k hW s ((Recorded.of_leaf h.noLink hs).1 hr)⟩

/-- A change that spares the state and all below the RRDP directory that could be relied upon. -/
theorem Relied.change {S : Path → Prop} {f f' : FS} (h : Relied life c name t0 W K f)
    (hch : Change S f f') (h1 : ¬ S c.rrdpStatePath) (h2 : ∀ rel k, W rel k → ¬ S (c.pubPath rel)) :
    Relied life c name t0 W K f' :=
  h.transfer (hch h.wf).1 ((hch h.wf).2 _ h1)
    (fun rel k hW hf => hf.of_leaf ((hch h.wf).2 _ (h2 rel k hW)))

namespace Ready

variable {depth : Nat} {env : Env} {f0 : FS} {s0 s : RrdpState} {n0 n : Notif} {st : StagedChanges}
  {w : World}

/-- What the state in use wants removed is in the state recorded. -/
theorem relied_entry (h : Ready life depth c base name p p' env f0 s0 s n0 n st w)
    (hR : Relied life c name t0 W K f0) {rel : Str} {k : Hash} (hW : W rel k) {d : DeprecatedFile}
    (hd : d ∈ s.deprecated) (hp : d.path = c.pubPath rel) : t0 ≤ d.since := by
  have hr := h.held (f := f0) rfl (Or.inr (fun he => by rw [he] at hd; cases hd))
  exact hR.later rel k hW s0 hr d (by rw [h.deprecated]; exact hd) hp

theorem exists_of_leaf {f : FS} {q : Path} (hl : f.link? q = none) (h : f.leaf q ≠ none) :
    ¬ f.exists? q = false := by
  unfold FS.leaf at h
  unfold FS.link? at hl
  unfold FS.exists? FS.resolve
  match hg : f.get q with
  | none => rw [hg] at h; exact absurd rfl h
  | some .dir => rw [hg] at h; exact absurd rfl h
  | some (.link t) => rw [hg] at hl; cases hl
  | some (.file b t) => simp

/-- What is relied upon is known to the state in use. -/
theorem relied_known (h : Ready life depth c base name p p' env f0 s0 s n0 n st w)
    (hR : Relied life c name t0 W K f0) (hK : K) {rel : Str} {k : Hash} (hW : W rel k) :
    s.Knows c (c.pubPath rel) := by
  obtain ⟨v, rfl⟩ := h.same
  rcases h.inUse with h1 | ⟨h1, _⟩
  · exact hR.known hK rel k hW s0 h1
  · exact absurd h1 (exists_of_leaf hR.noLink (hR.there hK))

/-- ... and hence not staged. -/
theorem relied_not_staged (h : Ready life depth c base name p p' env f0 s0 s n0 n st w)
    (hR : Relied life c name t0 W K f0) (hK : K) {rel : Str} {k : Hash} (hW : W rel k)
    {r : Str × Hash} (hr : r ∈ st.refs) : c.pubPath rel ≠ c.pubPath r.1 := by
  intro he
  have h1 := h.relied_known hR hK hW
  rw [he] at h1
  rcases h1 with h1 | ⟨e, h1, h2⟩
  · exact (h.step.fresh r hr).1 h1
  · exact (h.step.fresh r hr).2 e h1 h2

/-- What is known stays known until it has been removed. -/
theorem knows_next (h : Ready life depth c base name p p' env f0 s0 s n0 n st w) {w1 w2 w3 : World}
    {s1 s2 : RrdpState} (e2 : s.absorb st env w1 = (.ok s1, w2)) (e3 : s1.clean c env w2 = (.ok s2, w3))
    {q : Path} (hq : s.Knows c q)
    (hlater : ∀ e ∈ s1.deprecated, e.path = q → env.clock w2.tick < e.since + c.cleanupAfter) :
    s2.Knows c q := by
  obtain ⟨_, _, kept, gone, new, hb⟩ := absorb_ok e2
  obtain ⟨now, _, rfl, _, _, rfl, _⟩ := clean_ok e3
  have hs := h.step.proper.sane
  have hold : (∃ e ∈ s1.deprecated, e.path = q) →
      RrdpState.Knows c { s1 with deprecated := (s1.deprecated.filter
        (fun d => d.since > env.clock w2.tick - c.cleanupAfter)) } q := by
    rintro ⟨e, h1, h2⟩
    refine Or.inr ⟨e, List.mem_filter.2 ⟨h1, ?_⟩, h2⟩
    have h3 := hlater e h1 h2
    exact decide_eq_true (Int.sub_right_lt_of_lt_add h3)
  have hnew : (∃ q' ∈ new.map (·.path), q' = q) → ∃ e ∈ s1.deprecated, e.path = q := by
    rintro ⟨q', h1, rfl⟩
    obtain ⟨e, h1, h2⟩ := List.mem_map.1 h1
    exact ⟨e, by rw [hb.deprecated]; exact List.mem_append_right _ h1, h2⟩
  rcases hq with (⟨x, h1, h2⟩ | ⟨d, h1, h2⟩) | ⟨e, h1, h2⟩
  · refine hold (hnew ⟨q, ?_, rfl⟩)
    rw [hb.newPaths, List.mem_append]
    left
    unfold RrdpState.snapshotPath SourceMappings.path
    rw [h1, hs.mappings, h2]
    show _ ∈ [joinPath c.rrdpDir x.relPath]
    rw [joinPath_clean (hs.snapshot x h1).clean]
    exact List.mem_singleton.2 rfl
  · have hd := h1
    rw [hb.split, List.mem_append] at h1
    rcases h1 with h1 | h1
    · refine Or.inl (Or.inr ⟨d, ?_, h2⟩)
      show d ∈ s1.deltas
      rw [hb.deltas, (mergeDeltas_perm _ _).mem_iff]
      exact List.mem_append_left _ h1
    · refine hold (hnew ⟨q, ?_, rfl⟩)
      rw [hb.newPaths, List.mem_append]
      refine Or.inr (List.mem_map.2 ⟨d, h1, ?_⟩)
      unfold SourceMappings.path
      rw [hs.mappings, h2, joinPath_clean (hs.deltas d hd).clean]
      rfl
  · exact hold ⟨e, by rw [hb.deprecated]; exact List.mem_append_left _ h1, h2⟩

theorem publish_relied (h : Ready life depth c base name p p' env f0 s0 s n0 n st w)
    (hW : ∀ rel k, W rel k → GoodRel name rel ∧ (life.role (comps rel)).hash = k)
    (hR : Relied life c name t0 W K f0)
    (hclock : ∀ i, t0 ≤ env.clock i ∧ env.clock i < t0 + c.cleanupAfter)
    (hcop : (publish c s st env w).2.copied = w.copied ∨ K) :
    Keeps (Relied life c name t0 W K) w (publish c s st env w).2 := by
  have hgood := st_refs_good h.pub.goodSnap h.pub.goodDeltas
  have hw := moveStaged_within (c := c) h.pub.goodSnap h.pub.goodDeltas env w
  have hwf : Keeps (fun f => f.WF) w (moveStaged c st env w).2 :=
    Keeps.of_steps hw.steps (fun f f' g1 g2 => (g2 g1).1)
  have k1 : ∀ w1, ∀ r : World, Within Eff.none w1 r → Keeps (Relied life c name t0 W K) w1 r := fun w1 r hn =>
    Keeps.of_within hn (fun f f' hk hch => hk.change hch id (fun _ _ _ => id))
  have k2 : ∀ w1 s1 w2, s.absorb st env w1 = (.ok s1, w2) → w2.cur.WF → Sane c base name s1 →
      Keeps (Relied life c name t0 W K) w2 (s1.clean c env w2).2 := by
    intro w1 s1 w2 e2 a1 a2
    refine Keeps.of_within (clean_within a1) ?_
    intro f f' hk hch
    refine hk.change hch ?_ ?_
    · rintro ⟨d, b1, b2, _⟩
      obtain ⟨rel, g1, g2⟩ := a2.deprecated d b1
      exact h.layout.rrdpState.1 (by rw [← b2, g2]; exact List.prefix_append _ _)
    · rintro rel k hw' ⟨d, b1, b2, b3⟩
      have := h.relied_entry hR hw' (h.due e2 b1 b3) b2
      have h2 := (hclock w2.tick).2
      have h3 : t0 + c.cleanupAfter ≤ d.since + c.cleanupAfter := Int.add_le_add_right this _
      exact absurd h2 (Int.not_lt.2 (Int.le_trans h3 b3))
  have k3 : ∀ w3 r : World, Within (rsyncEff c) w3 r → Keeps (Relied life c name t0 W K) w3 r := fun w3 r a =>
    Keeps.of_within a (fun f f' hk hch => hk.change hch (fun hq => rrdpState_not_rsync h.layout hq.2)
      (fun rel k _ hq => h.layout.rrdp_not_rsync (List.prefix_append _ _) hq.2))
  have k4 : ∀ w4 r : World, ∀ b, Within (notifEff c name) w4 r → Steps (Announcing
      (c.rrdpDir ++ [name ++ ".tmp".toList]) (c.notifPath name) b) w4 r →
      Keeps (Relied life c name t0 W K) w4 r := by
    intro w4 r b a1 a2
    refine Keeps.of_steps (a2.and a1.steps) ?_
    rintro f f' hk ⟨⟨g3, _⟩, g5⟩
    refine hk.transfer (g5 hk.wf).1 (g3 _ ?_) (fun rel k hw' hf => hf.of_leaf (g3 _ ?_))
    · rintro (h' | h') <;> exact h.layout.rrdpState.1 (h' ▸ List.prefix_append _ _)
    · rintro (h' | h')
      · exact (hW rel k hw').1.not_tmp h'
      · exact (hW rel k hw').1.not_notif h'
  have k5 : ∀ w1 s1 w2 s2 w3 w5, s.absorb st env w1 = (.ok s1, w2) → s1.clean c env w2 = (.ok s2, w3) →
      Within (Eff.only (· = c.rrdpStatePath)) w5 (s2.persist c.rrdpStatePath env w5).2 →
      Steps (Writing c.rrdpStatePath (Ext.encState s2)) w5 (s2.persist c.rrdpStatePath env w5).2 →
      Keeps (Relied life c name t0 W K) w5 (s2.persist c.rrdpStatePath env w5).2 := by
    intro w1 s1 w2 s2 w3 w5 e2 e3 a1 a2
    refine Keeps.of_steps (a2.and a1.steps) ?_
    rintro f f' hk ⟨⟨g3, g4⟩, g5⟩
    have hfile : ∀ rel k, W rel k → FileHas f' (c.pubPath rel) k := fun rel k hw' =>
      (hk.files rel k hw').of_leaf (g3 _ (fun he => h.layout.rrdpState.1 (he ▸ List.prefix_append _ _)))
    have hent : ∀ rel k, W rel k → ∀ e ∈ s1.deprecated, e.path = c.pubPath rel → t0 ≤ e.since := by
      intro rel k hw' e he1 hp
      obtain ⟨_, _, kept, gone, new, hb⟩ := absorb_ok e2
      rw [hb.deprecated, List.mem_append] at he1
      rcases he1 with he1 | he1
      · exact h.relied_entry hR hw' he1 hp
      · obtain ⟨i, _, _, hi⟩ := hb.newSince e he1
        rw [hi]; exact (hclock i).1
    rcases g4 with g4 | ⟨m, t', g4⟩
    · exact hk.transfer (g5 hk.wf).1 g4 (fun rel k hw' _ => hfile rel k hw')
    · refine ⟨(g5 hk.wf).1, ?_, hfile, fun rel k hw' s' hr e he hp => ?_, fun _ => ?_,
        fun hK rel k hw' s' hr => ?_⟩
      · unfold FS.link?
        rw [file_of_leaf g4]
      · rw [recorded_take g4 hr] at he
        exact hent rel k hw' e ((clean_less e3).2 e he) hp
      · rw [g4]; exact nofun
      · rw [recorded_take g4 hr]
        refine h.knows_next e2 e3 (h.relied_known hR hK hw') (fun e he hp => ?_)
        exact Int.lt_of_lt_of_le (hclock _).2 (Int.add_le_add_right (hent rel k hw' e he hp) _)
  rcases hcop with hcop | hK
  · refine (publish_by (T := KeepsNC (Relied life c name t0 W K)) h.pub h.at_.wf ?_ ?_ ?_ ?_ ?_ ?_).2 hcop
    · intro _
      refine KeepsNC.of_within hw (fun hnc hRw => ?_)
      have h1 : Keeps (MovePhase c w.cur st.refs) w (moveStaged c st env w).2 := by
        have := moves_phase h.layout.rrdpStaging (fs0 := w.cur) (refs := st.refs)
          (fun r hr => (hgood r hr).clean) (l := st.refs) (fun r hr => hr) env w
        rw [moveStaged_eq, ← StagedChanges.refs_rels]
        rw [moveStaged_eq, ← StagedChanges.refs_rels] at hnc
        exact this.2 hnc
      refine ((h1.and hwf).via ⟨⟨fun r hr => Or.inl (h.staged r hr), fun q _ => Or.inl rfl⟩,
        h.only.wf⟩ ?_) hRw
      rintro f ⟨h3, h4⟩
      refine hRw.transfer h4 ?_ (fun rel k g1 g5 => ?_)
      · rcases h3.other _ rrdpState_not_staging with h6 | ⟨r, _, h6, _⟩
        · exact h6
        · exact absurd (h6 ▸ List.prefix_append _ _) h.layout.rrdpState.1
      · rcases h3.other (c.pubPath rel) (h.layout.rrdpStaging.not_both (List.prefix_append _ _)) with
          h6 | ⟨r, hr, h6, h7⟩
        · exact g5.of_leaf h6
        · have := h.step.roleHash r hr
          rw [← pubPath_inj h6, (hW rel k g1).2] at this
          rw [this]; exact h7
    · exact fun w1 _ _ hn => KeepsNC.of_within hn (fun _ => k1 _ _ hn)
    · exact fun w1 s1 w2 e1 e2 a1 a2 a3 => KeepsNC.of_within a3 (fun _ => k2 w1 s1 w2 e2 a1 a2)
    · exact fun w1 s1 w2 s2 w3 e1 e2 e3 _ _ a => KeepsNC.of_within a (fun _ => k3 _ _ a)
    · exact fun w1 s1 w2 s2 w3 w4 e1 e2 e3 e4 _ _ a1 a2 => KeepsNC.of_within a1 (fun _ => k4 _ _ _ a1 a2)
    · exact fun w1 s1 w2 s2 w3 w4 w5 e1 e2 e3 e4 e5 _ hs2 hn a1 a2 => KeepsNC.of_within a1 (fun _ =>
        k5 w1 s1 w2 s2 w3 w5 e2 e3 a1 a2)
  · refine publish_by (T := Keeps (Relied life c name t0 W K)) h.pub h.at_.wf ?_ ?_ ?_ ?_ ?_ ?_
    · intro _ hRw
      have h1 := moveStaged_frame h.layout.rrdpStaging h.pub.goodSnap h.pub.goodDeltas w.cur env w
      have hrel : ∀ q, q ∈ st.rels → ∃ r ∈ st.refs, r.1 = q := fun q hq => by
        rw [← StagedChanges.refs_rels] at hq
        obtain ⟨r, h1, h2⟩ := List.mem_map.1 hq
        exact ⟨r, h1, h2⟩
      refine ((h1.and hwf).via ⟨⟨fun q hq he => ?_, fun q _ _ => rfl⟩, h.only.wf⟩ ?_) hRw
      · obtain ⟨r, hr, rfl⟩ := hrel q hq
        obtain ⟨b, hb, _⟩ := h.staged r hr
        unfold FS.file? at hb
        rw [he] at hb
        cases hb
      rintro f ⟨h3, h4⟩
      refine hRw.transfer h4 ?_ (fun rel k g1 g5 => ?_)
      · exact h3.other _ rrdpState_not_staging (fun q _ h6 =>
          h.layout.rrdpState.1 (h6 ▸ List.prefix_append _ _))
      · refine g5.of_leaf (h3.other _ (h.layout.rrdpStaging.not_both (List.prefix_append _ _))
          (fun q hq h6 => ?_))
        obtain ⟨r, hr, rfl⟩ := hrel q hq
        exact h.relied_not_staged hR hK g1 hr h6
    · exact fun w1 _ _ hn => k1 _ _ hn
    · exact fun w1 s1 w2 e1 e2 a1 a2 a3 => k2 w1 s1 w2 e2 a1 a2
    · exact fun w1 s1 w2 s2 w3 e1 e2 e3 _ _ a => k3 _ _ a
    · exact fun w1 s1 w2 s2 w3 w4 e1 e2 e3 e4 _ _ a1 a2 => k4 _ _ _ a1 a2
    · exact fun w1 s1 w2 s2 w3 w4 w5 e1 e2 e3 e4 e5 _ hs2 hn a1 a2 => k5 w1 s1 w2 s2 w3 w5 e2 e3 a1 a2

end Ready

theorem run_relied {depth : Nat} {env : Env} {f0 : FS} (hl : Layout c base name)
    (ho : c.rsyncEnabled = true → CleanObjects c.rsyncIncludeHost)
    (hk : Kept life c base name p f0) (hr : GoodRun life c base name p p' depth env f0)
    (hW : ∀ rel k, W rel k → GoodRel name rel ∧ (life.role (comps rel)).hash = k)
    (hR : Relied life c name t0 W K f0)
    (hclock : ∀ i, t0 ≤ env.clock i ∧ env.clock i < t0 + c.cleanupAfter)
    (hcop : (process depth c env (World.start f0)).2.copied = [] ∨ K) :
    ∀ f ∈ (process depth c env (World.start f0)).2.crashPoints, Relied life c name t0 W K f := by
  have hc : RunConds c base name env f0 :=
    ⟨hl.uri, hk.wf, fun s hs => (hk.state s hs).sane, hr.source, ho⟩
  have hpre := prepare_onlyStaging (depth := depth) hc hk.links
  have h0 : OnlyStaging c f0 f0 := ⟨hk.wf, hk.links, fun _ _ => rfl⟩
  have hk' : ∀ f, OnlyStaging c f0 f → Relied life c name t0 W K f :=
    fun f hf => hR.transfer hf.wf (hf.leaf _ rrdpState_not_staging)
      (fun rel k _ h => h.of_leaf (hf.leaf _ (hl.rrdpStaging.not_both (List.prefix_append _ _))))
  rcases run_cases (depth := depth) (w := World.start f0) hc with ⟨_, h1⟩ | ⟨s, st, w, n, h1, h2⟩
  · have : (process depth c env (World.start f0)).2 = (prepare depth c env (World.start f0)).2 := by
      rw [process_eq]
      match h3 : prepare depth c env (World.start f0) with
      | (.error e, w1) => rw [M.bind_of_error h3]
      | (.ok none, w1) => rw [M.bind_of_ok h3]; rfl
      | (.ok (some (s, st)), w1) => exact (h1 _ _ _ h3).elim
    rw [this]
    exact fun f hf => hk' f (hpre.start h0 f hf)
  · obtain ⟨s0, n0, hready, _⟩ := readyAt hl hc hk hr h1
    rw [h1.prep] at hpre
    have hwc : w.copied = [] := h1.within.logs.copied.eq_of_false
    rw [h2] at hcop ⊢
    have hpub := hready.publish_relied hW hR hclock (hcop.imp (fun hcop => by rw [hcop, hwc]) id)
    have hpre' : Keeps (Relied life c name t0 W K) (World.start f0) w := Keeps.via hpre h0 hk'
    exact (Tr.trans hpre' hpub).start hR

end

end KSync
