import Verif.Spec.Ledger
import Verif.Lemmas.StateHistory
import Verif.Lemmas.Outcome
import Verif.Lemmas.MoveCrash

/-! # Accounting for the files in the RRDP directory (C62) -/

set_option linter.unusedSectionVars false
set_option linter.unusedVariables false

namespace KSync

variable [Ext]

/-- Like `InUse`, without looking at directories. -/
def Holds (c : Config) (base name : Str) (f : FS) (s : RrdpState) : Prop :=
  Recorded c f s ∨ (f.leaf c.rrdpStatePath = none ∧ s = freshState c base name)

/-- The file at `q` is known in state `s`, or one of `A`. -/
def Known (c : Config) (name : Str) (A : Path → Prop) (s : RrdpState) (q : Path) : Prop :=
  q = c.notifPath name ∨ s.Refers c q ∨ (∃ d ∈ s.deprecated, d.path = q) ∨ A q

/-- What is true along a history. -/
structure Booked (c : Config) (base name : Str) (A : Path → Prop) (f : FS) : Prop where
  wf : f.WF
  staging : NoLinks f c.stagingDir
  rrdp : NoLinks f c.rrdpDir
  noLink : f.link? c.rrdpStatePath = none
  state : SaneState c base name f
  books : ∀ s, Holds c base name f s → ∀ q, c.rrdpDir <+: q → f.leaf q ≠ none → Known c name A s q

theorem InUse.holds {c : Config} {base name : Str} {f : FS} {s : RrdpState}
    (hl : f.link? c.rrdpStatePath = none) (h : InUse c base name f s) : Holds c base name f s := by
  rcases h with h | ⟨h, rfl⟩
  · exact Or.inl h
  · right
    refine ⟨?_, rfl⟩
    unfold FS.exists? at h
    unfold FS.leaf
    unfold FS.link? at hl
    match hg : f.get c.rrdpStatePath with
    | none => rfl
    | some .dir => rfl
    | some (.file b t) => simp [FS.resolve, hg] at h
    | some (.link t) => rw [hg] at hl; cases hl

theorem Holds.of_leaf {c : Config} {base name : Str} {f f' : FS} {s : RrdpState}
    (hl : f.link? c.rrdpStatePath = none) (he : f'.leaf c.rrdpStatePath = f.leaf c.rrdpStatePath)
    (h : Holds c base name f' s) : Holds c base name f s := by
  rcases h with h | ⟨h, rfl⟩
  · exact Or.inl ((Recorded.of_leaf hl he).1 h)
  · exact Or.inr ⟨he ▸ h, rfl⟩

theorem Booked.start {c : Config} {base name : Str} {f : FS} (h : Unused c name f) :
    Booked c base name (fun _ => False) f := by
  refine ⟨h.pristine.wf, h.pristine.noLinks, fun q hq => ?_, ?_, ?_, ?_⟩
  · rw [FS.link?_eq_none]
    intro t ht
    have := h.empty q hq
    unfold FS.leaf at this
    rw [ht] at this
    cases this
  · unfold FS.link?
    rw [h.pristine.noState]
  · rintro s ⟨b, h1, _⟩
    unfold FS.read FS.resolve at h1
    rw [h.pristine.noState] at h1
    cases h1
  · exact fun s _ q hq hne => absurd (h.empty q hq) hne

theorem Booked.conds {c : Config} {base name : Str} {A : Path → Prop} {f : FS} {env : Env}
    (h : Booked c base name A f) (hl : Layout c base name)
    (ho : c.rsyncEnabled = true → CleanObjects c.rsyncIncludeHost)
    (hs : SoundSource c base name env f) : RunConds c base name env f :=
  ⟨hl.uri, h.wf, h.state, hs.good, ho⟩

/-! ## The files that are moved -/

theorem AtPublish.attempted {depth : Nat} {c : Config} {base name : Str} {env : Env}
    {w w1 : World} {s : RrdpState} {st : StagedChanges} {n : Notif}
    (h : AtPublish depth c base name env w s st w1 n) {r : Str} (hr : r ∈ st.rels) :
    Attempted c base env w.cur (c.pubPath r) := by
  obtain ⟨s0, n0, _, _, h3, h4, _⟩ := h.origin
  refine ⟨_, n0, h3, ?_⟩
  unfold StagedChanges.rels at hr
  rcases List.mem_cons.1 hr with rfl | hr
  · refine ⟨(n0.snapUri, n0.snapHash), List.mem_cons_self .., st.snapshot.relPath, ?_, rfl⟩
    obtain ⟨ds, _, h5⟩ := h4
    have := h.staged.snapUri
    rw [h5] at this
    exact this
  · obtain ⟨d, hd, rfl⟩ := List.mem_map.1 hr
    have : (⟨d.serial, base ++ d.relPath, d.hash⟩ : DeltaInfo) ∈ n.deltas := by
      have := List.mem_map_of_mem (f := fun d : DeltaState =>
        (⟨d.serial, base ++ d.relPath, d.hash⟩ : DeltaInfo)) hd
      rw [h.staged.deltas] at this
      exact (List.mem_filter.1 this).1
    exact ⟨_, List.mem_cons_of_mem _ (List.mem_map.2 ⟨_, h4.mem this, rfl⟩), d.relPath, rfl, rfl⟩

/-! ## Links and temporary files -/

theorem Shrinks.linkless {f f' : FS} (h : Shrinks f f') (d : Path) : StaysLinkless d f f' :=
  fun hl q hq => h.link (hl q hq)

theorem Shrinks.leaf {f f' : FS} (h : Shrinks f f') {q : Path} (hq : f'.leaf q ≠ none) :
    f'.leaf q = f.leaf q := by
  unfold FS.leaf at *
  rcases h q with h | h
  · rw [h]
  · rw [h] at hq; exact absurd rfl hq

theorem writeNotification_linkless {s : RrdpState} {n : Nat} (d : Path) :
    Does (StaysLinkless d) (s.writeNotification n) := by
  unfold RrdpState.writeNotification
  intro env w
  refine Tr.bindAt (T := Steps _) (notifyDelay_same n env w).steps (fun _ w0 _ => ?_)
  refine Tr.bindAt (T := Steps _) ?_ (fun nt w1 _ => ?_)
  · exact Rel.lift (T := Steps _) _ env w0
  dsimp only
  generalize s.mappings.path s.source.tmpName = tmp
  generalize s.mappings.path s.source.name = final
  refine Tr.bindAt (T := Steps _) (writeBuf_linkless d tmp _ env w1) (fun _ w2 h2 => ?_)
  obtain ⟨_, ⟨t, h3⟩, _⟩ := writeBuf_ok h2
  have hend := rename_end tmp final env w2
  match hr : rename tmp final env w2 with
  | (r, w3) =>
  rw [hr] at hend
  cases hend with
  | failed e => exact .same rfl rfl
  | noop => exact .same rfl rfl
  | movedDir _ _ _ h => rw [h3] at h; cases h
  | movedFile n' h4 h5 h6 h7 h8 h9 h10 =>
    rw [h3] at h7
    cases h7
    refine .push .refl (fun hl q hq => ?_) rfl
    rw [FS.link?_eq_none]
    intro l
    by_cases he : q = final
    · subst he; rw [FS.get_set_self _ h5]; simp
    · rw [FS.get_set_ne _ _ he, FS.get_del]
      by_cases hc : q = tmp ∧ q ≠ []
      · rw [if_pos hc]; simp
      · rw [if_neg hc]; exact FS.link?_eq_none.1 (hl q hq) l

theorem writeNotification_noTmp {s : RrdpState} {d : Nat} {env : Env} {w w' : World}
    (hne : s.mappings.path s.source.tmpName ≠ s.mappings.path s.source.name)
    (h : s.writeNotification d env w = (.ok (), w')) :
    w'.cur.leaf (s.mappings.path s.source.tmpName) = none := by
  unfold RrdpState.writeNotification at h
  obtain ⟨_, w0, _, h0⟩ := M.bind_ok.1 h
  obtain ⟨n, w1, h1, h2⟩ := M.bind_ok.1 h0
  dsimp only at h2
  obtain ⟨_, w2, h3, h4⟩ := M.bind_ok.1 h2
  obtain ⟨h5, ⟨t, h6⟩, _⟩ := writeBuf_ok h3
  have hend := rename_end (s.mappings.path s.source.tmpName) (s.mappings.path s.source.name) env w2
  rw [h4] at hend
  cases hend with
  | noop h7 => exact absurd h7 hne
  | movedDir _ _ _ hd => rw [h6] at hd; cases hd
  | movedFile n' h7 h8 h9 h10 =>
    show FS.leaf ((w2.cur.del _).set _ _) _ = none
    unfold FS.leaf
    rw [FS.get_set_ne _ _ hne, FS.get_del, if_pos ⟨rfl, h5⟩]

/-! ## The publication -/

/-- What is true until the state is written: `fs` is the file system the run started with. -/
structure Front (c : Config) (name : Str) (fs : FS) (st : StagedChanges) (f : FS) : Prop where
  wf : f.WF
  staging : NoLinks f c.stagingDir
  rrdp : NoLinks f c.rrdpDir
  state : f.leaf c.rrdpStatePath = fs.leaf c.rrdpStatePath
  bound : ∀ q, c.rrdpDir <+: q → f.leaf q ≠ none → fs.leaf q ≠ none ∨ q = c.notifPath name ∨
    q = c.rrdpDir ++ [name ++ ".tmp".toList] ∨ ∃ r ∈ st.rels, q = c.pubPath r

/-- What is true from then on. -/
structure Back (c : Config) (base name : Str) (A : Path → Prop) (f : FS) : Prop where
  wf : f.WF
  staging : NoLinks f c.stagingDir
  rrdp : NoLinks f c.rrdpDir
  state : ∃ s2 k t, Sane c base name s2 ∧
    f.leaf c.rrdpStatePath = some (.file ((Ext.encState s2).take k) t) ∧
    ∀ q, c.rrdpDir <+: q → f.leaf q ≠ none → Known c name A s2 q

theorem Front.change {c : Config} {name : Str} {fs : FS} {st : StagedChanges} {S : Path → Prop}
    (h1 : ∀ q, c.stagingDir <+: q → ¬ S q) (h2 : ∀ q, c.rrdpDir <+: q → ¬ S q)
    (h3 : ¬ S c.rrdpStatePath) (f f' : FS) (h : Front c name fs st f) (hc : Change S f f') :
    Front c name fs st f' := by
  obtain ⟨g1, g2⟩ := hc h.wf
  refine ⟨g1, (hc.linkless h1 h.wf h.staging).2, (hc.linkless h2 h.wf h.rrdp).2,
    (g2 _ h3).trans h.state, fun q hq hne => h.bound q hq ?_⟩
  rw [← g2 q (h2 q hq)]; exact hne

/-- What was scheduled stays scheduled, or is gone. -/
theorem clean_fate {c : Config} {base name : Str} {env : Env} {w w' : World} {s1 s2 : RrdpState}
    (hs : Sane c base name s1) (hl : NoLinks w.cur c.rrdpDir)
    (h : s1.clean c env w = (.ok s2, w')) :
    ∀ d ∈ s1.deprecated, d ∈ s2.deprecated ∨ w'.cur.leaf d.path = none := by
  obtain ⟨now, w4, b1, b2, b3, b4, b5⟩ := clean_ok h
  intro d hdm
  by_cases hdue : d.since + c.cleanupAfter ≤ now
  · right
    have := cleanFiles_ok (w := w4) (fun x hx => by
      have hx' := (List.mem_filter.1 hx).1
      obtain ⟨rel, g, hp⟩ := hs.deprecated x hx'
      rw [b2.cur]
      exact hl _ (hp ▸ List.prefix_append _ _)) b5 d (List.mem_filter.2 ⟨hdm, by
        rw [decide_eq_true_eq]; exact due_iff.2 hdue⟩)
    unfold FS.leaf; rw [this]
  · left
    rw [b4]
    exact List.mem_filter.2 ⟨hdm, by
      rw [decide_eq_true_eq]; exact not_due_iff.2 (Int.not_le.1 hdue)⟩

/-- The new state accounts for what was there before and what was moved. -/
theorem known_after {c : Config} {base name : Str} {A : Path → Prop} {env : Env} {w1 w2 w3 : World}
    {s s1 s2 : RrdpState} {st : StagedChanges} {f : FS} (hs : Sane c base name s)
    (g1 : GoodRel name st.snapshot.relPath) (g2 : ∀ d ∈ st.deltas, GoodRel name d.relPath)
    (hl : NoLinks w2.cur c.rrdpDir) (e2 : s.absorb st env w1 = (.ok s1, w2))
    (e3 : s1.clean c env w2 = (.ok s2, w3)) (hf : ∀ q, DataPath c name q → f.leaf q = w3.cur.leaf q)
    {q : Path} (hne : f.leaf q ≠ none)
    (hq : Known c name A s q ∨ ∃ r ∈ st.rels, q = c.pubPath r) : Known c name A s2 q := by
  obtain ⟨_, _, kept, gone, new, hb⟩ := absorb_ok e2
  have hs1 := absorb_sane e2 hs g1 g2
  have fate : ∀ d ∈ s1.deprecated, d.path = q → ∃ d ∈ s2.deprecated, d.path = q := by
    intro d hd he
    rcases clean_fate hs1 hl e3 d hd with h | h
    · exact ⟨d, h, he⟩
    · exfalso
      apply hne
      obtain ⟨rel, g, hp⟩ := hs1.deprecated d hd
      rw [← he, hf _ (g.dataPath (hp ▸ List.prefix_refl _))]
      exact h
  have fresh : ∀ p, p ∈ new.map (·.path) → p = q → Known c name A s2 q := by
    intro p hp he
    obtain ⟨d, d1, d2⟩ := List.mem_map.1 hp
    exact Or.inr (Or.inr (Or.inl (fate d (by
      rw [hb.deprecated]; exact List.mem_append.2 (Or.inr d1)) (d2.trans he))))
  have path : ∀ {rel}, GoodRel name rel → s.mappings.path rel = c.pubPath rel := by
    intro rel g
    unfold SourceMappings.path Config.pubPath
    rw [hs.mappings, joinPath_clean g.clean]
  obtain ⟨l, hl2⟩ := clean_state e3
  rcases hq with (hq | hq | ⟨d, hd, hq⟩ | hq) | ⟨r, hr, hq⟩
  · exact Or.inl hq
  · rcases hq with ⟨x, hx, hq⟩ | ⟨d, hd, hq⟩
    · refine fresh (s.mappings.path x.relPath) ?_ ((path (hs.snapshot x hx)).trans hq.symm)
      rw [hb.newPaths]
      refine List.mem_append.2 (Or.inl ?_)
      unfold RrdpState.snapshotPath
      rw [hx]
      simp
    · rw [hb.split] at hd
      rcases List.mem_append.1 hd with hk | hk
      · refine Or.inr (Or.inl (Or.inr ⟨d, ?_, hq⟩))
        rw [hl2]
        show d ∈ s1.deltas
        rw [hb.deltas]
        exact mem_mergeDeltas.2 (Or.inl hk)
      · refine fresh (s.mappings.path d.relPath) ?_
          ((path (hs.deltas d (by rw [hb.split]; exact hd))).trans hq.symm)
        rw [hb.newPaths]
        exact List.mem_append.2 (Or.inr (List.mem_map.2 ⟨d, hk, rfl⟩))
  · exact Or.inr (Or.inr (Or.inl (fate d (by
      rw [hb.deprecated]; exact List.mem_append.2 (Or.inl hd)) hq)))
  · exact Or.inr (Or.inr (Or.inr hq))
  · refine Or.inr (Or.inl ?_)
    unfold StagedChanges.rels at hr
    rcases List.mem_cons.1 hr with rfl | hr
    · refine Or.inl ⟨st.snapshot, ?_, hq⟩
      rw [hl2]; exact hb.snapshot
    · obtain ⟨d, hd, rfl⟩ := List.mem_map.1 hr
      refine Or.inr ⟨d, ?_, hq⟩
      rw [hl2]
      show d ∈ s1.deltas
      rw [hb.deltas]
      exact mem_mergeDeltas.2 (Or.inr hd)

theorem tmp_ne_notif {c : Config} {name : Str} :
    c.rrdpDir ++ [name ++ ".tmp".toList] ≠ c.notifPath name := by
  unfold Config.notifPath
  intro he
  simp at he

/-- Where things stand when the files are about to be moved. -/
theorem AtPublish.front {depth : Nat} {c : Config} {base name : Str} {A : Path → Prop} {env : Env}
    {fs : FS} {w1 : World} {s : RrdpState} {st : StagedChanges} {n : Notif}
    (hl : Layout c base name) (hc : RunConds c base name env fs) (hb : Booked c base name A fs)
    (h : AtPublish depth c base name env (World.start fs) s st w1 n) :
    Front c name fs st w1.cur := by
  have hf := h.within.frame hc.wf
  refine ⟨h.wf, prepare_linkless (base := base) (name := name) _ hc h.prep hb.staging, ?_, ?_, ?_⟩
  · intro q hq
    rw [FS.link?_of_leaf (hf q (hl.rrdpStaging.not_both hq))]
    exact hb.rrdp q hq
  · exact hf _ rrdpState_not_staging
  · intro q hq hne
    left
    rw [hf q (hl.rrdpStaging.not_both hq)] at hne
    exact hne

/-- The instants of a publication, as far as the files in the RRDP directory go. -/
theorem publish_books {depth : Nat} {c : Config} {base name : Str} {A : Path → Prop} {env : Env}
    {fs : FS} {w1 : World} {s : RrdpState} {st : StagedChanges} {n : Notif}
    (hl : Layout c base name) (hc : RunConds c base name env fs) (hsrc : SoundSource c base name env fs)
    (hb : Booked c base name A fs)
    (h : AtPublish depth c base name env (World.start fs) s st w1 n) :
    (∀ f ∈ (publish c s st env w1).2.past, f ∈ w1.past ∨ Front c name fs st f ∨
      Back c base name A f) ∧
    (Front c name fs st (publish c s st env w1).2.cur ∨
      Back c base name A (publish c s st env w1).2.cur) ∧
    ∀ w', publish c s st env w1 = (.ok (), w') → Back c base name A w'.cur := by
  have hstart := h.front hl hc hb
  obtain ⟨s0, n0, i1, ⟨v, i2⟩, _⟩ := h.origin
  have hold : ∀ q, c.rrdpDir <+: q → fs.leaf q ≠ none → Known c name A s q := by
    intro q hq hne
    have := hb.books s0 (i1.holds hb.noLink) q hq hne
    rw [i2]; exact this
  refine publish_split (T := Keeps (Front c name fs st)) (R := fun w' =>
    (∀ f ∈ w'.past, f ∈ w1.past ∨ Front c name fs st f ∨ Back c base name A f) ∧
    (Front c name fs st w'.cur ∨ Back c base name A w'.cur) ∧
    ∀ w'', publish c s st env w1 = (.ok (), w'') → Back c base name A w''.cur)
    (h.pubPre hc) h.wf ?_ ?_ ?_ ?_ ?_ ?_ ?_
  · intro e w' he hT
    obtain ⟨t1, t2⟩ := hT hstart
    refine ⟨fun f hf => (t2 f hf).imp id Or.inl, Or.inl t1, fun w'' h'' => ?_⟩
    rw [he] at h''
    cases h''
  · -- moving
    intro hw
    have hst := prepare_staged hc hsrc.no304 hsrc.oneHash hb.staging h.prep
    have hmf : MoveFrame c fs st.rels w1.cur := by
      refine ⟨fun r hr => ?_, fun q h1 _ => (h.within.frame hc.wf) q h1⟩
      have : ∃ x, (r, x) ∈ st.refs := by
        unfold StagedChanges.rels at hr
        rcases List.mem_cons.1 hr with rfl | hr
        · exact ⟨_, List.mem_cons_self ..⟩
        · obtain ⟨d, hd, rfl⟩ := List.mem_map.1 hr
          exact ⟨_, List.mem_cons_of_mem _ (List.mem_map.2 ⟨d, hd, rfl⟩)⟩
      obtain ⟨x, hx⟩ := this
      obtain ⟨b, hb1, _⟩ := hst _ hx
      intro hd
      unfold FS.file? at hb1
      rw [hd] at hb1
      cases hb1
    have k1 := moveStaged_frame (name := name) hl.rrdpStaging h.goodSnap h.goodDeltas fs env w1
    have k2 : Keeps (fun f => f.WF ∧ NoLinks f c.stagingDir ∧ NoLinks f c.rrdpDir) w1
        (moveStaged c st env w1).2 := by
      refine Keeps.of_steps ((moveStaged_moveRel (name := name) hl.rrdpStaging h.goodSnap
        h.goodDeltas env w1).and hw.steps) ?_
      rintro f f' ⟨a1, a2, a3⟩ ⟨a4, a5⟩
      exact ⟨(a5 a1).1, a4.2 a2 a3⟩
    refine Keeps.via (k1.and k2) ⟨hmf, hstart.wf, hstart.staging, hstart.rrdp⟩ ?_
    rintro f ⟨a1, a2, a3, a4⟩
    refine ⟨a2, a3, a4, a1.other _ rrdpState_not_staging (fun r _ he => ?_), fun q hq hne => ?_⟩
    · exact hl.rrdpState.1 (he ▸ List.prefix_append _ _)
    · by_cases hr : ∃ r ∈ st.rels, q = c.pubPath r
      · exact Or.inr (Or.inr (Or.inr hr))
      · left
        rw [← a1.other q (hl.rrdpStaging.not_both hq) (fun r hr1 he => hr ⟨r, hr1, he⟩)]
        exact hne
  · exact fun _ _ _ hw => Keeps.of_within hw (Front.change (fun _ _ h => h) (fun _ _ h => h) id)
  · -- cleaning
    intro _ s1 w2 e1 e2 hw2 hs1 hw
    refine Keeps.of_steps ((clean_shrinks env w2).and hw.steps) ?_
    rintro f f' h1 ⟨h2, h3⟩
    refine ⟨(h3 h1.wf).1, h2.linkless _ h1.staging, h2.linkless _ h1.rrdp, ?_, fun q hq hne => ?_⟩
    · rw [(h3 h1.wf).2 _ (by
        rintro (hh | hh)
        · exact rrdpState_not_staging hh
        · exact hl.rrdpState.1 hh.below)]
      exact h1.state
    · refine h1.bound q hq ?_
      rw [← h2.leaf hne]; exact hne
  · -- the rsync part
    intro _ _ _ _ _ _ _ _ _ _ hw
    refine Keeps.of_within hw (Front.change (fun q hq => ?_) (fun q hq => ?_) ?_)
    · rintro ⟨_, hh | hh⟩
      · exact hl.rsyncStaging.not_both hh hq
      · exact rsyncState_not_staging (hh ▸ hq)
    · exact fun hh => hl.rrdp_not_rsync hq hh.2
    · exact fun hh => rrdpState_not_rsync hl hh.2
  · -- the notification
    intro _ _ _ s2 _ w4 _ _ _ _ _ hs2 hw hst
    refine Keeps.of_steps (((writeNotification_linkless c.stagingDir env w4).and
      (writeNotification_linkless c.rrdpDir env w4)).and (hst.and hw.steps)) ?_
    rintro f f' h1 ⟨⟨h2, h3⟩, ⟨h4, _⟩, h5⟩
    refine ⟨(h5 h1.wf).1, h2 h1.staging, h3 h1.rrdp, ?_, fun q hq hne => ?_⟩
    · rw [h4 _ (by
        rintro (hh | hh)
        · exact hl.rrdpState.1 (hh ▸ List.prefix_append _ _)
        · exact hl.rrdpState.1 (hh ▸ List.prefix_append _ _))]
      exact h1.state
    · by_cases a : q = c.rrdpDir ++ [name ++ ".tmp".toList]
      · exact Or.inr (Or.inr (Or.inl a))
      by_cases b : q = c.notifPath name
      · exact Or.inr (Or.inl b)
      refine h1.bound q hq ?_
      rw [← h4 q (by
        rintro (hh | hh)
        · exact a hh
        · exact b hh)]
      exact hne
  · -- the state
    intro wa s1 wb s2 wc wd we e1 e2 e3 e4 e5 hwf hs2 hnot hin hwr hT
    obtain ⟨t1, t2⟩ := hT hstart
    have hp := h.pubPre hc
    have hwa : wa.cur.WF := by
      have := (moveStaged_within (c := c) h.goodSnap h.goodDeltas env w1).wf h.wf
      rw [e1] at this; exact this
    obtain ⟨a1, _, kept, gone, new, ha⟩ := absorb_ok e2
    have hwb : wb.cur.WF := by rw [a1.cur]; exact hwa
    have hs1 := absorb_sane e2 h.sane h.goodSnap h.goodDeltas
    have hwc : wc.cur.WF := by
      have := (clean_dataPath hs1 env wb hwb).wf hwb
      rw [e3] at this; exact this
    have hr := rsyncPart_within (c := c) (s := s2) hp.objects env wc
    rw [e4] at hr
    have hn : Within (notifEff c name) wd (s2.writeNotification c.rrdpNotifyDelay env wd).2 :=
      writeNotification_in (fun _ => trivial) (fun q hq => by
        rw [hs2.tmpPath hp.uri] at hq; exact Or.inr hq) (fun q hq => by
        rw [hs2.notifPath hp.uri] at hq; exact Or.inl hq) env wd
    rw [e5] at hn
    have hdata : ∀ q, DataPath c name q → we.cur.leaf q = wc.cur.leaf q := by
      intro q hq
      rw [(hn.frame (hr.wf hwc)) q (by
          rintro (hh | hh)
          · exact not_dataPath_below (Or.inl rfl) hh hq
          · exact not_dataPath_below (Or.inr rfl) hh hq),
        (hr.frame hwc) q (fun hh => hl.rrdp_not_rsync hq.below hh.2)]
    have hlk : NoLinks wb.cur c.rrdpDir := by
      rw [a1.cur]
      have := moveStaged_moveRel (name := name) hl.rrdpStaging h.goodSnap h.goodDeltas env w1
      rw [e1] at this
      exact ((this.mono (fun f f' h => h.2)).ends (fun _ h1 h2 => ⟨h1, h2⟩)
        (fun _ _ _ h1 h2 a b => h2 (h1 a b).1 (h1 a b).2) hstart.staging hstart.rrdp).2
    have hknown : ∀ q, c.rrdpDir <+: q → we.cur.leaf q ≠ none → Known c name A s2 q := by
      intro q hq hne
      rcases t1.bound q hq hne with h1 | h1 | h1 | h1
      · exact known_after h.sane h.goodSnap h.goodDeltas hlk e2 e3 hdata hne (Or.inl (hold q hq h1))
      · exact Or.inl h1
      · exfalso
        apply hne
        have := writeNotification_noTmp (by
          rw [hs2.tmpPath hp.uri, hs2.notifPath hp.uri]; exact tmp_ne_notif) e5
        rw [hs2.tmpPath hp.uri] at this
        rw [h1]; exact this
      · exact known_after h.sane h.goodSnap h.goodDeltas hlk e2 e3 hdata hne (Or.inr h1)
    have back : ∀ f : FS, f.WF → (∀ q, q ≠ c.rrdpStatePath → f.leaf q = we.cur.leaf q) →
        (∃ k t, f.leaf c.rrdpStatePath = some (.file ((Ext.encState s2).take k) t)) →
        Back c base name A f := by
      rintro f b1 b2 ⟨k, t, b3⟩
      have out : ∀ q, c.rrdpDir <+: q → f.leaf q = we.cur.leaf q := fun q hq =>
        b2 q (fun he => hl.rrdpState.1 (he ▸ hq))
      refine ⟨b1, fun q hq => ?_, fun q hq => ?_, s2, k, t, hs2, b3, fun q hq hne =>
        hknown q hq (by rw [← out q hq]; exact hne)⟩
      · rw [FS.link?_of_leaf (b2 q (fun he => rrdpState_not_staging (he ▸ hq)))]
        exact t1.staging q hq
      · rw [FS.link?_of_leaf (out q hq)]
        exact t1.rrdp q hq
    have hk : Keeps (fun f => f.WF ∧ (∀ q, q ≠ c.rrdpStatePath → f.leaf q = we.cur.leaf q) ∧
        (f.leaf c.rrdpStatePath = we.cur.leaf c.rrdpStatePath ∨
          ∃ k t, f.leaf c.rrdpStatePath = some (.file ((Ext.encState s2).take k) t))) we
        (s2.persist c.rrdpStatePath env we).2 := by
      refine Keeps.of_steps (hwr.and hin.steps) ?_
      rintro f f' ⟨b1, b2, b3⟩ ⟨⟨b4, b5⟩, b6⟩
      refine ⟨(b6 b1).1, fun q hq => (b4 q hq).trans (b2 q hq), ?_⟩
      rcases b5 with b5 | b5
      · rw [b5]; exact b3
      · exact Or.inr b5
    have fb : ∀ f : FS, (f.WF ∧ (∀ q, q ≠ c.rrdpStatePath → f.leaf q = we.cur.leaf q) ∧
        (f.leaf c.rrdpStatePath = we.cur.leaf c.rrdpStatePath ∨
          ∃ k t, f.leaf c.rrdpStatePath = some (.file ((Ext.encState s2).take k) t))) →
        Front c name fs st f ∨ Back c base name A f := by
      rintro f ⟨b1, b2, b3 | b3⟩
      · left
        have all : ∀ q, f.leaf q = we.cur.leaf q := by
          intro q
          by_cases he : q = c.rrdpStatePath
          · rw [he]; exact b3
          · exact b2 q he
        refine ⟨b1, fun q hq => ?_, fun q hq => ?_, b3.trans t1.state, fun q hq hne =>
          t1.bound q hq (by rw [← all q]; exact hne)⟩
        · rw [FS.link?_of_leaf (all q)]; exact t1.staging q hq
        · rw [FS.link?_of_leaf (all q)]; exact t1.rrdp q hq
      · exact Or.inr (back f b1 b2 b3)
    obtain ⟨k1, k2⟩ := hk ⟨hwf, fun _ _ => rfl, Or.inl rfl⟩
    refine ⟨fun f hf => ?_, fb _ k1, fun w'' h'' => ?_⟩
    · rcases k2 f hf with h1 | h1
      · exact (t2 f h1).imp id Or.inl
      · exact Or.inr (fb f h1)
    · obtain ⟨wa', s1', wb', s2', wc', wd', we', e1', e2', e3', e4', e5', e6'⟩ := publish_ok h''
      rw [e1] at e1'; cases e1'
      rw [e2] at e2'; cases e2'
      rw [e3] at e3'; cases e3'
      rw [e4] at e4'; cases e4'
      rw [e5] at e5'; cases e5'
      rw [e6'] at k1
      obtain ⟨_, ⟨t, ht⟩, _⟩ := writeBuf_ok e6'
      refine back _ k1.1 k1.2.1 ⟨(Ext.encState s2).length, t, ?_⟩
      rw [List.take_length]
      unfold FS.leaf
      rw [ht]

/-! ## Runs and histories -/

theorem Known.mono {c : Config} {name : Str} {A B : Path → Prop} {s : RrdpState} {q : Path}
    (h : Known c name A s q) (hAB : A q → B q) : Known c name B s q := by
  rcases h with h | h | h | h
  · exact Or.inl h
  · exact Or.inr (Or.inl h)
  · exact Or.inr (Or.inr (Or.inl h))
  · exact Or.inr (Or.inr (Or.inr (hAB h)))

theorem Known.persisted {c : Config} {name : Str} {A : Path → Prop} {s : RrdpState} {q : Path}
    (h : Known c name A s q) : Known c name A s.persisted q := h

theorem Booked.mono {c : Config} {base name : Str} {A B : Path → Prop} {f : FS}
    (h : Booked c base name A f) (hAB : ∀ q, A q → B q) : Booked c base name B f :=
  ⟨h.wf, h.staging, h.rrdp, h.noLink, h.state, fun s hs q hq hne =>
    (h.books s hs q hq hne).mono (hAB q)⟩

theorem Back.booked {c : Config} {base name : Str} {A : Path → Prop} {f : FS}
    (h : Back c base name A f) : Booked c base name A f := by
  obtain ⟨s2, k, t, h1, h2, h3⟩ := h.state
  refine ⟨h.wf, h.staging, h.rrdp, ?_, fun s hs => ?_, fun s hs q hq hne => ?_⟩
  · unfold FS.link?
    rw [file_of_leaf h2]
  · rw [recorded_take h2 hs]
    exact h1.persisted
  · rcases hs with hs | ⟨hs, _⟩
    · rw [recorded_take h2 hs]
      exact (h3 q hq hne).persisted
    · rw [h2] at hs; cases hs

/-- As long as neither the state nor the RRDP directory changes. -/
theorem Booked.same {c : Config} {base name : Str} {A : Path → Prop} {f f' : FS}
    (h : Booked c base name A f) (h1 : f'.WF) (h2 : NoLinks f' c.stagingDir)
    (h3 : ∀ q, c.rrdpDir <+: q → f'.leaf q = f.leaf q)
    (h4 : f'.leaf c.rrdpStatePath = f.leaf c.rrdpStatePath) : Booked c base name A f' := by
  refine ⟨h1, h2, fun q hq => ?_, ?_, fun s hs => h.state s ((Recorded.of_leaf h.noLink h4).1 hs),
    fun s hs q hq hne => h.books s (hs.of_leaf h.noLink h4) q hq (by rw [← h3 q hq]; exact hne)⟩
  · rw [FS.link?_of_leaf (h3 q hq)]; exact h.rrdp q hq
  · rw [FS.link?_of_leaf h4]; exact h.noLink

theorem Front.booked {depth : Nat} {c : Config} {base name : Str} {A : Path → Prop} {env : Env}
    {fs f : FS} {w1 : World} {s : RrdpState} {st : StagedChanges} {n : Notif}
    (hb : Booked c base name A fs)
    (h : AtPublish depth c base name env (World.start fs) s st w1 n) (hf : Front c name fs st f) :
    Booked c base name (fun q => A q ∨ q = c.rrdpDir ++ [name ++ ".tmp".toList] ∨
      Attempted c base env fs q) f := by
  refine ⟨hf.wf, hf.staging, hf.rrdp, ?_, fun s hs =>
    hb.state s ((Recorded.of_leaf hb.noLink hf.state).1 hs), fun s hs q hq hne => ?_⟩
  · rw [FS.link?_of_leaf hf.state]; exact hb.noLink
  · rcases hf.bound q hq hne with h1 | h1 | h1 | ⟨r, hr, rfl⟩
    · exact (hb.books s (hs.of_leaf hb.noLink hf.state) q hq h1).mono Or.inl
    · exact Or.inl h1
    · exact Or.inr (Or.inr (Or.inr (Or.inr (Or.inl h1))))
    · exact Or.inr (Or.inr (Or.inr (Or.inr (Or.inr (h.attempted hr)))))

/-- The instants of a run that does not get to publishing. -/
theorem unpublished_linkless {depth : Nat} {c : Config} {base name : Str} {env : Env} {w : World}
    (d : Path) (hc : RunConds c base name env w.cur)
    (h : ∀ s st w1, prepare depth c env w ≠ (.ok (some (s, st)), w1)) :
    Keeps (fun f => f.WF ∧ NoLinks f d) w (process depth c env w).2 := by
  have hk := prepare_keeps_linkless (depth := depth) d hc
  rw [process_eq]
  match e : prepare depth c env w with
  | (.error x, w1) => rw [e] at hk; rw [M.bind_of_error e]; exact hk
  | (.ok none, w1) => rw [e] at hk; rw [M.bind_of_ok e]; exact hk
  | (.ok (some (s, st)), w1) => exact absurd e (h s st w1)

theorem Booked.run {depth : Nat} {c : Config} {base name : Str} {A : Path → Prop} {env : Env}
    {fs f : FS} (hl : Layout c base name)
    (ho : c.rsyncEnabled = true → CleanObjects c.rsyncIncludeHost)
    (hsrc : SoundSource c base name env fs) (hb : Booked c base name A fs)
    (hf : f ∈ (process depth c env (World.start fs)).2.crashPoints) :
    Booked c base name (fun q => A q ∨ q = c.rrdpDir ++ [name ++ ".tmp".toList] ∨
      Attempted c base env fs q) f := by
  have hc := hb.conds hl ho hsrc
  rcases run_cases (depth := depth) (w := World.start fs) hc with ⟨h1, h1'⟩ | ⟨s, st, w1, n, h1, h2⟩
  · obtain ⟨_, g2⟩ := h1.crash_frame hc.wf f hf
    obtain ⟨g3, g4⟩ := (unpublished_linkless c.stagingDir hc h1').start ⟨hb.wf, hb.staging⟩ f hf
    exact (hb.same g3 g4 (fun q hq => g2 q (hl.rrdpStaging.not_both hq))
      (g2 _ rrdpState_not_staging)).mono (fun _ => Or.inl)
  · obtain ⟨k1, k2, _⟩ := publish_books hl hc hsrc hb h1
    rw [h2] at hf
    have fin : ∀ f, Front c name fs st f ∨ Back c base name A f → Booked c base name (fun q => A q ∨
        q = c.rrdpDir ++ [name ++ ".tmp".toList] ∨ Attempted c base env fs q) f := by
      rintro f (h | h)
      · exact h.booked hb h1
      · exact h.booked.mono (fun _ => Or.inl)
    rcases List.mem_cons.1 hf with rfl | hf
    · exact fin _ k2
    · rcases k1 f hf with h3 | h3
      · have hk := prepare_keeps_linkless (depth := depth) (w := World.start fs) c.stagingDir hc
        rw [h1.prep] at hk
        have hf' : f ∈ w1.crashPoints := List.mem_cons_of_mem _ h3
        obtain ⟨g3, g4⟩ := hk.start ⟨hb.wf, hb.staging⟩ f hf'
        obtain ⟨_, g2⟩ := h1.within.crash_frame hc.wf f hf'
        exact (hb.same g3 g4 (fun q hq => g2 q (hl.rrdpStaging.not_both hq))
          (g2 _ rrdpState_not_staging)).mono (fun _ => Or.inl)
      · exact fin _ h3

theorem Booked.done {depth : Nat} {c : Config} {base name : Str} {A : Path → Prop} {env : Env}
    {fs : FS} {w : World} (hl : Layout c base name)
    (ho : c.rsyncEnabled = true → CleanObjects c.rsyncIncludeHost)
    (hsrc : SoundSource c base name env fs) (hb : Booked c base name A fs)
    (h : process depth c env (World.start fs) = (.ok (), w)) : Booked c base name A w.cur := by
  have hc := hb.conds hl ho hsrc
  rcases run_ok hc h with ⟨h1, _⟩ | ⟨s, st, w1, n, h1, h2⟩
  · rw [h1.cur]; exact hb
  · exact ((publish_books hl hc hsrc hb h1).2.2 _ h2).booked

theorem Ledger.booked {c : Config} {base name : Str} {A : Path → Prop} {f : FS}
    (hl : Layout c base name) (ho : c.rsyncEnabled = true → CleanObjects c.rsyncIncludeHost)
    (h : Ledger c base name A f) : Booked c base name A f := by
  induction h with
  | start h => exact Booked.start h
  | done _ h1 h2 ih => exact ih.done hl ho h1 h2
  | idle _ h1 h2 h3 h4 ih =>
    have := ih.run hl ho h1 h2
    exact ih.same this.wf this.staging h3 h4
  | cut _ h1 h2 ih => exact ih.run hl ho h1 h2

theorem Booked.accounted {c : Config} {base name : Str} {A : Path → Prop} {f : FS}
    (h : Booked c base name A f) : Accounted c base name A f :=
  fun s hs q hq hne => h.books s (hs.holds h.noLink) q hq hne

end KSync
