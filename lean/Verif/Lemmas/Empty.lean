import Verif.Spec.Empty
import Verif.Lemmas.Ledger
import Verif.Lemmas.RemoveUp
import Verif.Lemmas.Staging

/-! # Empty directories (C64) -/

set_option linter.unusedSectionVars false
set_option linter.unusedVariables false

namespace KSync

variable [Ext]

theorem NoEmptyDirs.mono {d : Path} {A B : Path → Prop} {f : FS} (h : NoEmptyDirs d A f)
    (hAB : ∀ q, A q → B q) : NoEmptyDirs d B f :=
  fun q h1 h2 h3 => (h q h1 h2 h3).imp id (hAB q)

theorem NoEmptyDirs.same {d : Path} {A : Path → Prop} {f f' : FS} (h : NoEmptyDirs d A f)
    (he : ∀ q, d <+: q → f'.get q = f.get q) : NoEmptyDirs d A f' := by
  intro q h1 h2 h3
  rw [he q h1] at h3
  rcases h q h1 h2 h3 with ⟨n, h4⟩ | h4
  · exact Or.inl ⟨n, by rw [he _ (h1.trans (List.prefix_append _ _))]; exact h4⟩
  · exact Or.inr h4

/-- One is on the way to the other. -/
def Near (p q : Path) : Prop := q <+: p ∨ p <+: q

/-- Directories that are not on the way to (or below) anything that changes are as empty as before. -/
theorem NoEmptyDirs.outside {d : Path} {A S R H : Path → Prop} {f f' : FS} (hw : f.WF)
    (h : NoEmptyDirs d A f) (h1 : Change S f f') (h2 : DirFrame S R f f')
    (hS : ∀ p, S p → ¬ d <+: p ∨ ∃ p0, H p0 ∧ p0 <+: p) :
    NoEmptyDirs d (fun q => A q ∨ ∃ p0, H p0 ∧ Near p0 q) f' := by
  intro q hq hne hd
  by_cases hex : ∃ p0, H p0 ∧ Near p0 q
  · exact Or.inr (Or.inr hex)
  have key : ∀ x, q <+: x → (∀ p, S p → ¬ x <+: p) := by
    intro x hqx p hp hxp
    rcases hS p hp with h3 | ⟨p0, h3, h4⟩
    · exact h3 (hq.trans (hqx.trans hxp))
    · rcases List.prefix_or_prefix_of_prefix h4 (hqx.trans hxp) with h5 | h5
      · exact hex ⟨p0, h3, Or.inr h5⟩
      · exact hex ⟨p0, h3, Or.inl h5⟩
  rcases h q hq hne ((h2.1 q (key q (List.prefix_refl _))).1 hd) with ⟨n, h3⟩ | h3
  · left
    refine ⟨n, ?_⟩
    have hx := key (q ++ [n]) (List.prefix_append _ _)
    rw [get_of_leaf_dir ((h1 hw).2 _ (fun hs => hx _ hs (List.prefix_refl _))) (h2.1 _ hx)]
    exact h3
  · exact Or.inr (Or.inl h3)

theorem NoEmptyDirs.within {d : Path} {A H : Path → Prop} {E : Eff} {w w' : World} (hw : w.cur.WF)
    (h : NoEmptyDirs d A w.cur) (hE : Within E w w')
    (hS : ∀ p, E.files p → ¬ d <+: p ∨ ∃ p0, H p0 ∧ p0 <+: p) :
    NoEmptyDirs d (fun q => A q ∨ ∃ p0, H p0 ∧ Near p0 q) w'.cur :=
  h.outside hw (hE.steps.ends (fun f hf => ⟨hf, Frame.refl _⟩) (fun a b c h1 h2 hf => by
    obtain ⟨g1, g2⟩ := h1 hf
    obtain ⟨g3, g4⟩ := h2 g1
    exact ⟨g3, g2.trans g4⟩)) (hE.dirs.ends DirFrame.refl (fun _ _ _ => DirFrame.trans)) hS

/-- Nothing near a file is an empty directory. -/
theorem nonempty_of_near {f : FS} (hw : f.WF) {p q : Path} (hp : f.get p ≠ none)
    (hp' : f.get p ≠ some .dir) (hd : f.get q = some .dir) (hn : Near p q) :
    ∃ n, f.get (q ++ [n]) ≠ none := by
  rcases hn with hn | hn
  · obtain ⟨t, rfl⟩ := hn
    match t with
    | [] => rw [List.append_nil] at hp'; exact absurd hd hp'
    | n :: t =>
      refine ⟨n, ?_⟩
      by_cases ht : t = []
      · subst ht; exact hp
      · rw [hw.above (p := q ++ [n]) (q := q ++ n :: t) ⟨t, by simp⟩ (fun he => ht (by simpa using he)) hp]
        simp
  · by_cases he : p = q
    · subst he; exact absurd hd hp'
    · rw [hw.none_below hn he hp'] at hd; cases hd

/-- If all that changed is near files, no directory was left empty. -/
theorem NoEmptyDirs.filled {d : Path} {A H : Path → Prop} {f : FS} (hw : f.WF)
    (h : NoEmptyDirs d (fun q => A q ∨ ∃ p0, H p0 ∧ Near p0 q) f)
    (hH : ∀ p, H p → f.get p ≠ none ∧ f.get p ≠ some .dir) : NoEmptyDirs d A f := by
  intro q h1 h2 h3
  rcases h q h1 h2 h3 with h4 | h4 | ⟨p, h4, h5⟩
  · exact Or.inl h4
  · exact Or.inr h4
  · exact Or.inl (nonempty_of_near hw (hH p h4).1 (hH p h4).2 h3 h5)

/-! ## Cleaning up -/

theorem Pruned.noEmpty {d p : Path} {A : Path → Prop} {f f' : FS} (hw : f'.WF)
    (h : NoEmptyDirs d A f) (h1 : Pruned p f f') (h2 : NoEmptyAbove f' p) : NoEmptyDirs d A f' := by
  intro q hq hne hd
  by_cases hqp : q <+: p
  · left
    have hq0 : q ≠ [] := by
      rintro rfl
      exact hne (List.prefix_nil.1 hq).symm
    have := h2 q hqp hq0 hd
    rw [FS.hasChild_iff] at this
    obtain ⟨x, ⟨t, rfl⟩, h4, h5⟩ := this
    match t with
    | [] => simp at h4
    | n :: t =>
      refine ⟨n, ?_⟩
      by_cases ht : t = []
      · subst ht; exact h5
      · rw [hw.above (p := q ++ [n]) (q := q ++ n :: t) ⟨t, by simp⟩ (fun he => ht (by simpa using he)) h5]
        simp
  · have hdf : f.get q = some .dir := by
      rcases h1 q with h3 | ⟨h3, _⟩
      · rw [← h3]; exact hd
      · rw [h3] at hd; cases hd
    rcases h q hq hne hdf with ⟨n, h3⟩ | h3
    · left
      refine ⟨n, ?_⟩
      rcases h1 (q ++ [n]) with h4 | ⟨_, h4, _⟩
      · rw [h4]; exact h3
      · exact absurd ((List.prefix_append _ _).trans h4) hqp
    · exact Or.inr h3

theorem cleanFile_noEmpty {d : Path} {A : Path → Prop} {x : DeprecatedFile} {env : Env} {w : World}
    (hf : NoFaults env) (hw : w.cur.WF) (h : NoEmptyDirs d A w.cur) :
    (cleanFile x env w).2.cur.WF ∧ NoEmptyDirs d A (cleanFile x env w).2.cur := by
  unfold cleanFile
  rw [getFs_bind]
  split
  · unfold removeFileAndEmptyParents
    have h1 := ((removeUp_prunes x.path.length x.path env w).crash
      (I := fun f => f.WF ∧ Pruned x.path w.cur f)
      (fun f f' hi hs => hi.2.step hi.1 hs) ⟨hw, fun r => Or.inl rfl⟩).1
    exact ⟨h1.1, h1.2.noEmpty h1.1 h (removeUp_empties hw hf (Nat.le_refl _))⟩
  · exact ⟨hw, h⟩

theorem clean_noEmpty {d : Path} {A : Path → Prop} {s s' : RrdpState} {c : Config} {env : Env}
    {w w' : World} (hf : NoFaults env) (hw : w.cur.WF) (h : NoEmptyDirs d A w.cur)
    (hc : s.clean c env w = (.ok s', w')) : w'.cur.WF ∧ NoEmptyDirs d A w'.cur := by
  unfold RrdpState.clean at hc
  obtain ⟨before, w1, h1, h2⟩ := M.bind_ok.1 hc
  have e1 : Same w w1 := by
    have := secondsAgo_same c.cleanupAfter env w
    rw [h1] at this; exact this
  obtain ⟨_, w2, h3, h4⟩ := M.bind_ok.1 h2
  rw [M.pure_ok] at h4
  obtain ⟨_, rfl⟩ := h4
  rw [← e1.cur] at hw h
  clear hc h2 h1 e1
  generalize s.deprecated.filter (fun d => decide (d.since ≤ before)) = l at h3
  induction l generalizing w1 with
  | nil => cases h3; exact ⟨hw, h⟩
  | cons x l ih =>
    rw [forEach_cons_ok] at h3
    obtain ⟨w3, h5, h6⟩ := h3
    have := cleanFile_noEmpty (x := x) hf hw h
    rw [h5] at this
    exact ih (w1 := w3) (h3 := h6) (hw := this.1) (h := this.2)

/-! ## Publications -/

theorem writeNotification_tmpGone {s : RrdpState} {d : Nat} {env : Env} {w w' : World}
    (hne : s.mappings.path s.source.tmpName ≠ s.mappings.path s.source.name)
    (h : s.writeNotification d env w = (.ok (), w')) :
    w'.cur.get (s.mappings.path s.source.tmpName) = none := by
  unfold RrdpState.writeNotification at h
  obtain ⟨_, w0, _, h0⟩ := M.bind_ok.1 h
  obtain ⟨n, w1, h1, h2⟩ := M.bind_ok.1 h0
  dsimp only at h2
  obtain ⟨_, w2, h3, h4⟩ := M.bind_ok.1 h2
  obtain ⟨h5, ⟨t, h6⟩, _⟩ := writeBuf_ok h3
  have hend := rename_end (s.mappings.path s.source.tmpName) (s.mappings.path s.source.name) env w2
  rw [h4] at hend
  cases hend with
  | noop h7 => exact absurd h7 hne
  | movedDir _ _ _ hd => rw [h6] at hd; cases hd
  | movedFile n' h7 h8 h9 h10 =>
    show FS.get ((w2.cur.del _).set _ _) _ = none
    rw [FS.get_set_ne _ _ hne, FS.get_del, if_pos ⟨rfl, h5⟩]

/-- What moving the staged files may do, exactly. -/
def movesEff (c : Config) (st : StagedChanges) : Eff :=
  ⟨fun q => c.stagingDir <+: q ∨ ∃ r ∈ st.rels, c.pubPath r <+: q, fun _ => False, fun _ => False,
    fun _ => True, fun _ => False, fun _ => False⟩

theorem moveStaged_movesEff {c : Config} {name : Str} {st : StagedChanges}
    (h1 : GoodRel name st.snapshot.relPath) (h2 : ∀ d ∈ st.deltas, GoodRel name d.relPath) :
    Rel (Within (movesEff c st)) (moveStaged c st) := by
  refine moveStaged_in (fun rel hrel => ?_)
  have hg : GoodRel name rel := by
    rcases hrel with rfl | hrel
    · exact h1
    · obtain ⟨d, hd, rfl⟩ := List.mem_map.1 hrel
      exact h2 d hd
  have hm : rel ∈ st.rels := by
    unfold StagedChanges.rels
    rcases hrel with rfl | hrel
    · exact List.mem_cons_self ..
    · exact List.mem_cons_of_mem _ hrel
  rw [joinPath_clean hg.clean, joinPath_clean hg.clean]
  refine ⟨?_, trivial⟩
  rintro q (hq | hq)
  · exact Or.inl ((List.prefix_append _ _).trans hq)
  · exact Or.inr ⟨rel, hm, hq⟩

theorem publish_noEmpty {c : Config} {base name : Str} {s : RrdpState} {st : StagedChanges}
    {env : Env} {w w' : World} {A : Path → Prop} (hf : NoFaults env) (hl : Layout c base name)
    (hp : PubPre c base name s st) (hw : w.cur.WF)
    (hst : ∀ r ∈ st.refs, FileHas w.cur (c.stagingDir ++ comps r.1) r.2)
    (h : NoEmptyDirs c.rrdpDir A w.cur) (hok : publish c s st env w = (.ok (), w')) :
    NoEmptyDirs c.rrdpDir A w'.cur := by
  obtain ⟨wa, s1, wb, s2, wc, wd, we, e1, e2, e3, e4, e5, e6⟩ := publish_ok hok
  -- moving
  have m1 := moveStaged_movesEff (c := c) hp.goodSnap hp.goodDeltas env w
  rw [e1] at m1
  have hwa : wa.cur.WF := m1.wf hw
  have ha : NoEmptyDirs c.rrdpDir A wa.cur := by
    refine (h.within (H := fun p => ∃ r ∈ st.rels, p = c.pubPath r) hw m1 ?_).filled hwa ?_
    · rintro p (hh | ⟨r, hr, hh⟩)
      · exact Or.inl (fun h2 => hl.rrdpStaging.not_both h2 hh)
      · exact Or.inr ⟨_, ⟨r, hr, rfl⟩, hh⟩
    · rintro p ⟨r, hr, rfl⟩
      obtain ⟨x, hx⟩ := StagedChanges.ref_of_rel hr
      have hfile := moveStaged_published hl.rrdpStaging hp.goodSnap hp.goodDeltas hst e1 _ hx
      refine ⟨?_, hfile.not_dir⟩
      obtain ⟨b, hb, _⟩ := hfile
      intro hnone
      unfold FS.file? at hb
      rw [hnone] at hb
      cases hb
  -- recording and cleaning
  have a1 := (absorb_ok e2).1
  have hs1 := absorb_sane e2 hp.sane hp.goodSnap hp.goodDeltas
  rw [← a1.cur] at ha hwa
  obtain ⟨hwc, hcl⟩ := clean_noEmpty hf hwa ha e3
  have hs2 := clean_sane e3 hs1
  -- rsync
  have r1 := rsyncPart_within (s := s2) hp.objects env wc
  rw [e4] at r1
  have hd : NoEmptyDirs c.rrdpDir A wd.cur := by
    refine (hcl.within (H := fun _ => False) hwc r1 ?_).mono ?_
    · rintro p ⟨_, hh | rfl⟩
      · exact Or.inl (fun h2 => hl.rrdpRsync.not_both h2 hh)
      · exact Or.inl hl.rrdpRsyncState.1
    · rintro q (hh | ⟨_, hh, _⟩)
      · exact hh
      · exact hh.elim
  have hwd := r1.wf hwc
  -- the notification
  have hn : Within (notifEff c name) wd (s2.writeNotification c.rrdpNotifyDelay env wd).2 :=
    writeNotification_in (fun _ => trivial) (fun q hq => by
      rw [hs2.tmpPath hp.uri] at hq; exact Or.inr hq) (fun q hq => by
      rw [hs2.notifPath hp.uri] at hq; exact Or.inl hq) env wd
  rw [e5] at hn
  have hwe := hn.wf hwd
  have he : NoEmptyDirs c.rrdpDir A we.cur := by
    have := hd.within (H := fun p => p = c.rrdpDir ++ [name] ∨ p = c.rrdpDir ++ [name ++ ".tmp".toList])
      hwd hn (by
        rintro p (hh | hh)
        · exact Or.inr ⟨_, Or.inl rfl, hh⟩
        · exact Or.inr ⟨_, Or.inr rfl, hh⟩)
    have htmp := writeNotification_tmpGone (by
      rw [hs2.tmpPath hp.uri, hs2.notifPath hp.uri]; exact tmp_ne_notif) e5
    rw [hs2.tmpPath hp.uri] at htmp
    obtain ⟨n, t, _, hfin⟩ := writeNotification_ok e5
    rw [hs2.notifPath hp.uri] at hfin
    have only : ∀ (a : Name), we.cur.get (c.rrdpDir ++ [a]) ≠ some .dir → ∀ q, c.rrdpDir <+: q →
        q ≠ c.rrdpDir → we.cur.get q = some .dir → ¬ Near (c.rrdpDir ++ [a]) q := by
      rintro a h1 q h2 h3 h4 (h5 | h5)
      · rcases List.prefix_concat_iff.1 h5 with h6 | h6
        · subst h6; exact h1 h4
        · exact h3 (h6.eq_of_length_le h2.length_le)
      · by_cases h6 : c.rrdpDir ++ [a] = q
        · subst h6; exact h1 h4
        · rw [hwe.none_below h5 h6 h1] at h4; cases h4
    intro q h1 h2 h3
    rcases this q h1 h2 h3 with h4 | h4 | ⟨p, rfl | rfl, h4⟩
    · exact Or.inl h4
    · exact Or.inr h4
    · exact absurd h4 (only _ (by rw [hfin]; simp) q h1 h2 h3)
    · exact absurd h4 (only _ (by rw [htmp]; simp) q h1 h2 h3)
  -- the state
  have g1 := writeBuf_in (E := Eff.only (· = c.rrdpStatePath)) rfl (Ext.encState s2) env we
  have e6' : writeBuf c.rrdpStatePath (Ext.encState s2) env we = (.ok (), w') := e6
  rw [e6'] at g1
  refine (he.within (H := fun _ => False) hwe g1 ?_).mono ?_
  · rintro p rfl
    exact Or.inl hl.rrdpState.1
  · rintro q (hh | ⟨_, hh, _⟩)
    · exact hh
    · exact hh.elim

/-! ## Runs -/

/-- A run changes nothing in the RRDP directory but what is at, or below, the files it handles. -/
def handledEff (c : Config) (base name : Str) (env : Env) (fs : FS) : Eff :=
  ⟨fun p => ¬ c.rrdpDir <+: p ∨ ∃ p0, Handled c base name env fs p0 ∧ p0 <+: p, fun _ => True,
    fun _ => True, fun _ => True, fun _ => True, fun _ => True⟩

theorem Eff.le_handled {c : Config} {base name : Str} {env : Env} {fs : FS} {E : Eff}
    (h : ∀ p, E.files p → ¬ c.rrdpDir <+: p ∨ ∃ p0, Handled c base name env fs p0 ∧ p0 <+: p) :
    E.Le (handledEff c base name env fs) :=
  ⟨h, fun _ _ => trivial, fun _ _ => trivial, fun _ _ => trivial, fun _ _ => trivial,
    fun _ _ => trivial⟩

theorem run_handled {depth : Nat} {c : Config} {base name : Str} {env : Env} {w : World}
    (hl : Layout c base name) (hc : RunConds c base name env w.cur) :
    Within (handledEff c base name env w.cur) w (process depth c env w).2 := by
  have hprep : (prepEff c).Le (handledEff c base name env w.cur) :=
    Eff.le_handled fun p hp => Or.inl fun h2 => hl.rrdpStaging.not_both h2 hp
  rcases run_cases (depth := depth) hc with ⟨h1, _⟩ | ⟨s, st, w1, n, h1, h2⟩
  · exact h1.mono hprep
  · rw [h2]
    refine Tr.trans (h1.within.mono hprep) ?_
    refine publish_by (h1.pubPre hc) h1.wf (fun _ => ?_) (fun _ _ _ h => ?_)
      (fun w2 s1 w3 e1 e2 hw hs1 _ => ?_) (fun _ _ _ _ _ _ _ _ _ _ h => ?_)
      (fun _ _ _ _ _ _ _ _ _ _ _ _ h _ => ?_) (fun _ _ _ _ _ _ _ _ _ _ _ _ _ _ _ h _ => ?_)
    · refine (moveStaged_movesEff h1.goodSnap h1.goodDeltas env w1).mono (Eff.le_handled ?_)
      rintro p (hp | ⟨r, hr, hp⟩)
      · exact Or.inl fun h2 => hl.rrdpStaging.not_both h2 hp
      · exact Or.inr ⟨_, Or.inl (h1.attempted hr), hp⟩
    · exact h.mono (Eff.le_handled fun p (hp : False) => hp.elim)
    · obtain ⟨s0, _, hin, ⟨v, rfl⟩, _⟩ := h1.origin
      obtain ⟨_, _, kept, gone, new, hab⟩ := absorb_ok e2
      refine clean_in (E := handledEff c base name env w.cur) (fun d hd => ?_)
        (fun _ _ _ _ => trivial) env w3 hw
      refine Or.inr ⟨d.path, Or.inr (Or.inr (Or.inr ⟨s0, hin, ?_⟩)), List.prefix_refl _⟩
      rcases hab.deprecated_from (s2 := s1) h1.sane (fun _ h => h) d hd with h3 | h3
      · exact Or.inr ⟨d, h3, rfl⟩
      · exact Or.inl h3
    · refine h.mono (Eff.le_handled ?_)
      rintro p ⟨_, hp | rfl⟩
      · exact Or.inl fun h2 => hl.rrdpRsync.not_both h2 hp
      · exact Or.inl hl.rrdpRsyncState.1
    · refine h.mono (Eff.le_handled ?_)
      rintro p (hp | hp)
      · exact Or.inr ⟨_, Or.inr (Or.inl rfl), hp⟩
      · exact Or.inr ⟨_, Or.inr (Or.inr (Or.inl rfl)), hp⟩
    · refine h.mono (Eff.le_handled ?_)
      rintro p rfl
      exact Or.inl hl.rrdpState.1

theorem run_noEmpty {depth : Nat} {c : Config} {base name : Str} {env : Env} {fs f : FS}
    {A : Path → Prop} (hl : Layout c base name) (hc : RunConds c base name env fs)
    (h : NoEmptyDirs c.rrdpDir A fs)
    (hf : f ∈ (process depth c env (World.start fs)).2.crashPoints) :
    NoEmptyDirs c.rrdpDir
      (fun q => A q ∨ ∃ p, Handled c base name env fs p ∧ (q <+: p ∨ p <+: q)) f := by
  have h1 := run_handled (depth := depth) (w := World.start fs) hl hc
  have h2 := h1.crash_frame hc.wf f hf
  exact h.outside hc.wf (fun _ => h2) (h1.crash_dirs f hf) (fun p hp => hp)

theorem run_done_noEmpty {depth : Nat} {c : Config} {base name : Str} {env : Env} {fs : FS}
    {w : World} {A : Path → Prop} (hl : Layout c base name) (hc : RunConds c base name env fs)
    (hs : SoundSource c base name env fs) (hn : NoLinks fs c.stagingDir) (hf : NoFaults env)
    (h : NoEmptyDirs c.rrdpDir A fs) (hok : process depth c env (World.start fs) = (.ok (), w)) :
    NoEmptyDirs c.rrdpDir A w.cur := by
  rcases run_ok (w := World.start fs) hc hok with ⟨h1, _⟩ | ⟨s, st, w1, n, h1, h2⟩
  · rw [h1.cur]; exact h
  · refine publish_noEmpty hf hl (h1.pubPre hc) h1.wf
      (prepare_staged hc hs.no304 hs.oneHash hn h1.prep) ?_ h2
    refine (h.within (w := World.start fs) (H := fun _ => False) hc.wf h1.within ?_).mono ?_
    · exact fun p hp => Or.inl fun h2 => hl.rrdpStaging.not_both h2 hp
    · rintro q (hh | ⟨_, hh, _⟩)
      · exact hh
      · exact hh.elim

theorem Tended.ledger {c : Config} {base name : Str} {A : Path → Prop} {f : FS}
    (h : Tended c base name A f) : ∃ B, Ledger c base name B f := by
  induction h with
  | start h _ => exact ⟨_, .start h⟩
  | done _ h1 _ h2 ih => obtain ⟨B, hB⟩ := ih; exact ⟨B, .done hB h1 h2⟩
  | idle _ h1 h2 _ _ ih => obtain ⟨B, hB⟩ := ih; exact ⟨_, .cut hB h1 h2⟩
  | cut _ h1 h2 ih => obtain ⟨B, hB⟩ := ih; exact ⟨_, .cut hB h1 h2⟩

theorem Tended.noEmpty {c : Config} {base name : Str} {A : Path → Prop} {f : FS}
    (hl : Layout c base name) (ho : c.rsyncEnabled = true → CleanObjects c.rsyncIncludeHost)
    (h : Tended c base name A f) : NoEmptyDirs c.rrdpDir A f := by
  induction h with
  | start _ h => exact h
  | done h0 h1 h2 h3 ih =>
    obtain ⟨B, hB⟩ := h0.ledger
    have hb := hB.booked hl ho
    exact run_done_noEmpty hl (hb.conds hl ho h1) h1 hb.staging h2 ih h3
  | idle _ _ _ h3 _ ih => exact ih.same h3
  | cut h0 h1 h2 ih =>
    obtain ⟨B, hB⟩ := h0.ledger
    exact run_noEmpty hl ((hB.booked hl ho).conds hl ho h1) ih h2

end KSync
