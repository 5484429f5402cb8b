import Verif.Spec.Timeline
import Verif.Lemmas.RsyncOrder

/-! # The order of the instants within a run (C88) -/

set_option linter.unusedSectionVars false
set_option linter.unusedVariables false

namespace KSync

variable [Ext] {env : Env} {w w' : World} {c : Config} {base name : Str}

/-! ## Steps and pairs of instants -/

/-- What every step keeps can be assumed of every step. -/
theorem Steps.given {R : FS → FS → Prop} {I : FS → Prop} (h : Steps R w w')
    (hI : ∀ f f', I f → R f f' → I f') (h0 : I w.cur) :
    Steps (fun f f' => I f ∧ R f f') w w' ∧ I w'.cur := by
  induction h with
  | same a b => exact ⟨.same a b, a ▸ h0⟩
  | push _ h1 h2 ih => exact ⟨.push ih.1 ⟨ih.2, h1⟩ h2, hI _ _ ih.2 h1⟩

/-- A relation that every step continues holds of any two instants. -/
theorem Steps.anyTwo {R P : FS → FS → Prop} (h : Steps R w w') (h1 : ∀ f f', R f f' → P f f')
    (h2 : ∀ f f' f'', P f f' → R f' f'' → P f f'') (h0 : AnyTwo P w.crashPoints) :
    AnyTwo P w'.crashPoints := by
  induction h with
  | same a b => unfold World.crashPoints at *; rw [a, b]; exact h0
  | @push w1 w' _ g1 g2 ih =>
    have e : w'.crashPoints = w'.cur :: w1.crashPoints := by
      unfold World.crashPoints; rw [g2]
    rw [e]
    refine List.pairwise_cons.2 ⟨fun f hf => ?_, ih⟩
    rcases List.mem_cons.1 hf with rfl | hf
    · exact h1 _ _ g1
    · exact h2 _ _ _ ((List.pairwise_cons.1 ih).1 f hf) g1

theorem anyTwo_start {P : FS → FS → Prop} (fs : FS) : AnyTwo P (World.start fs).crashPoints :=
  List.pairwise_singleton _ _

/-! ## The phases of a publication -/

/-- Before the notification: it stays, and `current` (with links) stays or leads to the new version. -/
def UpToNotif (c : Config) (name : Str) (r : RsyncRevision) (f f' : FS) : Prop :=
  f.WF → f'.WF ∧ f'.leaf (c.notifPath name) = f.leaf (c.notifPath name) ∧
    (c.rsyncUseSymlinks = true → f'.leaf c.rsyncCurrent = f.leaf c.rsyncCurrent ∨
      f'.link? c.rsyncCurrent = some r.dirName)

/-- Where the notification is written, and the state. -/
def LastPaths (c : Config) (name : Str) (q : Path) : Prop :=
  q = c.rrdpDir ++ [name ++ ".tmp".toList] ∨ q = c.notifPath name ∨ q = c.rrdpStatePath

/-- From then on: only the notification and the state are written. -/
def FromNotif (c : Config) (name : Str) (b : Bytes) (f f' : FS) : Prop :=
  f.WF → f'.WF ∧ Frame (LastPaths c name) f f' ∧
    (f'.leaf (c.notifPath name) = f.leaf (c.notifPath name) ∨
      ∃ t, f'.leaf (c.notifPath name) = some (.file b t))

theorem UpToNotif.of_change {S : Path → Prop} {r : RsyncRevision} (h1 : ¬ S (c.notifPath name))
    (h2 : ¬ S c.rsyncCurrent) {f f' : FS} (h : Change S f f') : UpToNotif c name r f f' :=
  fun hw => ⟨(h hw).1, (h hw).2 _ h1, fun _ => Or.inl ((h hw).2 _ h2)⟩

theorem Steps.of_same {R : FS → FS → Prop} (h : Same w w') : Steps R w w' := .same h.1 h.2

theorem rsyncPart_before {s : RrdpState} {x : SnapshotState} (hl : Layout c base name)
    (ho : c.rsyncEnabled = true → CleanObjects c.rsyncIncludeHost) (hs : s.snapshot = some x) :
    Steps (UpToNotif c name x.rev) w (rsyncPart c s env w).2 := by
  have nb : c.rrdpDir <+: c.notifPath name := List.prefix_append _ _
  have hn : ∀ {q}, q = c.notifPath name → ¬ (c.rsyncDir <+: q ∨ q = c.rsyncStatePath) := by
    rintro _ rfl (h | h)
    · exact hl.rrdpRsync.not_both nb h
    · exact hl.rrdpRsyncState.1 (h ▸ nb)
  have k := rsyncPart_within (c := c) (s := s) ho env w
  have k1 : Steps (fun f f' => f.WF → f'.WF ∧ f'.leaf (c.notifPath name) = f.leaf (c.notifPath name)) w
      (rsyncPart c s env w).2 :=
    k.steps.mono fun f f' h hw => ⟨(h hw).1, (h hw).2 _ fun h' => hn rfl h'.2⟩
  suffices k2 : c.rsyncUseSymlinks = true → Steps (fun f f' => f.WF →
      f'.leaf c.rsyncCurrent = f.leaf c.rsyncCurrent ∨ f'.link? c.rsyncCurrent = some x.rev.dirName) w
      (rsyncPart c s env w).2 by
    by_cases hm : c.rsyncUseSymlinks = true
    · exact (k1.and (k2 hm)).mono fun f f' h hw => ⟨(h.1 hw).1, (h.1 hw).2, fun _ => h.2 hw⟩
    · exact k1.mono fun f f' h hw => ⟨(h hw).1, (h hw).2, fun h => absurd h hm⟩
  intro hm
  unfold rsyncPart
  by_cases he : c.rsyncEnabled = true
  case neg => rw [if_neg he]; exact Steps.refl
  rw [if_pos he]
  have hnc : ¬ (c.rsyncCurrent = c.rsyncStatePath) :=
    fun h => hl.rsyncRsyncState.1 (h ▸ List.prefix_append _ _)
  have frame : ∀ {S : Path → Prop}, ¬ S c.rsyncCurrent → ∀ f f' : FS, Change S f f' → f.WF →
      f'.leaf c.rsyncCurrent = f.leaf c.rsyncCurrent ∨ f'.link? c.rsyncCurrent = some x.rev.dirName :=
    fun hS f f' h hw => Or.inl ((h hw).2 _ hS)
  have nRev : ∀ r : RsyncRevision, ¬ r.path c <+: c.rsyncCurrent :=
    fun r h => rev_not_current h (List.prefix_refl _)
  refine updateRsync_tr (T := Steps _) hs ?_ ?_ ?_ ?_ ?_ ?_
  · exact Steps.of_same (recover_same c env w)
  · intro st w1 _
    exact (makeRevision_in (ho he) env w1).steps.mono (frame (nRev _))
  · intro st w1 w2 _ _
    unfold switchTo
    rw [if_pos hm]
    refine (symlinkCurrent_steps (rev := x.rev) (c := c) env w2).mono ?_
    rintro f f' ⟨_, g4⟩ _
    rcases g4 with g4 | ⟨_, g4⟩
    · exact Or.inl (leaf_of_get g4)
    · exact Or.inr (FS.link?_of_get g4)
  · intro st w1 w2 w3 _ _ _
    exact Steps.of_same (updateCurrent_same _ _ env w3)
  · intro st w1 w2 w3 st1 w4 _ _ _ _
    exact (cleanOld_in' env w4).steps.mono (frame fun ⟨d, _, h⟩ => nRev _ h)
  · intro st w1 w2 w3 st1 w4 st2 w5 _ _ _ _ _
    exact (writeBuf_in (E := Eff.only (· = c.rsyncStatePath)) rfl _ env w5).steps.mono (frame hnc)

theorem publish_phases {s : RrdpState} {st : StagedChanges} (hl : Layout c base name)
    (hs : Sane c base name s) (h1 : GoodRel name st.snapshot.relPath)
    (h2 : ∀ d ∈ st.deltas, GoodRel name d.relPath)
    (ho : c.rsyncEnabled = true → CleanObjects c.rsyncIncludeHost) (hw : w.cur.WF) :
    ∃ w4, Steps (UpToNotif c name st.snapshot.rev) w w4 ∧
      Steps (FromNotif c name (Ext.writeNotif (newNotif s st))) w4 (publish c s st env w).2 := by
  have nb : c.rrdpDir <+: c.notifPath name := List.prefix_append _ _
  have nr : c.rsyncDir <+: c.rsyncCurrent := List.prefix_append _ _
  have na : ¬ (applyEff c name).files (c.notifPath name) := by
    rintro (h | h)
    · exact hl.rrdpStaging.not_both nb h
    · exact not_dataPath_single (Or.inl rfl) h
  have nc : ¬ (applyEff c name).files c.rsyncCurrent := by
    rintro (h | h)
    · exact hl.rsyncStaging.not_both nr h
    · exact hl.rrdpRsync.not_both h.below nr
  have bef : ∀ {w w' : World}, Within (applyEff c name) w w' →
      Steps (UpToNotif c name st.snapshot.rev) w w' :=
    fun h => h.steps.mono fun f f' => UpToNotif.of_change na nc
  have hm := moveStaged_within (c := c) h1 h2 env w
  rw [publish_eq]
  rcases M.bind_cases (moveStaged c st) _ env w with ⟨_, w1, e1, e⟩ | ⟨_, w1, e1, e⟩ <;> rw [e] <;>
    rw [e1] at hm
  · exact ⟨w1, bef hm, Steps.refl⟩
  have k1 := bef hm
  have ha := absorb_in (E := applyEff c name) s st env w1
  rcases M.bind_cases (s.absorb st) _ env w1 with ⟨_, w2, e2, e⟩ | ⟨s1, w2, e2, e⟩ <;> rw [e] <;>
    rw [e2] at ha
  · exact ⟨w2, k1.trans (bef ha), Steps.refl⟩
  have k2 := k1.trans (bef ha)
  have hs1 := absorb_sane e2 hs h1 h2
  have hc := clean_dataPath hs1 env w2 (ha.wf (hm.wf hw))
  rcases M.bind_cases (s1.clean c) _ env w2 with ⟨_, w3, e3, e⟩ | ⟨s2, w3, e3, e⟩ <;> rw [e] <;>
    rw [e3] at hc
  · exact ⟨w3, k2.trans (bef hc), Steps.refl⟩
  have k3 := k2.trans (bef hc)
  have hs2 := clean_sane e3 hs1
  have hsnap : s2.snapshot = some st.snapshot := by
    obtain ⟨_, _, kept, gone, new, hab⟩ := absorb_ok e2
    obtain ⟨l, hst⟩ := clean_state e3
    rw [hst]; exact hab.snapshot
  have hr := rsyncPart_before (env := env) (w := w3) hl ho hsnap
  rcases M.bind_cases (rsyncPart c s2) _ env w3 with ⟨_, w4, e4, e⟩ | ⟨_, w4, e4, e⟩ <;> rw [e] <;>
    rw [e4] at hr
  · exact ⟨w4, k3.trans hr, Steps.refl⟩
  refine ⟨w4, k3.trans hr, ?_⟩
  have hn : s2.makeNotif = .ok (newNotif s st) := by
    rw [clean_makeNotif e3]; exact absorb_makeNotif e2
  have hne : s2.mappings.path s2.source.tmpName ≠ s2.mappings.path s2.source.name := by
    rw [hs2.tmpPath hl.uri, hs2.notifPath hl.uri]
    intro he
    simp at he
  refine Tr.bindAt ?_ fun _ w5 e5 => ?_
  · have hst := writeNotification_steps (d := c.rrdpNotifyDelay) hn hne (env := env) (w := w4)
    have hwf : Within (pubEff c name) w4 (s2.writeNotification c.rrdpNotifyDelay env w4).2 :=
      writeNotification_in (fun _ => trivial) (fun q hq => by
        rw [hs2.tmpPath hl.uri] at hq; exact Or.inr (Or.inr (Or.inr (Or.inl hq)))) (fun q hq => by
        rw [hs2.notifPath hl.uri] at hq; exact Or.inr (Or.inr (Or.inl hq))) env w4
    rw [hs2.tmpPath hl.uri, hs2.notifPath hl.uri] at hst
    refine (hst.and hwf.steps).mono ?_
    rintro f f' ⟨⟨g1, g2⟩, g3⟩ hw
    exact ⟨(g3 hw).1, g1.mono fun q hq => hq.imp id Or.inl, g2⟩
  · refine (persist_in (E := Eff.only (· = c.rrdpStatePath)) rfl s2 env w5).steps.mono ?_
    intro f f' h hw
    exact ⟨(h hw).1, (h hw).2.mono fun q hq => Or.inr (Or.inr hq),
      Or.inl ((h hw).2 _ fun h' => hl.rrdpState.1 ((show c.notifPath name = _ from h') ▸ nb))⟩

/-! ## One run -/

/-- What is true of an earlier instant `f` and a later instant `g` of a run that starts on `fs` and publishes
`b`, with the objects of version `r`. -/
structure InRun (c : Config) (name : Str) (r : RsyncRevision) (b : Bytes) (fs f g : FS) : Prop where
  notif : g.leaf (c.notifPath name) = f.leaf (c.notifPath name) ∨
    ∃ t, g.leaf (c.notifPath name) = some (.file b t)
  current : c.rsyncUseSymlinks = true → g.leaf c.rsyncCurrent = f.leaf c.rsyncCurrent ∨
    g.link? c.rsyncCurrent = some r.dirName
  files : f.leaf (c.notifPath name) = fs.leaf (c.notifPath name) ∨ Frame (LastPaths c name) f g

theorem current_trans {f g h : FS} {r : RsyncRevision}
    (h1 : g.leaf c.rsyncCurrent = f.leaf c.rsyncCurrent ∨ g.link? c.rsyncCurrent = some r.dirName)
    (h2 : h.leaf c.rsyncCurrent = g.leaf c.rsyncCurrent ∨ h.link? c.rsyncCurrent = some r.dirName) :
    h.leaf c.rsyncCurrent = f.leaf c.rsyncCurrent ∨ h.link? c.rsyncCurrent = some r.dirName := by
  rcases h2 with h2 | h2
  · rcases h1 with h1 | h1
    · exact Or.inl (h2.trans h1)
    · exact Or.inr (by rw [FS.link?_of_leaf h2]; exact h1)
  · exact Or.inr h2

theorem notif_trans {f g h : FS} {q : Path} {b : Bytes}
    (h1 : g.leaf q = f.leaf q ∨ ∃ t, g.leaf q = some (.file b t))
    (h2 : h.leaf q = g.leaf q ∨ ∃ t, h.leaf q = some (.file b t)) :
    h.leaf q = f.leaf q ∨ ∃ t, h.leaf q = some (.file b t) := by
  rcases h2 with h2 | h2
  · rw [h2]; exact h1
  · exact Or.inr h2

theorem not_lastPaths_current (hl : Layout c base name) : ¬ LastPaths c name c.rsyncCurrent := by
  have nr : c.rsyncDir <+: c.rsyncCurrent := List.prefix_append _ _
  rintro (h | h | h)
  · exact hl.rrdpRsync.not_both (by rw [h]; exact List.prefix_append _ _) nr
  · exact hl.rrdpRsync.not_both (by rw [h]; exact List.prefix_append _ _) nr
  · exact hl.rsyncState.1 (h ▸ nr)

/-- Two phases, and any two instants. -/
theorem phases_anyTwo {r : RsyncRevision} {b : Bytes} {fs : FS} {w4 : World} (hl : Layout c base name)
    (hw : fs.WF) (h1 : Steps (UpToNotif c name r) (World.start fs) w4) (h2 : Steps (FromNotif c name b) w4 w') :
    AnyTwo (InRun c name r b fs) w'.crashPoints := by
  obtain ⟨k1, _, k0⟩ := h1.given (I := fun f => f.WF ∧ f.leaf (c.notifPath name) = fs.leaf (c.notifPath name))
    (fun f f' hi hb => ⟨(hb hi.1).1, (hb hi.1).2.1.trans hi.2⟩) ⟨hw, rfl⟩
  have k2 : AnyTwo (fun f g => (f.leaf (c.notifPath name) = fs.leaf (c.notifPath name) ∧
      g.leaf (c.notifPath name) = f.leaf (c.notifPath name)) ∧
      (c.rsyncUseSymlinks = true → g.leaf c.rsyncCurrent = f.leaf c.rsyncCurrent ∨
        g.link? c.rsyncCurrent = some r.dirName)) w4.crashPoints := by
    refine k1.anyTwo ?_ ?_ (anyTwo_start fs)
    · rintro f f' ⟨⟨g1, g2⟩, g3⟩
      exact ⟨⟨g2, (g3 g1).2.1⟩, (g3 g1).2.2⟩
    · rintro f f' f'' ⟨⟨a1, a2⟩, a3⟩ ⟨⟨g1, g2⟩, g3⟩
      exact ⟨⟨a1, (g3 g1).2.1.trans a2⟩, fun hm => current_trans (a3 hm) ((g3 g1).2.2 hm)⟩
  have hw4 : w4.cur.WF := (k1.crash (I := FS.WF) (fun f f' hi hb => (hb.2 hi).1) hw).1
  obtain ⟨k3, _⟩ := h2.given (I := FS.WF) (fun f f' hi hb => (hb hi).1) hw4
  refine k3.anyTwo ?_ ?_ (k2.imp fun h => ⟨Or.inl h.1.2, h.2, Or.inl h.1.1⟩)
  · rintro f f' ⟨g1, g2⟩
    obtain ⟨_, g3, g4⟩ := g2 g1
    exact ⟨g4, fun _ => Or.inl (g3 _ (not_lastPaths_current hl)), Or.inr g3⟩
  · rintro f f' f'' ⟨a1, a2, a3⟩ ⟨g1, g2⟩
    obtain ⟨_, g3, g4⟩ := g2 g1
    refine ⟨notif_trans a1 g4, fun hm => current_trans (a2 hm) (Or.inl (g3 _ (not_lastPaths_current hl))), ?_⟩
    exact a3.imp id fun h q hq => (g3 q hq).trans (h q hq)

/-- What is published was announced. -/
theorem AtPublish.announces {depth : Nat} {fs : FS} {s : RrdpState} {st : StagedChanges} {n : Notif}
    (h : AtPublish depth c base name env (World.start fs) s st w n) :
    ∃ m, Announces c base name env fs m ∧ st.snapshot.rev = m.rev := by
  obtain ⟨s0, n0, g1, ⟨v, g5⟩, g2, ⟨ds, _, h3⟩, _⟩ := h.origin
  have g4 := (decide_reset h.prepared.decided).2
  refine ⟨n0, ⟨s0, g1, g2, fun x hx => ?_⟩, ?_⟩
  · have := g4 x (by rw [g5]; exact hx)
    rw [h3] at this
    exact this
  · unfold SnapshotState.rev Notif.rev
    rw [h.staged.snapSession, h.staged.snapSerial, h3]

/-- Any two instants of a run: nothing is published, or one version. -/
theorem run_anyTwo {depth : Nat} {fs : FS} (hl : Layout c base name) (hc : RunConds c base name env fs) :
    AnyTwo (fun f g => g.leaf (c.notifPath name) = f.leaf (c.notifPath name) ∧
      g.leaf c.rsyncCurrent = f.leaf c.rsyncCurrent ∧
      f.leaf (c.notifPath name) = fs.leaf (c.notifPath name))
      (process depth c env (World.start fs)).2.crashPoints ∨
    ∃ s st m, Publishing depth c base name env fs s st m ∧
      AnyTwo (InRun c name m.rev (Ext.writeNotif (newNotif s st)) fs)
        (process depth c env (World.start fs)).2.crashPoints := by
  rcases run_cases (depth := depth) (w := World.start fs) hc with ⟨h1, _⟩ | ⟨s, st, w1, n, h1, h2⟩
  · have nb : c.rrdpDir <+: c.notifPath name := List.prefix_append _ _
    have nr : c.rsyncDir <+: c.rsyncCurrent := List.prefix_append _ _
    obtain ⟨k1, _⟩ := h1.steps.given
      (I := fun f => f.WF ∧ f.leaf (c.notifPath name) = fs.leaf (c.notifPath name))
      (fun f f' hi hb => ⟨(hb hi.1).1, ((hb hi.1).2 _ (hl.rrdpStaging.not_both nb)).trans hi.2⟩)
      ⟨hc.wf, rfl⟩
    refine Or.inl (k1.anyTwo ?_ ?_ (anyTwo_start fs))
    · rintro f f' ⟨⟨g1, g2⟩, g3⟩
      exact ⟨(g3 g1).2 _ (hl.rrdpStaging.not_both nb), (g3 g1).2 _ (hl.rsyncStaging.not_both nr), g2⟩
    · rintro f f' f'' ⟨a1, a2, a3⟩ ⟨⟨g1, g2⟩, g3⟩
      exact ⟨((g3 g1).2 _ (hl.rrdpStaging.not_both nb)).trans a1,
        ((g3 g1).2 _ (hl.rsyncStaging.not_both nr)).trans a2, a3⟩
  · have nb : c.rrdpDir <+: c.notifPath name := List.prefix_append _ _
    have nr : c.rsyncDir <+: c.rsyncCurrent := List.prefix_append _ _
    obtain ⟨w4, k1, k2⟩ := publish_phases (env := env) (w := w1) hl h1.sane h1.goodSnap h1.goodDeltas
      hc.objects h1.wf
    obtain ⟨m, hm, hr⟩ := h1.announces
    refine Or.inr ⟨s, st, m, ⟨⟨w1, n, h1⟩, hm, hr⟩, ?_⟩
    rw [h2, ← hr]
    exact phases_anyTwo hl hc.wf ((h1.within.steps.mono fun f f' h =>
      UpToNotif.of_change (hl.rrdpStaging.not_both nb) (hl.rsyncStaging.not_both nr) h).trans k1) k2

/-! ## Whole lives -/

theorem AnyTwo.mem {P : FS → FS → Prop} {l a b : List FS} {f g : FS} (h : AnyTwo P l) (e : l = a ++ g :: b)
    (hf : f ∈ b) : P f g := by
  subst e
  exact (List.pairwise_cons.1 (List.pairwise_append.1 h).2.1).1 f hf

/-- The first instant of a run is the file system it starts on. -/
theorem crashPoints_last (depth : Nat) {fs : FS} (hc : RunConds c base name env fs) :
    ∃ l, (process depth c env (World.start fs)).2.crashPoints = l ++ [fs] := by
  have key : ∀ {w w' : World} {R : FS → FS → Prop}, Steps R w w' →
      ∃ l, w'.crashPoints = l ++ w.crashPoints := by
    intro w w' R h
    induction h with
    | same a b => exact ⟨[], by unfold World.crashPoints; rw [a, b]; rfl⟩
    | @push w1 w' _ _ g2 ih =>
      obtain ⟨l, e⟩ := ih
      refine ⟨w'.cur :: l, ?_⟩
      have : w'.crashPoints = w'.cur :: w1.crashPoints := by unfold World.crashPoints; rw [g2]
      rw [this, e]; rfl
  exact key (process_within (w := World.start fs) hc).steps

section
variable {ι : Type} {start : ι → FS → Prop} {ok : ι → ι → Nat → Env → FS → Prop}

/-- Every instant is one in a history; `le` compares what is known then and now. -/
theorem Timeline.instants {le : ι → ι → Prop} (hr : ∀ i, le i i) (ht : ∀ i j k, le i j → le j k → le i k)
    (hok : ∀ i j d e f, ok i j d e f → le i j) {i : ι} {l : List FS} (h : Timeline c start ok i l) :
    ∀ f ∈ l, ∃ j, le j i ∧ History c start ok j f := by
  induction h with
  | start h =>
    intro f hf
    rw [List.mem_singleton.1 hf]
    exact ⟨_, hr _, .start h⟩
  | @run i j depth env f g l un rest h1 h2 h3 ih =>
    have hh : ∀ {i l}, Timeline c start ok i l → ∀ f l', l = f :: l' → History c start ok i f := by
      intro i l h
      induction h with
      | start h => intro f l' e; cases e; exact .start h
      | @run i j depth env f g l un rest h1 h2 h3 ih =>
        intro f' l' e
        cases e
        exact .run (ih f l rfl) h2 (by rw [h3]; exact List.mem_append_right _ List.mem_cons_self)
    intro x hx
    rw [← List.cons_append] at hx
    rcases List.mem_append.1 hx with hx | hx
    · exact ⟨j, hr _, .run (hh h1 f l rfl) h2 (by rw [h3]; exact List.mem_append_right _ hx)⟩
    · obtain ⟨k, a, b⟩ := ih x (List.mem_cons_of_mem _ hx)
      exact ⟨k, ht _ _ _ a (hok _ _ _ _ _ h2), b⟩

/-- The latest instant. -/
theorem Timeline.now {i : ι} {f : FS} {l : List FS} (h : Timeline c start ok i (f :: l)) :
    History c start ok i f := by
  have hh : ∀ {i l}, Timeline c start ok i l → ∀ f l', l = f :: l' → History c start ok i f := by
    intro i l h
    induction h with
    | start h => intro f l' e; cases e; exact .start h
    | @run i j depth env f g l un rest h1 h2 h3 ih =>
      intro f' l' e
      cases e
      exact .run (ih f l rfl) h2 (by rw [h3]; exact List.mem_append_right _ List.mem_cons_self)
  exact hh h f l rfl

/-- What holds of any two instants of a run holds of any two instants. -/
theorem Timeline.anyTwo {P : FS → FS → Prop} (ht : ∀ f g h, P f g → P g h → P f h)
    (hrun : ∀ i j depth env f, History c start ok i f → ok i j depth env f →
      RunConds c base name env f ∧ AnyTwo P (process depth c env (World.start f)).2.crashPoints)
    {i : ι} {l : List FS} (h : Timeline c start ok i l) : AnyTwo P l := by
  induction h with
  | start h => exact List.pairwise_singleton _ _
  | @run i j depth env f g l un rest h1 h2 h3 ih =>
    obtain ⟨hc, k⟩ := hrun _ _ _ _ _ h1.now h2
    obtain ⟨l0, hlast⟩ := crashPoints_last depth hc
    have k' : AnyTwo P (g :: rest) := by
      rw [h3] at k
      exact (List.pairwise_append.1 k).2.1
    have hfirst : ∀ x ∈ g :: rest, x = f ∨ P f x := by
      intro x hx
      have hx : x ∈ l0 ++ [f] := by rw [← hlast, h3]; exact List.mem_append_right _ hx
      rcases List.mem_append.1 hx with hx | hx
      · rw [hlast] at k
        exact Or.inr ((List.pairwise_append.1 k).2.2 x hx f (List.mem_singleton.2 rfl))
      · exact Or.inl (List.mem_singleton.1 hx)
    rw [← List.cons_append]
    refine List.pairwise_append.2 ⟨k', (List.pairwise_cons.1 ih).2, fun x hx e he => ?_⟩
    have h4 := (List.pairwise_cons.1 ih).1 e he
    rcases hfirst x hx with rfl | h5
    · exact h4
    · exact ht _ _ _ h4 h5

end

/-! ## Over a source whose versions move forward -/

section
variable {age : Uuid → Nat}

/-- Whatever notification is in place at `f`, one that is not older is in place at `g`. -/
def NotifForward (age : Uuid → Nat) (c : Config) (name : Str) (f g : FS) : Prop :=
  ∀ n, Published c name f n → ∃ n', Published c name g n' ∧ (n.version age).le (n'.version age)

/-- Whatever version `current` leads to at `f`, it leads to one that is not older at `g`. -/
def LinkForward (age : Uuid → Nat) (c : Config) (f g : FS) : Prop :=
  ∀ m : Notif, f.link? c.rsyncCurrent = some m.rev.dirName →
    ∃ m' : Notif, g.link? c.rsyncCurrent = some m'.rev.dirName ∧ (m.version age).le (m'.version age)

theorem Published.unique {f : FS} {n n' : Notif} (h : Published c name f n) (h' : Published c name f n') :
    n = n' := by
  obtain ⟨t, h⟩ := h
  obtain ⟨t', h'⟩ := h'
  rw [h] at h'
  injection h' with h'
  injection h' with h' _
  exact writeNotif_inj h'

theorem Published.of_leaf {f g : FS} {n : Notif} (h : Published c name f n)
    (e : g.leaf (c.notifPath name) = f.leaf (c.notifPath name)) : Published c name g n := by
  obtain ⟨t, h⟩ := h
  exact ⟨t, e.trans h⟩

theorem version_of_rev {m m' : Notif} (h : m.rev = m'.rev) : m.version age = m'.version age := by
  unfold Notif.rev at h
  injection h with h1 h2
  unfold Notif.version
  rw [h1, h2]

theorem NotifForward.trans (f g h : FS) (h1 : NotifForward age c name f g) (h2 : NotifForward age c name g h) :
    NotifForward age c name f h := by
  intro n hn
  obtain ⟨n', a, b⟩ := h1 n hn
  obtain ⟨n'', a', b'⟩ := h2 n' a
  exact ⟨n'', a', Version.le_trans b b'⟩

theorem LinkForward.trans (f g h : FS) (h1 : LinkForward age c f g) (h2 : LinkForward age c g h) :
    LinkForward age c f h := by
  intro n hn
  obtain ⟨n', a, b⟩ := h1 n hn
  obtain ⟨n'', a', b'⟩ := h2 n' a
  exact ⟨n'', a', Version.le_trans b b'⟩

/-- For any two instants, the first of which is the first or another one. -/
theorem AnyTwo.withFirst {P : FS → FS → Prop} {l l0 : List FS} {fs : FS} (h : AnyTwo P l) (e : l = l0 ++ [fs]) :
    AnyTwo (fun f g => P f g ∧ (f = fs ∨ P fs f)) l := by
  subst e
  refine List.pairwise_append.2 ⟨?_, List.pairwise_singleton _ _, ?_⟩
  · refine List.Pairwise.imp_of_mem ?_ (List.pairwise_append.1 h).1
    intro g f hg hf hP
    exact ⟨hP, Or.inr ((List.pairwise_append.1 h).2.2 f hf fs (List.mem_singleton.2 rfl))⟩
  · intro g hg f hf
    exact ⟨(List.pairwise_append.1 h).2.2 g hg f hf, Or.inl (List.mem_singleton.1 hf)⟩

theorem run_notifForward {i j : Version × (Notif → Prop)} {depth : Nat} {fs : FS} (hl : Layout c base name)
    (ho : c.rsyncEnabled = true → CleanObjects c.rsyncIncludeHost)
    (h : Invariant c base name (fun _ _ => True)
      (fun (i : Version × (Notif → Prop)) n => (n.version age).le i.1) i fs)
    (hf : AnnouncedRun age c base name i j depth env fs) :
    AnyTwo (NotifForward age c name) (process depth c env (World.start fs)).2.crashPoints := by
  have hc := h.conds hl ho hf.forward.source
  obtain ⟨l0, hlast⟩ := crashPoints_last depth hc
  rcases run_anyTwo (depth := depth) hl hc with h1 | ⟨s, st, m, h1, h2⟩
  · exact h1.imp fun k n hn => ⟨n, hn.of_leaf k.1, Version.le_refl _⟩
  · have hv := h1.version age
    refine (h2.withFirst hlast).imp ?_
    rintro g f ⟨k, k'⟩ n hn
    rcases k.notif with e | e
    · exact ⟨n, hn.of_leaf e, Version.le_refl _⟩
    refine ⟨newNotif s st, e, ?_⟩
    have hold : Published c name fs n → (n.version age).le ((newNotif s st).version age) := by
      intro hn
      rcases h.notif with h3 | ⟨n0, t0, h3, h4⟩
      · obtain ⟨t, hn⟩ := hn
        rw [h3] at hn; cases hn
      · have := hn.unique ⟨t0, h3⟩
        rw [hv, this]
        exact Version.le_trans h4 (hf.forward.announced h1.2.1).1
    rcases k' with rfl | k'
    · exact hold hn
    rcases k'.notif with e' | e'
    · exact hold (hn.of_leaf e'.symm)
    · rw [hn.unique e']
      exact Version.le_refl _

theorem run_linkForward {i j : Version × (Notif → Prop)} {depth : Nat} {fs : FS} (hl : Layout c base name)
    (ho : CleanObjects c.rsyncIncludeHost) (hm : c.rsyncUseSymlinks = true)
    (h : LinkBelow age c base name i fs) (hf : AnnouncedRun age c base name i j depth env fs) :
    AnyTwo (LinkForward age c) (process depth c env (World.start fs)).2.crashPoints := by
  have hc := h.inv.conds hl (fun _ => ho) hf.forward.source
  obtain ⟨l0, hlast⟩ := crashPoints_last depth hc
  rcases run_anyTwo (depth := depth) hl hc with h1 | ⟨s, st, m, h1, h2⟩
  · exact h1.imp fun k n hn => ⟨n, by rw [FS.link?_of_leaf k.2.1]; exact hn, Version.le_refl _⟩
  · refine (h2.withFirst hlast).imp ?_
    rintro g f ⟨k, k'⟩ n hn
    rcases k.current hm with e | e
    · exact ⟨n, by rw [FS.link?_of_leaf e]; exact hn, Version.le_refl _⟩
    refine ⟨m, e, ?_⟩
    have hold : fs.link? c.rsyncCurrent = some n.rev.dirName → (n.version age).le (m.version age) := by
      intro hn
      obtain ⟨n0, _, h3, h4⟩ := h.below _ hn
      rw [version_of_rev (RsyncRevision.dirName_inj h3)]
      exact Version.le_trans h4 (hf.forward.announced h1.2.1).1
    rcases k' with rfl | k'
    · exact hold hn
    rcases k'.current hm with e' | e'
    · exact hold (by rw [← FS.link?_of_leaf e']; exact hn)
    · rw [hn] at e'
      rw [version_of_rev (RsyncRevision.dirName_inj (Option.some.inj e'))]
      exact Version.le_refl _

theorem ForwardTimeline.notif {i : Version × (Notif → Prop)} {l : List FS}
    (h : ForwardTimeline age c base name i l) (hl : Layout c base name)
    (ho : c.rsyncEnabled = true → CleanObjects c.rsyncIncludeHost) : AnyTwo (NotifForward age c name) l := by
  refine Timeline.anyTwo (base := base) (name := name) NotifForward.trans ?_ h
  intro i j depth env f hh hok
  have hinv : Invariant c base name (fun _ _ => True)
      (fun (i : Version × (Notif → Prop)) n => (n.version age).le i.1) i f :=
    History.invariant hl ho (forward_inductive (ok := AnnouncedRun age c base name) hl
      (fun _ _ _ _ _ h => h.forward)) (History.mono id (fun _ _ h => h.1.pristine) (fun _ _ _ _ _ h => h) hh)
  exact ⟨hinv.conds hl ho hok.forward.source, run_notifForward hl ho hinv hok⟩

theorem ForwardTimeline.link {i : Version × (Notif → Prop)} {l : List FS}
    (h : ForwardTimeline age c base name i l) (hl : Layout c base name)
    (ho : CleanObjects c.rsyncIncludeHost) (he : c.rsyncEnabled = true) (hm : c.rsyncUseSymlinks = true) :
    AnyTwo (LinkForward age c) l := by
  refine Timeline.anyTwo (base := base) (name := name) LinkForward.trans ?_ h
  intro i j depth env f hh hok
  have hb := ForwardLifetime.linkBelow hh hl ho he hm
  exact ⟨hb.inv.conds hl (fun _ => ho) hok.forward.source, run_linkForward hl ho hm hb hok⟩

/-- Every instant is one of the life of the installation; what was announced by then, was announced by now. -/
theorem ForwardTimeline.instants {i : Version × (Notif → Prop)} {l : List FS}
    (h : ForwardTimeline age c base name i l) :
    ∀ f ∈ l, ∃ j, (∀ n, j.2 n → i.2 n) ∧ ForwardLifetime age c base name j f :=
  Timeline.instants (le := fun j i => ∀ n, j.2 n → i.2 n) (fun _ _ h => h)
    (fun _ _ _ h1 h2 n hn => h2 n (h1 n hn)) (fun _ _ _ _ _ h n hn => h.known n (Or.inl hn)) h

end

end KSync
