import Verif.Lemmas.Torn
import Verif.Props.Rsync
import Verif.Props.Atomic

/-!
# What the next run finds after a crash (property C22)
-/

set_option linter.unusedVariables false

namespace KSync

/-- Every run on `f` fails before it asks the network for anything, starts a program or changes
anything. -/
def Refuses [Ext] (c : Config) (f : FS) : Prop :=
  ∀ depth env, ∃ e w', process depth c env (World.start f) = (.error e, w') ∧
    w'.crashPoints = [f] ∧ w'.reqs = [] ∧ w'.ran = []

/-- Whatever a run on `f` does, it replaces neither the notification nor a state file, and it touches
nothing of what rsync clients can see. -/
def PublishesNothing [Ext] (c : Config) (base name : Str) (f : FS) : Prop :=
  ∀ depth env, RunConds c base name env f →
    ∀ f' ∈ (process depth c env (World.start f)).2.crashPoints, ∀ q,
      (q = c.notifPath name ∨ q = c.rrdpStatePath ∨ q = c.rsyncStatePath ∨ c.rsyncDir <+: q) →
      f'.leaf q = f.leaf q

theorem torn_refuses [Ext] {c : Config} {fs : FS} {b : Bytes} {t : Time}
    (h : fs.leaf c.rrdpStatePath = some (.file b t)) (hd : Ext.decState b = none) : Refuses c fs := by
  intro depth env
  obtain ⟨e, tick, h1⟩ := loadState_torn h hd env
  refine ⟨e, { World.start fs with tick := tick }, ?_, rfl, rfl, rfl⟩
  unfold process
  rw [M.bind_of_error h1]

/-- **C22, RRDP state.** Wherever a run is interrupted, the RRDP state file is exactly as it was before
the run, or it holds the complete state that describes the new notification, which is in place; or else
every later run refuses to run and changes nothing. -/
theorem C22_rrdp_state [Ext] (depth : Nat) (c : Config) (env : Env) (fs : FS)
    (base name : Str) (hl : Layout c base name) (hc : RunConds c base name env fs) :
    ∀ f ∈ (process depth c env (World.start fs)).2.crashPoints,
      f.leaf c.rrdpStatePath = fs.leaf c.rrdpStatePath ∨
      (∃ etag n n' t s', Offers c env fs etag n ∧ SameVersion n n' ∧
        f.leaf (c.notifPath name) = some (.file (Ext.writeNotif n') t) ∧
        Recorded c f s' ∧ Describes base s' n') ∨
      Refuses c f := by
  have nb : c.rrdpDir <+: c.notifPath name := List.prefix_append _ _
  have notData : ¬ DataPath c name c.rrdpStatePath := fun h => hl.rrdpState.1 h.below
  have notStaging : ¬ c.stagingDir <+: c.rrdpStatePath := by
    unfold Config.stagingDir Config.rrdpStatePath
    rw [List.prefix_append_right_inj]
    decide
  have nApply1 : ¬ (applyEff c name).files (c.notifPath name) := by
    rintro (h | h)
    · exact hl.rrdpStaging.not_both nb h
    · exact not_dataPath_single (Or.inl rfl) h
  have nApply2 : ¬ (applyEff c name).files c.rrdpStatePath := by
    rintro (h | h)
    · exact notStaging h
    · exact notData h
  rcases run_cases (depth := depth) (w := World.start fs) hc with ⟨h1, _⟩ | ⟨s, st, w1, n, h1, h2⟩
  · exact fun f hf => Or.inl ((h1.crash_frame hc.wf f hf).2 _ notStaging)
  let New : FS → Prop := fun f => ∃ t t' s' k,
    f.leaf (c.notifPath name) = some (.file (Ext.writeNotif (newNotif s st)) t) ∧
    Describes base s' (newNotif s st) ∧
    f.leaf c.rrdpStatePath = some (.file ((Ext.encState s').take k) t')
  let P : FS → Prop := fun f => f.WF ∧ (f.leaf c.rrdpStatePath = fs.leaf c.rrdpStatePath ∨ New f)
  have frame : ∀ {S : Path → Prop}, ¬ S (c.notifPath name) → ¬ S c.rrdpStatePath →
      ∀ f f' : FS, P f → Change S f f' → P f' := by
    rintro S h1 h2 f f' ⟨h3, h4⟩ h5
    obtain ⟨h6, h7⟩ := h5 h3
    refine ⟨h6, ?_⟩
    dsimp only [New]
    rw [h7 _ h1, h7 _ h2]; exact h4
  have hk : Keeps P (World.start fs) (process depth c env (World.start fs)).2 := by
    rw [h2]
    refine Tr.trans (Keeps.of_within h1.within (frame (hl.rrdpStaging.not_both nb) notStaging)) ?_
    refine publish_by (T := Keeps P) (h1.pubPre hc) h1.wf ?_ ?_ ?_ ?_ ?_ ?_
    · exact fun h => Keeps.of_within h (frame nApply1 nApply2)
    · exact fun _ _ _ h => Keeps.of_within h (frame id id)
    · exact fun _ _ _ _ _ _ _ h => Keeps.of_within h (frame nApply1 nApply2)
    · intro _ _ _ _ _ _ _ _ _ _ h
      refine Keeps.of_within h (frame ?_ ?_)
      · rintro ⟨_, h | h⟩
        · exact hl.rrdpRsync.not_both nb h
        · exact hl.rrdpRsyncState.1 (h ▸ nb)
      · rintro ⟨_, h | h⟩
        · exact hl.rsyncState.1 h
        · simp [Config.rrdpStatePath, Config.rsyncStatePath] at h
    · intro _ _ _ _ _ _ _ _ _ _ _ _ h h'
      refine Keeps.of_steps (h'.and h.steps) ?_
      rintro f f' ⟨g1, g2⟩ ⟨⟨g3, g4⟩, g5⟩
      have hst : f'.leaf c.rrdpStatePath = f.leaf c.rrdpStatePath := (g5 g1).2 _ (by
          rintro (h | h)
          · exact hl.rrdpState.1 ((List.prefix_append _ _).trans h)
          · exact hl.rrdpState.1 ((List.prefix_append _ _).trans h))
      refine ⟨(g5 g1).1, ?_⟩
      rcases g2 with g2 | ⟨t, t', s', k, a3, a4, a5⟩
      · exact Or.inl (hst.trans g2)
      · rcases g4 with g4 | ⟨t2, g4⟩
        · exact Or.inr ⟨t, t', s', k, g4.trans a3, a4, hst.trans a5⟩
        · exact Or.inr ⟨t2, t', s', k, g4, a4, hst.trans a5⟩
    · intro wa s1 wb s2 wc wd we e1 e2 e3 e4 e5 hw5 _ hnot hin hwr
      obtain ⟨t, ht⟩ := hnot
      have hd := describes_of hc.uri h1.sane e2 e3
      intro hP
      refine Keeps.via (Keeps.of_steps (P := fun f => P f ∧ f.leaf (c.notifPath name) =
        some (.file (Ext.writeNotif (newNotif s st)) t)) (hwr.and hin.steps) ?_)
        ⟨hP, by unfold FS.leaf; rw [ht]⟩ (fun _ h => h.1) hP
      rintro f f' ⟨⟨g1, g2⟩, g0⟩ ⟨⟨g3, g4⟩, g5⟩
      have hn : f'.leaf (c.notifPath name) = some (.file (Ext.writeNotif (newNotif s st)) t) :=
        (g3 _ (fun h => hl.rrdpState.1 (h ▸ nb))).trans g0
      refine ⟨⟨(g5 g1).1, ?_⟩, hn⟩
      rcases g4 with g4 | ⟨k, t', g4⟩
      · rcases g2 with g2 | ⟨t1, t2, s', k, _, a4, a5⟩
        · exact Or.inl (g4.trans g2)
        · exact Or.inr ⟨t, t2, s', k, hn, a4, g4.trans a5⟩
      · exact Or.inr ⟨t, t', s2, k, hn, hd, g4⟩
  intro f hf
  rcases (hk.start ⟨hc.wf, Or.inl rfl⟩ f hf).2 with h | ⟨t, t', s', k, h3, h4, h5⟩
  · exact Or.inl h
  · by_cases hlen : k < (Ext.encState s').length
    · exact Or.inr (Or.inr (torn_refuses h5 (Ext.dec_torn s' k hlen)))
    · rw [List.take_of_length_le (by omega)] at h5
      obtain ⟨etag, n0, g1, g2⟩ := sameVersion_newNotif hc.uri h1
      exact Or.inr (Or.inl ⟨etag, n0, _, t, s'.persisted, g1, g2, h3,
        recorded_of_get (file_of_leaf h5), h4.persisted⟩)

theorem torn_publishes_nothing [Ext] {c : Config} {base name : Str} {fs : FS} {b : Bytes} {t : Time}
    (hl : Layout c base name) (he : c.rsyncEnabled = true)
    (h : fs.leaf c.rsyncStatePath = some (.file b t)) (hd : Ext.decRsync b = none) :
    PublishesNothing c base name fs := by
  intro depth env hc
  let S : Path → Prop := fun q => q = c.notifPath name ∨ q = c.rrdpStatePath ∨ q = c.rsyncStatePath ∨
    c.rsyncDir <+: q
  let P : FS → Prop := fun f => f.WF ∧ ∀ q, S q → f.leaf q = fs.leaf q
  have nb : c.rrdpDir <+: c.notifPath name := List.prefix_append _ _
  have frame : ∀ {T : Path → Prop}, (∀ q, S q → ¬ T q) → ∀ f f' : FS, P f → Change T f f' → P f' := by
    rintro T h1 f f' ⟨h3, h4⟩ h5
    obtain ⟨h6, h7⟩ := h5 h3
    exact ⟨h6, fun q hq => (h7 q (h1 q hq)).trans (h4 q hq)⟩
  have nst : ∀ q, S q → ¬ c.stagingDir <+: q := by
    rintro q (rfl | rfl | rfl | hq) h
    · exact hl.rrdpStaging.not_both nb h
    · unfold Config.stagingDir Config.rrdpStatePath at h
      rw [List.prefix_append_right_inj] at h
      revert h; decide
    · unfold Config.stagingDir Config.rsyncStatePath at h
      rw [List.prefix_append_right_inj] at h
      revert h; decide
    · exact hl.rsyncStaging.not_both hq h
  have nd : ∀ q, S q → ¬ DataPath c name q := by
    rintro q (rfl | rfl | rfl | hq) h
    · exact not_dataPath_single (Or.inl rfl) h
    · exact hl.rrdpState.1 h.below
    · exact hl.rrdpRsyncState.1 h.below
    · exact hl.rrdpRsync.not_both h.below hq
  have napp : ∀ q, S q → ¬ (applyEff c name).files q := fun q hq h => h.elim (nst q hq) (nd q hq)
  have hk : Keeps P (World.start fs) (process depth c env (World.start fs)).2 := by
    refine run_keeps hc (frame nst) ?_
    intro s st w1 n h1 hP1
    have hfail : ∀ w4 w1' s1 w2 s2 w3, moveStaged c st env w1 = (.ok (), w1') →
        s.absorb st env w1' = (.ok s1, w2) → s1.clean c env w2 = (.ok s2, w3) →
        rsyncPart c s2 env w3 = (.ok (), w4) → False := by
      intro w4 w1' s1 w2 s2 w3 e1 e2 e3 e4
      have hr := rsyncReady hl hc h1 e1 e2 e3
      unfold rsyncPart at e4
      rw [if_pos he] at e4
      obtain ⟨_, _, _, _, _, st0, _, _, d⟩ := updateRsync_ok hr.snapshot e4
      refine recover_torn (b := b) (t := t) ?_ hd env _ _ d.recovered
      rw [hl.rsync_leaf hr (Or.inr rfl)]; exact h
    refine publish_by (T := Keeps P) (h1.pubPre hc) h1.wf ?_ ?_ ?_ ?_ ?_ ?_ hP1
    · exact fun h => Keeps.of_within h (frame napp)
    · exact fun _ _ _ h => Keeps.of_within h (frame fun _ _ => id)
    · exact fun _ _ _ _ _ _ _ h => Keeps.of_within h (frame napp)
    · intro w1' s1 w2 s2 w3 e1 e2 e3 _ _ _
      have hr := rsyncReady hl hc h1 e1 e2 e3
      unfold rsyncPart
      rw [if_pos he]
      have hno := recover_torn (c := c) (w := w3) (b := b) (t := t)
        ((hl.rsync_leaf hr (Or.inr rfl)).trans h) hd env
      refine updateRsync_tr (T := Keeps P) hr.snapshot (Keeps.of_same (recover_same c env w3)) ?_ ?_ ?_ ?_ ?_
      · exact fun _ _ e => (hno _ _ e).elim
      · exact fun _ _ _ e => (hno _ _ e).elim
      · exact fun _ _ _ _ e => (hno _ _ e).elim
      · exact fun _ _ _ _ _ _ e => (hno _ _ e).elim
      · exact fun _ _ _ _ _ _ _ _ e => (hno _ _ e).elim
    · exact fun _ _ _ _ _ _ e1 e2 e3 e4 _ _ _ _ => (hfail _ _ _ _ _ _ e1 e2 e3 e4).elim
    · exact fun _ _ _ _ _ _ _ e1 e2 e3 e4 _ _ _ _ _ _ => (hfail _ _ _ _ _ _ e1 e2 e3 e4).elim
  exact fun f hf q hq => (hk.start ⟨hc.wf, fun _ _ => rfl⟩ f hf).2 q hq

/-- **C22, rsync state.** Wherever a run is interrupted, the rsync state file is exactly as it was
before the run, or it holds a complete state in which the announced version is current; or else no
later run replaces the notification or anything rsync clients can see. -/
theorem C22_rsync_state [Ext] (depth : Nat) (c : Config) (env : Env) (fs : FS)
    (base name : Str) (hl : Layout c base name) (hc : RunConds c base name env fs)
    (he : c.rsyncEnabled = true) :
    ∀ f ∈ (process depth c env (World.start fs)).2.crashPoints,
      f.leaf c.rsyncStatePath = fs.leaf c.rsyncStatePath ∨
      (∃ n st, Announces c base name env fs n ∧ RsyncRecorded c f st ∧ st.current = some n.rev) ∨
      PublishesNothing c base name f := by
  have key : ∀ f ∈ (process depth c env (World.start fs)).2.crashPoints,
      f.leaf c.rsyncStatePath = fs.leaf c.rsyncStatePath ∨
      ∃ n st k t, Announces c base name env fs n ∧ st.current = some n.rev ∧
        f.leaf c.rsyncStatePath = some (.file ((Ext.encRsync st).take k) t) := by
    refine run_rsync_keeps (P := fun f => f.leaf c.rsyncStatePath = fs.leaf c.rsyncStatePath ∨
      ∃ n st k t, Announces c base name env fs n ∧ st.current = some n.rev ∧
        f.leaf c.rsyncStatePath = some (.file ((Ext.encRsync st).take k) t)) hl hc he ?_ ?_ ?_
    · exact fun f _ h => Or.inl (h _ (Or.inr rfl))
    · intro f f' h hs _
      rw [hs.1 _ (Or.inr rfl)]; exact h
    · intro s x w hr
      obtain ⟨n, ha, hv, _⟩ := hr.version
      let P : FS → Prop := fun f => f.leaf c.rsyncStatePath = fs.leaf c.rsyncStatePath ∨
        ∃ n st k t, Announces c base name env fs n ∧ st.current = some n.rev ∧
          f.leaf c.rsyncStatePath = some (.file ((Ext.encRsync st).take k) t)
      have frame : ∀ f f' : FS, f.WF ∧ P f → Change (c.rsyncDir <+: ·) f f' → f'.WF ∧ P f' := by
        rintro f f' ⟨h3, h4⟩ h5
        obtain ⟨h6, h7⟩ := h5 h3
        refine ⟨h6, ?_⟩
        dsimp only [P]
        rw [h7 _ hl.rsyncRsyncState.1]; exact h4
      have hrev : ∀ (r : RsyncRevision) q, r.path c <+: q → c.rsyncDir <+: q :=
        fun r q h => (List.prefix_append _ _).trans h
      intro hP
      refine Keeps.via (Q := fun f => f.WF ∧ P f) ?_ ⟨hr.wf, hP⟩ (fun _ h => h.2) hP
      refine updateRsync_tr (T := Keeps fun f => f.WF ∧ P f) hr.snapshot
        (Keeps.of_same (recover_same c env w)) ?_ ?_ ?_ ?_ ?_
      · intro st w1 _
        refine Keeps.of_within (makeRevision_in (hc.objects he) env w1) (fun f f' g1 g2 => frame f f' g1
          (fun g => ⟨(g2 g).1, fun q hq => (g2 g).2 q (fun h => hq (hrev _ q h))⟩))
      · intro st w1 w2 _ _
        exact Keeps.of_within (switchTo_in (E := Eff.only (c.rsyncDir <+: ·))
          (fun q h => (List.prefix_append _ _).trans h) (fun q h => (List.prefix_append _ _).trans h)
          (fun _ _ _ q h => hrev _ q h) (fun q h => hrev _ q h) env w2) frame
      · intro st w1 w2 w3 _ _ _
        exact Keeps.of_same (updateCurrent_same st x.rev env w3)
      · intro st w1 w2 w3 st1 w4 _ _ _ _
        exact Keeps.of_within (cleanOld_in (E := Eff.only (c.rsyncDir <+: ·))
          (fun d _ q h => hrev _ q h) env w4) frame
      · intro st w1 w2 w3 st1 w4 st2 w5 e1 e2 e3 e4 e5
        have hcur : st2.current = some n.rev := by
          rw [(cleanOld_ok e5).1, (updateCurrent_ok e4).1, hv]
        refine Keeps.of_steps ((writeBuf_writing c.rsyncStatePath (Ext.encRsync st2) env w5).and
          (writeBuf_in (E := Eff.only (· = c.rsyncStatePath)) rfl _ env w5).steps) ?_
        rintro f f' ⟨g1, g2⟩ ⟨⟨g3, g4⟩, g5⟩
        refine ⟨(g5 g1).1, ?_⟩
        rcases g4 with g4 | ⟨k, t, g4⟩
        · dsimp only [P]; rw [g4]; exact g2
        · exact Or.inr ⟨n, st2, k, t, ha, hcur, g4⟩
  intro f hf
  rcases key f hf with h | ⟨n, st, k, t, h1, h2, h3⟩
  · exact Or.inl h
  · by_cases hlen : k < (Ext.encRsync st).length
    · exact Or.inr (Or.inr (torn_publishes_nothing hl he h3 (Ext.dec_rsync_torn st k hlen)))
    · rw [List.take_of_length_le (by omega)] at h3
      refine Or.inr (Or.inl ⟨n, st, h1, Or.inl ⟨_, ?_, Ext.dec_enc_rsync st⟩, h2⟩)
      unfold FS.file?
      rw [file_of_leaf h3]

/-! ## The hypotheses can be met -/

section
open Demo
set_option maxRecDepth 100000

example : ∀ f ∈ (process 5 conf (envAt 1 notif2) (World.start fs1)).2.crashPoints,
      f.leaf conf.rrdpStatePath = fs1.leaf conf.rrdpStatePath ∨
      (∃ etag n n' t s', Offers conf (envAt 1 notif2) fs1 etag n ∧ SameVersion n n' ∧
        f.leaf (conf.notifPath name) = some (.file (Ext.writeNotif n') t) ∧
        Recorded conf f s' ∧ Describes base s' n') ∨
      Refuses conf f :=
  C22_rrdp_state 5 conf (envAt 1 notif2) fs1 base name layout (runConds1 1)

example : ∀ f ∈ (process 5 conf (envAt 1 notif2) (World.start fs1)).2.crashPoints,
      f.leaf conf.rsyncStatePath = fs1.leaf conf.rsyncStatePath ∨
      (∃ n st, Announces conf base name (envAt 1 notif2) fs1 n ∧ RsyncRecorded conf f st ∧
        st.current = some n.rev) ∨
      PublishesNothing conf base name f :=
  C22_rsync_state 5 conf (envAt 1 notif2) fs1 base name layout (runConds1 1) rfl

/-- The state in a state file, if it is one. -/
def Demo.stateOf (f : FS) (p : Path) (dec : Bytes → Bool) : Option Bool := (f.file? p).map dec

/-- All three cases occur, for both state files: the old file, a part, and the complete new file. -/
example : (let l := (process 5 conf (envAt 1 notif2) (World.start fs1)).2.crashPoints
    let part (p : Path) (dec : Bytes → Bool) (f : FS) : Bool := stateOf f p dec == some false
    let new (p : Path) (dec : Bytes → Bool) (f : FS) : Bool :=
      stateOf f p dec == some true && !decide (f.leaf p = fs1.leaf p)
    let all (p : Path) (dec : Bytes → Bool) : Bool :=
      l.any (fun f => decide (f.leaf p = fs1.leaf p)) && l.any (part p dec) && l.any (new p dec)
    all conf.rrdpStatePath (fun b => (Ext.decState b).isSome) &&
      all conf.rsyncStatePath (fun b => (Ext.decRsync b).isSome)) = true := by
  decide +kernel

end

end KSync
