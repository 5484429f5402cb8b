import Verif.Lemmas.RsyncRun
import Verif.Lemmas.Outcome

/-! # The rsync part of whole runs -/

set_option linter.unusedSectionVars false
set_option linter.unusedSimpArgs false
set_option linter.unusedVariables false

namespace KSync

variable [Ext] {env : Env}

/-- A place of interest for rsync. -/
def RsyncArea (c : Config) (q : Path) : Prop := c.rsyncDir <+: q ∨ q = c.rsyncStatePath

/-- Nothing changed for rsync. -/
def RsyncSame (c : Config) (f f' : FS) : Prop :=
  (∀ q, RsyncArea c q → f'.leaf q = f.leaf q) ∧
  (∀ q, c.rsyncDir <+: q → (f'.get q = some .dir ↔ f.get q = some .dir))

theorem RsyncSame.refl (c : Config) (f : FS) : RsyncSame c f f := ⟨fun _ _ => rfl, fun _ _ => Iff.rfl⟩

theorem RsyncSame.trans {c : Config} {a b d : FS} (h : RsyncSame c a b) (h' : RsyncSame c b d) :
    RsyncSame c a d :=
  ⟨fun q hq => (h'.1 q hq).trans (h.1 q hq), fun q hq => (h'.2 q hq).trans (h.2 q hq)⟩

theorem FS.get_of_same {f f' : FS} {q : Path} (h1 : f'.leaf q = f.leaf q)
    (h2 : f'.get q = some .dir ↔ f.get q = some .dir) : f'.get q = f.get q := by
  by_cases hd : f.get q = some .dir
  · rw [hd, h2.2 hd]
  · have key : ∀ {g : FS}, g.get q ≠ some .dir → g.leaf q = g.get q := fun {g} h => by
      unfold FS.leaf
      match hg : g.get q with
      | none => rfl
      | some .dir => exact absurd hg h
      | some (.file b t) => rfl
      | some (.link t) => rfl
    rw [← key hd, ← key (fun h => hd (h2.1 h))]
    exact h1

theorem RsyncSame.get {c : Config} {f f' : FS} (h : RsyncSame c f f') {q : Path} (hq : c.rsyncDir <+: q) :
    f'.get q = f.get q := FS.get_of_same (h.1 q (Or.inl hq)) (h.2 q hq)

/-- The situation when the rsync directory is updated. -/
structure RsyncReady (c : Config) (base name : Str) (env : Env) (fs : FS) (s : RrdpState)
    (x : SnapshotState) (w : World) : Prop where
  snapshot : s.snapshot = some x
  path : s.mappings.path x.relPath = c.pubPath x.relPath
  good : GoodRel name x.relPath
  wf : w.cur.WF
  leaf : ∀ q, ¬ c.stagingDir <+: q → ¬ c.rrdpDir <+: q → w.cur.leaf q = fs.leaf q
  version : ∃ n, Announces c base name env fs n ∧ x.rev = n.rev ∧ x.hash = n.snapHash ∧
    n.snapUri = base ++ x.relPath
  source : CleanSource c base env fs → w.cur.link? (c.pubPath x.relPath) = none ∧
    ∀ b, w.cur.file? (c.pubPath x.relPath) = some b → Ext.sha b = x.hash

theorem rsyncReady {depth : Nat} {c : Config} {base name : Str} {fs : FS} {w0 w1 w2 w3 : World}
    {s s1 s2 : RrdpState} {st : StagedChanges} {n : Notif} (hl : Layout c base name)
    (hc : RunConds c base name env fs)
    (h : AtPublish depth c base name env (World.start fs) s st w0 n)
    (e1 : moveStaged c st env w0 = (.ok (), w1)) (e2 : s.absorb st env w1 = (.ok s1, w2))
    (e3 : s1.clean c env w2 = (.ok s2, w3)) :
    RsyncReady c base name env fs s2 st.snapshot w3 := by
  obtain ⟨hw, hf⟩ := before_rsync hc h e1 e2 e3
  obtain ⟨hsame, _, kept, gone, new, ha⟩ := absorb_ok e2
  obtain ⟨l, hs2⟩ := clean_state e3
  have hp : s2.mappings.path st.snapshot.relPath = c.pubPath st.snapshot.relPath := by
    rw [hs2]
    show s1.mappings.path _ = _
    rw [ha.mappings, h.sane.mappings]
    exact joinPath_clean h.goodSnap.clean
  refine ⟨by rw [hs2]; exact ha.snapshot, hp, h.goodSnap, hw, hf, ?_, fun hcs => ?_⟩
  · obtain ⟨s0, n0, g1, ⟨v, g5⟩, g2, ⟨ds, _, h3⟩, _⟩ := h.origin
    have g4 := (decide_reset h.prepared.decided).2
    refine ⟨n0, ⟨s0, g1, g2, fun x hx => ?_⟩, ?_, ?_, ?_⟩
    · have := g4 x (by rw [g5]; exact hx)
      rw [h3] at this
      exact this
    · unfold SnapshotState.rev Notif.rev
      rw [h.staged.snapSession, h.staged.snapSerial, h3]
    · rw [h.staged.snapHash, h3]
    · have := h.staged.snapUri
      rw [h3] at this
      exact this
  · have hst := prepare_staged (w := World.start fs) hc hcs.no304 hcs.oneHash hcs.noLinks h.prep
    have hpub := moveStaged_published hl.rrdpStaging h.goodSnap h.goodDeltas hst e1
      (st.snapshot.relPath, st.snapshot.hash) (by simp [StagedChanges.refs])
    obtain ⟨b, hb, hsha⟩ := hpub
    have hsh := clean_shrinks (s := s1) (c := c) env w2
    rw [e3] at hsh
    have hsh : Shrinks w2.cur w3.cur := hsh.ends (fun f q => Or.inl rfl) (fun a b d h1 h2 q => by
      rcases h2 q with h2 | h2
      · rw [h2]; exact h1 q
      · exact Or.inr h2)
    have h2 : w2.cur.file? (c.pubPath st.snapshot.relPath) = some b := by rw [hsame.cur]; exact hb
    rcases hsh (c.pubPath st.snapshot.relPath) with h3 | h3
    · have hf3 : w3.cur.file? (c.pubPath st.snapshot.relPath) = some b := by
        unfold FS.file?; rw [h3]; exact h2
      refine ⟨?_, fun b' hb' => ?_⟩
      · unfold FS.link?
        unfold FS.file? at hf3
        split at hf3
        · rename_i hg; rw [hg]
        · cases hf3
      · rw [hf3] at hb'; cases hb'; exact hsha
    · refine ⟨by unfold FS.link?; rw [h3], fun b' hb' => ?_⟩
      unfold FS.file? at hb'; rw [h3] at hb'; cases hb'

/-- Writing a file elsewhere. -/
theorem writeBuf_rsyncSame {c : Config} {p : Path} {b : Bytes} (hp : ¬ RsyncArea c p) :
    Does (RsyncSame c) (writeBuf p b) := by
  intro env w
  refine ((writeBuf_dirs (S := (· = p)) (R := fun _ => False) rfl b env w).and
    (writeBuf_writing p b env w)).mono ?_
  rintro f f' ⟨h1, h2⟩
  refine ⟨fun q hq => h2.1 q (fun h => hp (h ▸ hq)), fun q hq => h1.1 q ?_⟩
  rintro _ rfl h
  exact hp (Or.inl (hq.trans h))

theorem rename_rsyncSame {c : Config} {src dst : Path} (h1 : ∀ q, src <+: q → ¬ RsyncArea c q)
    (h2 : ∀ q, dst <+: q → ¬ RsyncArea c q) : Does (RsyncSame c) (rename src dst) := by
  intro env w
  refine (rename_get src dst env w).mono (fun f f' h => ?_)
  refine ⟨fun q hq => leaf_of_get (h q (fun h' => h1 q h' hq) (fun h' => h2 q h' hq)), fun q hq => ?_⟩
  rw [h q (fun h' => h1 q h' (Or.inl hq)) (fun h' => h2 q h' (Or.inl hq))]

theorem Layout.rrdp_not_rsync {c : Config} {base name : Str} (hl : Layout c base name) {q : Path}
    (h : c.rrdpDir <+: q) : ¬ RsyncArea c q := by
  rintro (h' | h')
  · exact hl.rrdpRsync.not_both h h'
  · exact hl.rrdpRsyncState.1 (h' ▸ h)

theorem writeNotification_rsyncSame {c : Config} {base name : Str} {s : RrdpState}
    {d : Nat} (hl : Layout c base name) (hs : Sane c base name s) :
    Does (RsyncSame c) (s.writeNotification d) := by
  unfold RrdpState.writeNotification
  have h1 : c.rrdpDir <+: s.mappings.path s.source.tmpName := by
    rw [hs.tmpPath hl.uri]; exact List.prefix_append _ _
  have h2 : c.rrdpDir <+: s.mappings.path s.source.name := by
    rw [hs.notifPath hl.uri]; exact List.prefix_append _ _
  refine Rel.bind (notifyDelay_same d).quiet (fun _ => ?_)
  refine Rel.bind (Rel.lift _) (fun n => ?_)
  refine Rel.bind (writeBuf_rsyncSame (hl.rrdp_not_rsync h1)) (fun _ => ?_)
  exact rename_rsyncSame (fun q hq => hl.rrdp_not_rsync (h1.trans hq))
    (fun q hq => hl.rrdp_not_rsync (h2.trans hq))

theorem rrdpState_not_rsync {c : Config} {base name : Str} (hl : Layout c base name) :
    ¬ RsyncArea c c.rrdpStatePath := by
  rintro (h | h)
  · exact hl.rsyncState.1 h
  · simp [Config.rrdpStatePath, Config.rsyncStatePath] at h

/-- What holds before and during the rsync part (`P`) and from then on (`Q`).  The notification file is not
touched before. -/
theorem run_rsync_notif_phases {P Q : FS → Prop} {depth : Nat} {c : Config} {base name : Str} {fs : FS}
    (hl : Layout c base name) (hc : RunConds c base name env fs) (he : c.rsyncEnabled = true)
    (hQ : ∀ f, Q f → P f)
    (h0 : ∀ f, f.WF → (∀ q, RsyncArea c q ∨ q = c.rrdpStatePath ∨ q = c.notifPath name →
      f.leaf q = fs.leaf q) → P f)
    (h1 : ∀ f f', Q f → RsyncSame c f f' → f'.WF → Q f')
    (h2 : ∀ s x w, RsyncReady c base name env fs s x w →
      (∃ s0 st w1 n, AtPublish depth c base name env (World.start fs) s0 st w1 n ∧ x = st.snapshot) →
      w.cur.leaf (c.notifPath name) = fs.leaf (c.notifPath name) → P w.cur →
      Keeps P w (updateRsync s c env w).2 ∧
      ((updateRsync s c env w).1 = .ok () → Q (updateRsync s c env w).2.cur)) :
    ∀ f ∈ (process depth c env (World.start fs)).2.crashPoints, P f := by
  let A : Path → Prop := fun q => RsyncArea c q ∨ q = c.rrdpStatePath ∨ q = c.notifPath name
  have notStaging : ∀ q, A q → ¬ c.stagingDir <+: q := by
    rintro q ((h | rfl) | rfl | rfl) h'
    · exact hl.rsyncStaging.not_both h h'
    · unfold Config.stagingDir Config.rsyncStatePath at h'
      rw [List.prefix_append_right_inj] at h'
      exact absurd h' (by decide)
    · unfold Config.stagingDir Config.rrdpStatePath at h'
      rw [List.prefix_append_right_inj] at h'
      exact absurd h' (by decide)
    · exact hl.rrdpStaging.not_both (List.prefix_append _ _) h'
  have notData : ∀ q, A q → ¬ DataPath c name q := by
    rintro q (h | rfl | rfl) h'
    · exact hl.rrdp_not_rsync h'.below h
    · exact hl.rrdpState.1 h'.below
    · exact not_dataPath_single (Or.inl rfl) h'
  let B : FS → Prop := fun f => f.WF ∧ ∀ q, A q → f.leaf q = fs.leaf q
  have hB : B fs := ⟨hc.wf, fun _ _ => rfl⟩
  have frame : ∀ {S : Path → Prop}, (∀ q, A q → ¬ S q) → ∀ f f', B f → Change S f f' → B f' := by
    rintro S hS f f' ⟨g1, g2⟩ g3
    exact ⟨(g3 g1).1, fun q hq => by rw [(g3 g1).2 q (hS q hq)]; exact g2 q hq⟩
  have nApply : ∀ q, A q → ¬ (applyEff c name).files q := by
    rintro q h (h' | h')
    · exact notStaging q h h'
    · exact notData q h h'
  rcases run_cases (depth := depth) (w := World.start fs) hc with ⟨k1, _⟩ | ⟨s, st, w1, n, k1, k2⟩
  · intro f hf
    have := (Keeps.of_within k1 (frame (fun q h => notStaging q h))).start hB f hf
    exact h0 f this.1 this.2
  · have hprep : Keeps B (World.start fs) w1 :=
      Keeps.of_within k1.within (frame (fun q h => notStaging q h))
    rw [k2]
    have hB1 := (hprep hB).1
    have before : ∀ w2 s1 w3 s2 w4, moveStaged c st env w1 = (.ok (), w2) →
        s.absorb st env w2 = (.ok s1, w3) → s1.clean c env w3 = (.ok s2, w4) → B w4.cur := by
      intro w2 s1 w3 s2 w4 e1 e2 e3
      have hp := k1.pubPre hc
      have hm := moveStaged_within (c := c) hp.goodSnap hp.goodDeltas env w1
      rw [e1] at hm
      have g1 := (Keeps.of_within hm (frame nApply) hB1).1
      have g2 : B w3.cur := by rw [(absorb_ok e2).1.cur]; exact g1
      have hcl := clean_dataPath (absorb_sane e2 hp.sane hp.goodSnap hp.goodDeltas) env w3 g2.1
      rw [e3] at hcl
      exact (Keeps.of_within hcl (frame nApply) g2).1
    have part : ∀ w2 s1 w3 s2 w4, moveStaged c st env w1 = (.ok (), w2) →
        s.absorb st env w2 = (.ok s1, w3) → s1.clean c env w3 = (.ok s2, w4) →
        Keeps P w4 (updateRsync s2 c env w4).2 ∧
        ((updateRsync s2 c env w4).1 = .ok () → Q (updateRsync s2 c env w4).2.cur) := by
      intro w2 s1 w3 s2 w4 e1 e2 e3
      have g := before _ _ _ _ _ e1 e2 e3
      exact h2 s2 st.snapshot w4 (rsyncReady hl hc k1 e1 e2 e3) ⟨s, st, w1, n, k1, rfl⟩
        (g.2 _ (Or.inr (Or.inr rfl))) (h0 _ g.1 g.2)
    have atEnd : ∀ w2 s1 w3 s2 w4 w5, moveStaged c st env w1 = (.ok (), w2) →
        s.absorb st env w2 = (.ok s1, w3) → s1.clean c env w3 = (.ok s2, w4) →
        rsyncPart c s2 env w4 = (.ok (), w5) → Q w5.cur := by
      intro w2 s1 w3 s2 w4 w5 e1 e2 e3 e4
      unfold rsyncPart at e4
      rw [if_pos he] at e4
      have := (part _ _ _ _ _ e1 e2 e3).2
      rw [e4] at this
      exact this rfl
    have : Keeps P w1 (publish c s st env w1).2 := by
      refine publish_by (T := Keeps P) ⟨hc.uri, k1.sane, k1.goodSnap, k1.goodDeltas, hc.objects⟩ k1.wf
        ?_ ?_ ?_ ?_ ?_ ?_
      · exact fun h => Keeps.via (Keeps.of_within h (frame nApply)) hB1 (fun f hf => h0 f hf.1 hf.2)
      · intro w2 e1 hw2 h
        have hm := moveStaged_within (c := c) k1.goodSnap k1.goodDeltas env w1
        rw [e1] at hm
        have g1 := (Keeps.of_within hm (frame nApply) hB1).1
        exact Keeps.via (Keeps.of_within h (frame (fun _ _ => id))) g1 (fun f hf => h0 f hf.1 hf.2)
      · intro w2 s1 w3 e1 e2 hw3 hs1 h
        have hm := moveStaged_within (c := c) k1.goodSnap k1.goodDeltas env w1
        rw [e1] at hm
        have g1 := (Keeps.of_within hm (frame nApply) hB1).1
        have g2 : B w3.cur := by rw [(absorb_ok e2).1.cur]; exact g1
        exact Keeps.via (Keeps.of_within h (frame nApply)) g2 (fun f hf => h0 f hf.1 hf.2)
      · intro w2 s1 w3 s2 w4 e1 e2 e3 hw4 hs2 h
        unfold rsyncPart
        rw [if_pos he]
        exact (part _ _ _ _ _ e1 e2 e3).1
      · intro w2 s1 w3 s2 w4 w5 e1 e2 e3 e4 hw5 hs2 h _
        have g := writeNotification_rsyncSame (d := c.rrdpNotifyDelay) hl hs2 env w5
        refine Keeps.via (Q := fun f => f.WF ∧ Q f) (Keeps.of_steps (g.and h.steps) ?_)
          ⟨hw5, atEnd _ _ _ _ _ _ e1 e2 e3 e4⟩ (fun f hf => hQ f hf.2)
        rintro f f' ⟨g1, g2⟩ ⟨g3, g4⟩
        exact ⟨(g4 g1).1, h1 f f' g2 g3 (g4 g1).1⟩
      · intro w2 s1 w3 s2 w4 w5 w6 e1 e2 e3 e4 e5 hw6 hs2 _ h _
        have g := writeBuf_rsyncSame (c := c) (b := Ext.encState s2) (rrdpState_not_rsync hl) env w6
        have g5 := writeNotification_rsyncSame (d := c.rrdpNotifyDelay) hl hs2 env w5
        rw [e5] at g5
        refine Keeps.via (Q := fun f => f.WF ∧ Q f) (Keeps.of_steps (g.and h.steps) ?_)
          ⟨hw6, h1 _ _ (atEnd _ _ _ _ _ _ e1 e2 e3 e4)
            (g5.ends (RsyncSame.refl c) (fun _ _ _ => RsyncSame.trans)) hw6⟩ (fun f hf => hQ f hf.2)
        rintro f f' ⟨g1, g2⟩ ⟨g3, g4⟩
        exact ⟨(g4 g1).1, h1 f f' g2 g3 (g4 g1).1⟩
    have hprep' : Keeps P (World.start fs) w1 :=
      Keeps.via hprep hB (fun f hf => h0 f hf.1 hf.2)
    exact (Tr.trans hprep' this : Keeps P _ _).start (h0 fs hB.1 hB.2)

/-- What holds before and during the rsync part (`P`) and from then on (`Q`). -/
theorem run_rsync_phases {P Q : FS → Prop} {depth : Nat} {c : Config} {base name : Str} {fs : FS}
    (hl : Layout c base name) (hc : RunConds c base name env fs) (he : c.rsyncEnabled = true)
    (hQ : ∀ f, Q f → P f)
    (h0 : ∀ f, f.WF → (∀ q, RsyncArea c q ∨ q = c.rrdpStatePath → f.leaf q = fs.leaf q) → P f)
    (h1 : ∀ f f', Q f → RsyncSame c f f' → f'.WF → Q f')
    (h2 : ∀ s x w, RsyncReady c base name env fs s x w → P w.cur →
      Keeps P w (updateRsync s c env w).2 ∧
      ((updateRsync s c env w).1 = .ok () → Q (updateRsync s c env w).2.cur)) :
    ∀ f ∈ (process depth c env (World.start fs)).2.crashPoints, P f :=
  run_rsync_notif_phases hl hc he hQ
    (fun f hw hf => h0 f hw (fun q hq => hf q (hq.imp id Or.inl))) h1 (fun s x w hr _ _ => h2 s x w hr)

/-- What holds before, during and after the rsync part holds at every instant of the run. -/
theorem run_rsync_keeps {P : FS → Prop} {depth : Nat} {c : Config} {base name : Str} {fs : FS}
    (hl : Layout c base name) (hc : RunConds c base name env fs) (he : c.rsyncEnabled = true)
    (h0 : ∀ f, f.WF → (∀ q, RsyncArea c q → f.leaf q = fs.leaf q) → P f)
    (h1 : ∀ f f', P f → RsyncSame c f f' → f'.WF → P f')
    (h2 : ∀ s x w, RsyncReady c base name env fs s x w → Keeps P w (updateRsync s c env w).2) :
    ∀ f ∈ (process depth c env (World.start fs)).2.crashPoints, P f :=
  run_rsync_phases hl hc he (fun _ => id) (fun f hw hf => h0 f hw (fun q hq => hf q (Or.inl hq))) h1
    (fun s x w hr hP => ⟨h2 s x w hr, fun _ => (h2 s x w hr hP).1⟩)

/-- A successful run with rsync: nothing was new, or the rsync part was successful. -/
theorem run_rsync_ok {depth : Nat} {c : Config} {base name : Str} {fs : FS} {w' : World}
    (hl : Layout c base name) (hc : RunConds c base name env fs) (he : c.rsyncEnabled = true)
    (h : process depth c env (World.start fs) = (.ok (), w')) :
    w'.crashPoints = [fs] ∨ ∃ s x w3 w4, RsyncReady c base name env fs s x w3 ∧
      updateRsync s c env w3 = (.ok (), w4) ∧ RsyncSame c w4.cur w'.cur ∧
      w'.cur.leaf (c.pubPath x.relPath) = w3.cur.leaf (c.pubPath x.relPath) ∧
      ∃ n' t, w'.cur.get (c.notifPath name) = some (.file (Ext.writeNotif n') t) ∧
        n'.session = x.session ∧ n'.serial = x.serial ∧ n'.snapHash = x.hash ∧
        n'.snapUri = base ++ x.relPath := by
  rcases run_ok (w := World.start fs) hc h with ⟨h1, _⟩ | ⟨s, st, w1, n, k1, k2⟩
  · left
    unfold World.crashPoints
    rw [h1.1, h1.2]
    rfl
  · right
    obtain ⟨w2, s1, w3, s2, w4, w5, w6, e1, e2, e3, e4, e5, e6⟩ := publish_ok k2
    have hr := rsyncReady hl hc k1 e1 e2 e3
    have hp := k1.pubPre hc
    have hs2 : Sane c base name s2 := clean_sane e3 (absorb_sane e2 hp.sane hp.goodSnap hp.goodDeltas)
    unfold rsyncPart at e4
    rw [if_pos he] at e4
    have g5 := writeNotification_rsyncSame (d := c.rrdpNotifyDelay) hl hs2 env w5
    rw [e5] at g5
    have g6 := writeBuf_rsyncSame (c := c) (b := Ext.encState s2) (rrdpState_not_rsync hl) env w6
    rw [show writeBuf c.rrdpStatePath (Ext.encState s2) env w6 = _ from e6] at g6
    have g5 := g5.ends (RsyncSame.refl c) (fun _ _ _ => RsyncSame.trans)
    have g6 := g6.ends (RsyncSame.refl c) (fun _ _ _ => RsyncSame.trans)
    obtain ⟨w2', w3', w4', s1', s2', kept, gone, new, d⟩ := publish_done hl hp k1.wf k2
    refine ⟨s2, st.snapshot, w4, w5, hr, e4, g5.trans g6, ?_, newNotif s st, d.notif.choose,
      d.notif.choose_spec, rfl, rfl, rfl, ?_⟩
    · have t1 : w2' = w2 := by have := d.moved; rw [e1] at this; cases this; rfl
      subst t1
      have t2 : s1' = s1 ∧ w3' = w3 := by have := d.absorbed; rw [e2] at this; cases this; exact ⟨rfl, rfl⟩
      obtain ⟨rfl, rfl⟩ := t2
      have t3 : w4' = w4 := by have := d.cleaned; rw [e3] at this; cases this; rfl
      subst t3
      exact d.data _ (k1.goodSnap.dataPath (List.prefix_refl _))
    · exact k1.sane.uriOf hc.uri _

end KSync
