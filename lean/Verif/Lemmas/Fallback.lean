import Verif.Spec.Fallback
import Verif.Lemmas.RsyncMoves
import Verif.Lemmas.Versions
import Verif.Lemmas.RsyncHistory
import Verif.Lemmas.Lock

/-! # The rsync directory is not behind the notification (C78) -/

set_option linter.unusedSectionVars false
set_option linter.unusedVariables false

namespace KSync

variable [Ext] {env : Env} {w w' : World}

/-! ## One run -/

theorem FS.link?_of_get {f : FS} {q : Path} {t : Name} (h : f.get q = some (.link t)) :
    f.link? q = some t := by
  unfold FS.link?
  rw [h]

theorem updateRsync_current {s : RrdpState} {c : Config} {x : SnapshotState} (hm : c.rsyncUseSymlinks = true)
    (ho : CleanObjects c.rsyncIncludeHost) (ha : Apart c.rsyncDir c.rsyncStatePath)
    (hs : s.snapshot = some x) (hw : w.cur.WF) :
    Keeps (fun f => f.WF ∧ (f.leaf c.rsyncCurrent = w.cur.leaf c.rsyncCurrent ∨
      f.link? c.rsyncCurrent = some x.rev.dirName)) w (updateRsync s c env w).2 ∧
    ((updateRsync s c env w).1 = .ok () →
      (updateRsync s c env w).2.cur.link? c.rsyncCurrent = some x.rev.dirName) := by
  have hnc : ¬ (c.rsyncCurrent = c.rsyncStatePath) := fun h => ha.1 (h ▸ List.prefix_append _ _)
  have frame : ∀ {S : Path → Prop}, ¬ S c.rsyncCurrent → ∀ f f' : FS,
      (f.WF ∧ (f.leaf c.rsyncCurrent = w.cur.leaf c.rsyncCurrent ∨
        f.link? c.rsyncCurrent = some x.rev.dirName)) → Change S f f' →
      (f'.WF ∧ (f'.leaf c.rsyncCurrent = w.cur.leaf c.rsyncCurrent ∨
        f'.link? c.rsyncCurrent = some x.rev.dirName)) := by
    rintro S hS f f' ⟨g1, g2⟩ g3
    have g4 := (g3 g1).2 _ hS
    refine ⟨(g3 g1).1, ?_⟩
    rw [g4, FS.link?_of_leaf g4]
    exact g2
  have nRev : ∀ r : RsyncRevision, ¬ r.path c <+: c.rsyncCurrent :=
    fun r h => rev_not_current h (List.prefix_refl _)
  have nOld : ∀ st : RsyncDirState, ¬ ∃ d ∈ st.old, d.revision.path c <+: c.rsyncCurrent :=
    fun st ⟨d, _, h⟩ => nRev _ h
  constructor
  · refine updateRsync_tr (T := Keeps _) hs ?_ ?_ ?_ ?_ ?_ ?_
    · exact Keeps.of_same (recover_same c env w)
    · intro st w1 _
      exact Keeps.of_within (makeRevision_in ho env w1) (frame (nRev _))
    · intro st w1 w2 _ _
      unfold switchTo
      rw [if_pos hm]
      have k1 := symlinkCurrent_steps (rev := x.rev) (c := c) env w2
      have k2 := symlinkCurrent_in (r := x.rev) (c := c) (E := Eff.only (fun _ => True))
        (fun _ _ => trivial) (fun _ _ => trivial) env w2
      refine Keeps.of_steps (k1.and k2.steps) ?_
      rintro f f' ⟨g1, g2⟩ ⟨⟨_, g4⟩, g5⟩
      refine ⟨(g5 g1).1, ?_⟩
      rcases g4 with g4 | ⟨_, g4⟩
      · rw [leaf_of_get g4, FS.link?_of_leaf (leaf_of_get g4)]; exact g2
      · exact Or.inr (FS.link?_of_get g4)
    · intro st w1 w2 w3 _ _ _
      exact Keeps.of_same (updateCurrent_same _ _ env w3)
    · intro st w1 w2 w3 st1 w4 _ _ _ _
      exact Keeps.of_within (cleanOld_in' env w4) (frame (nOld _))
    · intro st w1 w2 w3 st1 w4 st2 w5 _ _ _ _ _
      exact Keeps.of_within (writeBuf_in (E := Eff.only (· = c.rsyncStatePath)) rfl _ env w5)
        (frame hnc)
  · intro hok
    obtain ⟨w1, w2, w3, w4, w5, st, st1, st2, d⟩ := updateRsync_ok hs (Prod.ext hok rfl)
    have h1 : w1.cur.WF := by
      have := recover_same c env w
      rw [d.recovered] at this
      rw [this.cur]; exact hw
    have h2 := makeRevision_in (rev := x.rev) (c := c) (src := s.mappings.path x.relPath) ho env w1
    rw [d.made] at h2
    have g3 := d.switched
    unfold switchTo at g3
    rw [if_pos hm] at g3
    have h3 := symlinkCurrent_in (r := x.rev) (c := c) (E := Eff.only (fun _ => True))
        (fun _ _ => trivial) (fun _ _ => trivial) env w2
    rw [g3] at h3
    have hw3 := h3.wf (h2.wf h1)
    obtain ⟨_, s4, _, _⟩ := updateCurrent_ok d.updated
    have h5 := cleanOld_in' (st := st1) (c := c) env w4
    rw [d.cleaned] at h5
    have hw4 : w4.cur.WF := by rw [s4.cur]; exact hw3
    have h6 := writeBuf_in (E := Eff.only (· = c.rsyncStatePath)) rfl (Ext.encRsync st2) env w5
    rw [show writeBuf c.rsyncStatePath (Ext.encRsync st2) env w5 = _ from d.persisted] at h6
    have e : (updateRsync s c env w).2.cur.leaf c.rsyncCurrent = w3.cur.leaf c.rsyncCurrent := by
      rw [h6.frame (h5.wf hw4) _ hnc, h5.frame hw4 _ (nOld _), s4.cur]
    rw [FS.link?_of_leaf e]
    exact FS.link?_of_get (symlinkCurrent_ok g3)

/-- The version that is published in a run. -/
def Publishing (depth : Nat) (c : Config) (base name : Str) (env : Env) (fs : FS) (s : RrdpState)
    (st : StagedChanges) (m : Notif) : Prop :=
  (∃ w n, AtPublish depth c base name env (World.start fs) s st w n) ∧ Announces c base name env fs m ∧
    st.snapshot.rev = m.rev

theorem Publishing.version {depth : Nat} {c : Config} {base name : Str} {fs : FS} {s : RrdpState}
    {st : StagedChanges} {m : Notif} (h : Publishing depth c base name env fs s st m) (age : Uuid → Nat) :
    (newNotif s st).version age = m.version age := by
  have := h.2.2
  unfold SnapshotState.rev Notif.rev at this
  injection this with h1 h2
  unfold Notif.version
  rw [← h1, ← h2]
  rfl

/-- What is announced in the notification is what the rsync directory has by then. -/
theorem run_rsync_before_notif {P : FS → Prop} {Q : Notif → FS → Prop} {depth : Nat} {c : Config}
    {base name : Str} {fs : FS} (hl : Layout c base name) (hc : RunConds c base name env fs)
    (he : c.rsyncEnabled = true)
    (h0 : ∀ f, f.WF → (∀ q, RsyncArea c q → f.leaf q = fs.leaf q) → P f)
    (h1 : ∀ m f f', Q m f → RsyncSame c f f' → f'.WF → Q m f')
    (h2 : ∀ s x w m, RsyncReady c base name env fs s x w → Announces c base name env fs m → x.rev = m.rev →
      x.hash = m.snapHash → P w.cur → Keeps P w (updateRsync s c env w).2 ∧
      ((updateRsync s c env w).1 = .ok () → Q m (updateRsync s c env w).2.cur)) :
    ∀ f ∈ (process depth c env (World.start fs)).2.crashPoints,
      (P f ∧ f.leaf (c.notifPath name) = fs.leaf (c.notifPath name)) ∨
      ∃ s st m, Publishing depth c base name env fs s st m ∧ Q m f ∧
        (f.leaf (c.notifPath name) = fs.leaf (c.notifPath name) ∨
          ∃ t, f.leaf (c.notifPath name) = some (.file (Ext.writeNotif (newNotif s st)) t)) := by
  intro f hf
  have key : (f.leaf (c.notifPath name) = fs.leaf (c.notifPath name) ∧ P f) ∨
      ∃ s st m, Publishing depth c base name env fs s st m ∧ Q m f := by
    refine run_rsync_notif_phases
      (P := fun f => (f.leaf (c.notifPath name) = fs.leaf (c.notifPath name) ∧ P f) ∨
        ∃ s st m, Publishing depth c base name env fs s st m ∧ Q m f)
      (Q := fun f => ∃ s st m, Publishing depth c base name env fs s st m ∧ Q m f) hl hc he
      (fun _ => Or.inr) ?_ ?_ ?_ f hf
    · exact fun f hw h => Or.inl ⟨h _ (Or.inr (Or.inr rfl)), h0 f hw fun q hq => h q (Or.inl hq)⟩
    · rintro f f' ⟨s, st, m, g1, g2⟩ hs hw
      exact ⟨s, st, m, g1, h1 m f f' g2 hs hw⟩
    · rintro s x w hr ⟨s0, st, w1, n, hp, rfl⟩ hn hP
      obtain ⟨m, g1, g2, g3, _⟩ := hr.version
      have hpub : Publishing depth c base name env fs s0 st m := ⟨⟨w1, n, hp⟩, g1, g2⟩
      have k1 := rsyncPart_within (c := c) (s := s) hc.objects env w
      unfold rsyncPart at k1
      rw [if_pos he] at k1
      have hP' : P w.cur := by
        refine h0 _ hr.wf fun q hq => hr.leaf q ?_ (fun h' => hl.rrdp_not_rsync h' hq)
        rintro h'
        rcases hq with hq | rfl
        · exact hl.rsyncStaging.not_both hq h'
        · exact rsyncState_not_staging h'
      obtain ⟨k2, k3⟩ := h2 s _ w m hr g1 g2 g3 hP'
      refine ⟨?_, fun hok => ⟨s0, st, m, hpub, k3 hok⟩⟩
      have k4 : Keeps (fun f => f.WF ∧ f.leaf (c.notifPath name) = fs.leaf (c.notifPath name)) w
          (updateRsync s c env w).2 := by
        refine Keeps.of_within k1 ?_
        rintro f f' ⟨g1, g2⟩ g3
        refine ⟨(g3 g1).1, ?_⟩
        rw [(g3 g1).2 (c.notifPath name) (fun h => hl.rrdp_not_rsync (q := c.notifPath name) (List.prefix_append _ _) h.2)]
        exact g2
      exact Keeps.via (k2.and k4) ⟨hP', hr.wf, hn⟩ (fun f hf => Or.inl ⟨hf.2.2, hf.1⟩)
  rcases key with ⟨g1, g2⟩ | ⟨s, st, m, ⟨⟨w1, n, g1⟩, g2⟩, g3⟩
  · exact Or.inl ⟨g2, g1⟩
  · refine Or.inr ⟨s, st, m, ⟨⟨w1, n, g1⟩, g2⟩, g3, ?_⟩
    rcases (run_records hl hc f hf).2 with ⟨_, g4⟩ | ⟨s', st', w', n', t, g4, g5, _⟩
    · exact Or.inl g4
    · have := g4.prep
      rw [g1.prep] at this
      injection this with this _
      injection this with this
      injection this with this
      injection this with e1 e2
      exact Or.inr ⟨t, by rw [e1, e2]; exact g5⟩

/-! ## Histories -/

section
variable {age : Uuid → Nat} {c : Config} {base name : Str} {ι : Type}

theorem forward_inductive {v : ι → Version} {ok : ι → ι → Nat → Env → FS → Prop} (hl : Layout c base name)
    (hok : ∀ i j d e f, ok i j d e f → ForwardRun age c base name (v i) (v j) d e f) :
    Inductive c base name ok (fun _ _ => True) (fun i n => (n.version age).le (v i)) := by
  refine ⟨fun _ _ _ _ _ h => (hok _ _ _ _ _ h).source, fun _ => trivial, fun _ _ _ => trivial,
    fun _ _ _ _ _ _ _ _ => trivial,
    fun _ _ _ _ _ _ h h' => Version.le_trans h' (hok _ _ _ _ _ h).later, ?_,
    fun _ _ _ _ _ _ _ _ _ _ _ _ _ _ _ _ _ _ _ _ _ => trivial⟩
  intro i j depth env f s0 s st w n n0 h _ _ _ h1 _ _ h2
  obtain ⟨etag, n1, a1, a2⟩ := sameVersion_newNotif hl.uri h2
  have := (hok _ _ _ _ _ h).notAfter _ _ a1
  unfold Notif.version at *
  rw [a2.session, a2.serial]
  exact this

theorem ForwardRun.announced {p p' : Version} {depth : Nat} {fs : FS} {m : Notif}
    (h : ForwardRun age c base name p p' depth env fs) (hm : Announces c base name env fs m) :
    p.le (m.version age) ∧ (m.version age).le p' := by
  obtain ⟨s, _, ho, _⟩ := hm
  exact ⟨h.notBefore _ _ ho, h.notAfter _ _ ho⟩

/-- With links: `current` leads to a version that is not older than the one in the notification. -/
structure LinkAhead (age : Uuid → Nat) (c : Config) (base name : Str) (i : Version × (Notif → Prop))
    (f : FS) : Prop where
  inv : Invariant c base name (fun _ _ => True)
    (fun (i : Version × (Notif → Prop)) n => (n.version age).le i.1) i f
  ahead : ∀ n t, f.leaf (c.notifPath name) = some (.file (Ext.writeNotif n) t) → ∃ m, i.2 m ∧
    f.link? c.rsyncCurrent = some m.rev.dirName ∧ (n.version age).le (m.version age) ∧
    (m.version age).le i.1

theorem LinkAhead.run {i j : Version × (Notif → Prop)} {depth : Nat} {fs f : FS}
    (hl : Layout c base name) (ho : CleanObjects c.rsyncIncludeHost) (he : c.rsyncEnabled = true)
    (hm : c.rsyncUseSymlinks = true) (h : LinkAhead age c base name i fs)
    (hf : ForwardRun age c base name i.1 j.1 depth env fs)
    (hk : ∀ n, i.2 n ∨ Announces c base name env fs n → j.2 n)
    (hcp : f ∈ (process depth c env (World.start fs)).2.crashPoints) :
    LinkAhead age c base name j f := by
  have hc := h.inv.conds hl (fun _ => ho) hf.source
  have hcur : RsyncArea c c.rsyncCurrent := Or.inl (List.prefix_append _ _)
  refine ⟨Invariant.run (ok := fun (i j : Version × (Notif → Prop)) d e f =>
    ForwardRun age c base name i.1 j.1 d e f) hl (fun _ => ho)
    (forward_inductive hl (fun _ _ _ _ _ h => h)) h.inv hf hcp, ?_⟩
  intro n t hn
  have lift : ∀ m : Notif, (m.version age).le i.1 → (m.version age).le j.1 :=
    fun m hm => Version.le_trans hm hf.later
  have step := run_rsync_before_notif (env := env) (depth := depth) (fs := fs)
    (P := fun f => f.leaf c.rsyncCurrent = fs.leaf c.rsyncCurrent ∨
      ∃ m, Announces c base name env fs m ∧ f.link? c.rsyncCurrent = some m.rev.dirName)
    (Q := fun m f => Announces c base name env fs m ∧ f.link? c.rsyncCurrent = some m.rev.dirName)
    hl hc he (fun f _ h => Or.inl (h _ hcur)) ?_ ?_ f hcp
  · have old : f.leaf (c.notifPath name) = fs.leaf (c.notifPath name) →
        (f.leaf c.rsyncCurrent = fs.leaf c.rsyncCurrent ∨
          ∃ m, Announces c base name env fs m ∧ f.link? c.rsyncCurrent = some m.rev.dirName) →
        ∃ m, j.2 m ∧ f.link? c.rsyncCurrent = some m.rev.dirName ∧
          (n.version age).le (m.version age) ∧ (m.version age).le j.1 := by
      intro h1 h2
      rw [h1] at hn
      obtain ⟨m, g1, g2, g3, g4⟩ := h.ahead n t hn
      rcases h2 with h2 | ⟨m', h2, h3⟩
      · exact ⟨m, hk m (Or.inl g1), by rw [FS.link?_of_leaf h2]; exact g2, g3, lift m g4⟩
      · obtain ⟨a1, a2⟩ := hf.announced h2
        exact ⟨m', hk m' (Or.inr h2), h3, Version.le_trans g3 (Version.le_trans g4 a1), a2⟩
    rcases step with ⟨h1, h2⟩ | ⟨s, st, m, h1, ⟨h2, h3⟩, h4 | ⟨t', h4⟩⟩
    · exact old h2 h1
    · exact old h4 (Or.inr ⟨m, h2, h3⟩)
    · rw [hn] at h4
      injection h4 with h4
      injection h4 with h4 _
      obtain rfl := writeNotif_inj h4
      refine ⟨m, hk m (Or.inr h2), h3, ?_, (hf.announced h2).2⟩
      rw [h1.version]
      exact Version.le_refl _
  · rintro m f f' ⟨g1, g2⟩ hs hw
    exact ⟨g1, by rw [FS.link?_of_leaf (hs.1 _ hcur)]; exact g2⟩
  · intro s x w m hr ha hv _ hP
    obtain ⟨k1, k2⟩ := updateRsync_current (env := env) hm ho hl.rsyncRsyncState hr.snapshot hr.wf
    refine ⟨Keeps.via k1 ⟨hr.wf, Or.inl rfl⟩ ?_, fun hok => ⟨ha, by rw [← hv]; exact k2 hok⟩⟩
    rintro f ⟨_, h1 | h1⟩
    · rcases hP with hP | ⟨m', g1, g2⟩
      · exact Or.inl (h1.trans hP)
      · exact Or.inr ⟨m', g1, by rw [FS.link?_of_leaf h1]; exact g2⟩
    · exact Or.inr ⟨m, ha, by rw [← hv]; exact h1⟩

/-- With moves: `current` has no files, or those of a version that is not older than the one in the
notification. -/
structure MoveAhead (age : Uuid → Nat) (c : Config) (base name : Str) (i : Version × (Notif → Prop))
    (f : FS) : Prop where
  inv : Invariant c base name (fun _ _ => True)
    (fun (i : Version × (Notif → Prop)) n => (n.version age).le i.1) i f
  ahead : MoveServed c (fun m => i.2 m ∧ (m.version age).le i.1 ∧ ∀ n t,
    f.leaf (c.notifPath name) = some (.file (Ext.writeNotif n) t) →
      (n.version age).le (m.version age)) f

theorem MoveAhead.run {i j : Version × (Notif → Prop)} {depth : Nat} {fs f : FS}
    (hl : Layout c base name) (ho : CleanObjects c.rsyncIncludeHost) (he : c.rsyncEnabled = true)
    (hm : c.rsyncUseSymlinks = false) (h : MoveAhead age c base name i fs)
    (hcs : CleanSource c base env fs)
    (hf : ForwardRun age c base name i.1 j.1 depth env fs)
    (hk : ∀ n, i.2 n ∨ Announces c base name env fs n → j.2 n)
    (hcp : f ∈ (process depth c env (World.start fs)).2.crashPoints) :
    MoveAhead age c base name j f := by
  have hc := h.inv.conds hl (fun _ => ho) hf.source
  refine ⟨Invariant.run (ok := fun (i j : Version × (Notif → Prop)) d e f =>
    ForwardRun age c base name i.1 j.1 d e f) hl (fun _ => ho)
    (forward_inductive hl (fun _ _ _ _ _ h => h)) h.inv hf hcp, ?_⟩
  let B : Notif → Prop := fun m => j.2 m ∧ (m.version age).le j.1 ∧ ∀ n t,
    fs.leaf (c.notifPath name) = some (.file (Ext.writeNotif n) t) → (n.version age).le (m.version age)
  have atLeast : ∀ n t, fs.leaf (c.notifPath name) = some (.file (Ext.writeNotif n) t) →
      (n.version age).le i.1 := by
    intro n t hn
    rcases h.inv.notif with e | ⟨n', t', e1, e2⟩
    · rw [hn] at e; cases e
    · rw [hn] at e1
      injection e1 with e1
      injection e1 with e1 _
      obtain rfl := writeNotif_inj e1
      exact e2
  have hB : ∀ m, Announces c base name env fs m → B m := by
    intro m hm
    obtain ⟨a1, a2⟩ := hf.announced hm
    exact ⟨hk m (Or.inr hm), a2, fun n t hn => Version.le_trans (atLeast n t hn) a1⟩
  have h0 : MoveServed c B fs :=
    h.ahead.mono fun m hm => ⟨hk m (Or.inl hm.1), Version.le_trans hm.2.1 hf.later, hm.2.2⟩
  have step := run_rsync_before_notif (env := env) (depth := depth) (fs := fs)
    (P := MoveServed c B)
    (Q := fun m f => MoveServed c B f ∧ B m ∧ ∃ b, Serves c f c.rsyncCurrent m b)
    hl hc he (fun f hw h => h0.of_leaf hw h) ?_ ?_ f hcp
  · have old : f.leaf (c.notifPath name) = fs.leaf (c.notifPath name) → MoveServed c B f →
        MoveServed c (fun m => j.2 m ∧ (m.version age).le j.1 ∧ ∀ n t,
          f.leaf (c.notifPath name) = some (.file (Ext.writeNotif n) t) →
            (n.version age).le (m.version age)) f := by
      intro h1 h2
      rw [h1]
      exact h2
    rcases step with ⟨h1, h2⟩ | ⟨s, st, m, h1, ⟨h2, h3, h5⟩, h4 | ⟨t', h4⟩⟩
    · exact old h2 h1
    · exact old h4 h2
    · refine ⟨h2.wf, h2.state, h2.revs, h2.current, Or.inr ?_⟩
      obtain ⟨b, h5⟩ := h5
      refine ⟨m, b, ⟨h3.1, h3.2.1, fun n t hn => ?_⟩, h5⟩
      rw [h4] at hn
      injection hn with hn
      injection hn with hn _
      obtain rfl := writeNotif_inj hn
      rw [h1.version]
      exact Version.le_refl _
  · rintro m f f' ⟨g1, g2, b, g3, g4, g5⟩ hs hw
    exact ⟨g1.of_leaf hw hs.1, g2, b, g3, g4, g5.of_leaf fun q hq =>
      hs.1 q (Or.inl ((List.prefix_append _ _).trans hq))⟩
  · intro s x w m hr ha hv hh hP
    obtain ⟨hsl, hsb⟩ := hr.source hcs
    obtain ⟨k1, k2⟩ := updateRsync_moveServed (env := env) (n := m) (B := B) (x := x) (s := s) (w := w)
      ⟨hm, ho, hl.rsyncRsyncState, hr.snapshot, by rw [hr.path]; exact hsl,
        fun b hb => by rw [hr.path] at hb; rw [hsb b hb, hh], hB m ha, hP⟩
    exact ⟨k1, fun hok => ⟨(k1 hP).1, hB m ha, k2 hok⟩⟩

theorem ForwardLifetime.ledger {i : Version × (Notif → Prop)} {f : FS}
    (h : ForwardLifetime age c base name i f) : ∃ A, Ledger c base name A f := by
  induction h with
  | start h => exact ⟨_, .start h.1⟩
  | run _ h1 h2 ih => obtain ⟨A, hA⟩ := ih; exact ⟨_, .cut hA h1.sound h2⟩

theorem pristine_inv {i : Version × (Notif → Prop)} {f : FS} (h : Pristine c name f)
    (hl : Layout c base name) (ho : CleanObjects c.rsyncIncludeHost) :
    Invariant c base name (fun _ _ => True)
      (fun (i : Version × (Notif → Prop)) n => (n.version age).le i.1) i f :=
  History.invariant (ok := fun (i j : Version × (Notif → Prop)) d e f =>
    ForwardRun age c base name i.1 j.1 d e f) hl (fun _ => ho)
    (forward_inductive hl (fun _ _ _ _ _ h => h)) (History.start h)

theorem LinkAhead.start {i : Version × (Notif → Prop)} {f : FS} (h : Pristine c name f)
    (hl : Layout c base name) (ho : CleanObjects c.rsyncIncludeHost) : LinkAhead age c base name i f :=
  ⟨pristine_inv h hl ho, fun n t hn => by rw [h.noNotification] at hn; cases hn⟩

theorem ForwardLifetime.linkAhead {i : Version × (Notif → Prop)} {f : FS}
    (h : ForwardLifetime age c base name i f) (hl : Layout c base name)
    (ho : CleanObjects c.rsyncIncludeHost) (he : c.rsyncEnabled = true) (hm : c.rsyncUseSymlinks = true) :
    LinkAhead age c base name i f := by
  induction h with
  | start h => exact LinkAhead.start h.1.pristine hl ho
  | run _ h1 h2 ih => exact ih.run hl ho he hm h1.forward h1.known h2

theorem ForwardLifetime.moveAhead {i : Version × (Notif → Prop)} {f : FS}
    (h : ForwardLifetime age c base name i f) (hl : Layout c base name)
    (ho : CleanObjects c.rsyncIncludeHost) (he : c.rsyncEnabled = true) (hm : c.rsyncUseSymlinks = false) :
    MoveAhead age c base name i f := by
  induction h with
  | start h => exact ⟨pristine_inv h.1.pristine hl ho, .start h.1.pristine.wf h.2⟩
  | run h0 h1 h2 ih =>
    obtain ⟨A, hA⟩ := ForwardLifetime.ledger h0
    exact ih.run hl ho he hm ((hA.booked hl (fun _ => ho)).clean h1.sound) h1.forward h1.known h2

theorem Later.lifetime {i j : Version × (Notif → Prop)} {f f' : FS}
    (h : ForwardLifetime age c base name i f) (h' : Later age c base name i f j f') :
    ForwardLifetime age c base name j f' := by
  induction h' with
  | start hs => obtain ⟨rfl, rfl⟩ := hs; exact h
  | run _ h1 h2 ih => exact ih.run h1 h2

theorem GoodRun.forward {life : SourceLife} {p p' : Progress} {depth : Nat} {fs : FS}
    (h : GoodRun life c base name p p' depth env fs) :
    ForwardRun life.age c base name p.version p'.version depth env fs := by
  refine ⟨h.source, h.later.version, fun etag n hn => ?_, fun etag n hn => ?_⟩
  · have := h.notBefore _ _ hn
    unfold SourceLife.NotBefore at this
    unfold Version.le Progress.version Notif.version
    dsimp only
    rcases this with h | ⟨h, h', _⟩ <;> omega
  · have := h.notAfter _ _ hn
    unfold SourceLife.NotAfter at this
    unfold Version.le Progress.version Notif.version
    dsimp only
    rcases this with h | ⟨h, h', _⟩ <;> omega

theorem TimelyLifetime.linkAhead {life : SourceLife} {p : Progress} {f : FS}
    (h : TimelyLifetime life c base name p f) (hl : Layout c base name)
    (ho : CleanObjects c.rsyncIncludeHost) (he : c.rsyncEnabled = true) (hm : c.rsyncUseSymlinks = true) :
    LinkAhead life.age c base name (p.version, fun _ => True) f := by
  induction h with
  | start h => exact LinkAhead.start h.pristine hl ho
  | run _ h1 h2 ih =>
    exact ih.run (j := (Progress.version _, fun _ => True)) hl ho he hm h1.good.forward
      (fun _ _ => trivial) h2

end

end KSync
