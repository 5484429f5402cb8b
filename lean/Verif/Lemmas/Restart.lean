import Verif.Lemmas.Progress

/-! # Starting again after a crash -/

set_option linter.unusedSectionVars false
set_option linter.unusedVariables false

namespace KSync

variable [Ext]

section
variable {life : SourceLife} {T : SourceTree} {c : Config} {base name : Str} {p p' : Progress} {env : Env}

theorem updateRsync_goes {s : RrdpState} {x : SnapshotState} {w : World} {st : RsyncDirState} {b : Bytes}
    (hP : (planOf T c name).Sound) (hf : NoFaults env) (hk : ChildrenFirst env)
    (hl : c.rsyncUseSymlinks = true) (hx : s.snapshot = some x)
    (ho : CleanObjects c.rsyncIncludeHost)
    (hb : T.Objects c x.rev (s.mappings.path x.relPath) w.cur) (hw : w.cur.WF)
    (hg : (planOf T c name).Good w.cur) (hst : RsyncRecorded c w.cur st)
    (hs : w.cur.read (s.mappings.path x.relPath) = some b) (hc : (Ext.streamSnapshot b).2 = true) :
    Goes (updateRsync s c) env w := by
  rw [updateRsync_eq hx]
  refine Goes.bind (recover_goes hf hst hg) (fun st w1 e1 => ?_)
  have hs1 := recover_same c env w
  rw [e1] at hs1
  rw [← hs1.cur] at hb hw hg hs
  refine Goes.bind (makeRevision_goes hP hf ho hb hw hg hs hc) (fun _ w2 e2 => ?_)
  have hl2 := makeRevision_dir hP hg ho hb hw e2
  have hw2 : w2.cur.WF := by
    have := (makeRevision_in (rev := x.rev) (c := c) (src := s.mappings.path x.relPath) ho env w1).wf hw
    rw [e2] at this
    exact this
  have hsw : switchTo x.rev st c = symlinkCurrent x.rev c := by
    unfold switchTo
    rw [if_pos hl]
  rw [hsw]
  refine Goes.bind (symlinkCurrent_goes hP hf hw2 hl2) (fun _ w3 e3 => ?_)
  have h3 := symlinkCurrent_tidy (T := T) (name := name) (env := env) (w := w2) (rev := x.rev) hP
  rw [e3] at h3
  have hg3 := (h3 hl2).1.1
  have ht3 := symlinkCurrent_noTmp e3
  refine Goes.bind (m := st.updateCurrent x.rev) ?_ (fun st1 w4 e4 => ?_)
  · unfold RsyncDirState.updateCurrent
    split
    · exact Goes.pure
    · exact Goes.bind (now_goes _) (fun _ _ _ => Goes.pure)
  have hs4 := updateCurrent_same st x.rev env w3
  rw [e4] at hs4
  rw [← hs4.cur] at hg3 ht3
  refine Goes.bind (cleanOld_goes hf hk st1 hg3 ht3) (fun st2 w5 e5 => ?_)
  have hg5 : (planOf T c name).Good w5.cur := by
    have := hg3.shrinks ht3 ((cleanOld_shrinks c st1 env w4).ends (fun f => Shrinks.refl f)
      (fun _ _ _ => Shrinks.trans))
    rw [e5] at this
    exact this.1
  exact writeBuf_goes hP planOf_rsyncState _ hf hg5

theorem notifyDelay_goes (d : Nat) (env : Env) (w : World) : Goes (notifyDelay d) env w :=
  ⟨(), _, Prod.ext (notifyDelay_ok d env w) rfl⟩

theorem writeNotification_goes {s : RrdpState} {d : Nat} {x : SnapshotState} {w : World}
    (hP : (planOf T c name).Sound) (hf : NoFaults env) (hu : NotifUri c base name)
    (hs : Sane c base name s) (hx : s.snapshot = some x) (hg : (planOf T c name).Good w.cur) :
    Goes (s.writeNotification d) env w := by
  unfold RrdpState.writeNotification
  have hm : ∃ n, s.makeNotif = .ok n := by
    unfold RrdpState.makeNotif
    rw [hx]
    exact ⟨_, rfl⟩
  obtain ⟨n, hn⟩ := hm
  rw [hs.tmpPath hu, hs.notifPath hu]
  refine Goes.bind (notifyDelay_goes d env w) (fun _ w0 e0 => ?_)
  have hg : (planOf T c name).Good w0.cur := by
    have := (notifyDelay_same d env w).cur
    rw [e0] at this
    rw [this]
    exact hg
  clear e0
  refine Goes.bind (Goes.lift hn) (fun n' w1 e1 => ?_)
  rw [hn] at e1
  cases e1
  refine Goes.bind (writeBuf_goes hP planOf_notifTmp _ hf hg) (fun _ w2 e2 => ?_)
  have g2 := ((writeBuf_tidy hP planOf_notifTmp (Ext.writeNotif n) env w0).plan hg).1
  rw [e2] at g2
  obtain ⟨_, ⟨t, ht⟩, hd⟩ := writeBuf_ok e2
  have hpar : (c.rrdpDir ++ [name ++ ".tmp".toList]).dropLast = c.rrdpDir := List.dropLast_concat
  have hpar' : (c.notifPath name).dropLast = c.rrdpDir := List.dropLast_concat
  refine rename_goes hf ht (by simp) (by simp) (by simp) ?_ (g2.not_dir planOf_notif)
  rw [show (c.rrdpDir ++ [name]).dropLast = c.rrdpDir from hpar', ← hpar]
  exact hd

theorem staged_distinct {s : RrdpState} {n0 n : Notif} {st : StagedChanges}
    (h : Stepping life c base name p p' s n0 n st) : st.rels.Pairwise (fun a b => comps a ≠ comps b) := by
  unfold StagedChanges.rels
  refine List.pairwise_cons.2 ⟨fun r hr he => ?_, ?_⟩
  · obtain ⟨d, hd, rfl⟩ := List.mem_map.1 hr
    have h1 := h.roleSnap
    rw [he, (h.delta hd).2.2] at h1
    cases h1
  · have hasc : (st.deltas.map fun d => (⟨d.serial, base ++ d.relPath, d.hash⟩ : DeltaInfo)).Pairwise
        (fun a b => a.serial < b.serial) := by
      rw [h.staged.deltas]
      exact h.asc.filter _
    rw [List.pairwise_map] at hasc ⊢
    refine hasc.imp_of_mem (fun {a b} ha hb hlt he => ?_)
    have h1 := (h.delta ha).2.2
    rw [he, (h.delta hb).2.2] at h1
    injection h1 with _ _ h1 _
    dsimp only at hlt
    omega

theorem publish_goes {depth : Nat} {f0 : FS} {s0 s : RrdpState} {n0 n : Notif}
    {st : StagedChanges} {w : World} {rst : RsyncDirState} (hT : T.Tidy name)
    (hsym : c.rsyncEnabled = true → c.rsyncUseSymlinks = true) (hf : NoFaults env) (hk : ChildrenFirst env)
    (h : Ready life depth c base name p p' env f0 s0 s n0 n st w)
    (hT' : ∀ etag n, Offers c env f0 etag n → T.Has c base n) (hn : T.Has c base n) (hnm : Named T c s)
    (hg : (planOf T c name).Good w.cur) (hrs : RsyncRecorded c f0 rst)
    (hwhole : ∀ b, Ext.sha b = n.snapHash → (Ext.streamSnapshot b).2 = true) :
    Goes (publish c s st) env w := by
  have hP := planOf_sound hT h.layout
  obtain ⟨hn1, hn2⟩ := staged_named h.at_.staged hn
  have hcs : CleanSource c base env f0 :=
    ⟨h.run.no304, h.before.links, fun etag n hn => (h.run.lists _ _ hn).oneHash⟩
  rw [publish_eq]
  have hrel : ∀ r ∈ st.rels, GoodRel name r ∧ T.files (comps r) ∧ ∃ k, (r, k) ∈ st.refs := by
    intro r hr
    rcases List.mem_cons.1 hr with rfl | hr
    · exact ⟨h.pub.goodSnap, hn1, _, List.mem_cons_self ..⟩
    · obtain ⟨d, hd, rfl⟩ := List.mem_map.1 hr
      exact ⟨h.pub.goodDeltas d hd, hn2 d hd, _, List.mem_cons_of_mem _ (List.mem_map.2 ⟨d, hd, rfl⟩)⟩
  refine Goes.bind (m := moveStaged c st) ?_ (fun _ w1 e1 => ?_)
  · rw [moveStaged_eq]
    refine moves_goes hT h.layout hf (fun r hr => (hrel r hr).1.clean) (fun r hr => (hrel r hr).2.1)
      (staged_distinct h.step) h.at_.wf hg (fun r hr => ?_)
    obtain ⟨k, hk⟩ := (hrel r hr).2.2
    have hfh := h.staged _ hk
    obtain ⟨b, hb, _⟩ := hfh
    intro h0
    unfold FS.leaf at h0
    unfold FS.file? at hb
    cases hx : w.cur.get (c.stagingDir ++ comps r) with
    | none => rw [hx] at hb; cases hb
    | some m =>
      cases m with
      | dir => rw [hx] at hb; cases hb
      | link t => rw [hx] at hb; cases hb
      | file b t => rw [hx] at h0; cases h0
  have g1 := ((moveStaged_tidy hP h.pub.goodSnap h.pub.goodDeltas hn1 hn2 env w).plan hg).1
  have i1 := moveStaged_within (c := c) h.pub.goodSnap h.pub.goodDeltas env w
  rw [e1] at g1 i1
  have hw1 := i1.wf h.at_.wf
  refine Goes.bind (absorb_goes s st w1) (fun s1 w2 e2 => ?_)
  have hs2 := absorb_same s st env w1
  rw [e2] at hs2
  rw [← hs2.cur] at g1 hw1
  obtain ⟨_, _, kept, gone, new, hb⟩ := absorb_ok e2
  have hsane1 : Sane c base name s1 := absorb_sane e2 h.pub.sane h.pub.goodSnap h.pub.goodDeltas
  have hdep : ∀ e ∈ s1.deprecated, (planOf T c name).file e.path := by
    intro e he
    rcases hb.deprecated_from h.pub.sane (fun e h => h) e he with he | he
    · obtain ⟨rel, a1, a2⟩ := hnm.deprecated e he
      rw [a2]; exact planOf_pub a1
    · obtain ⟨rel, a1, a2⟩ := hnm.refers he
      rw [a2]; exact planOf_pub a1
  refine Goes.bind (clean_goes hf hdep g1 (fun e he => cleanFile_tidy h.layout hsane1 he)) (fun s2 w3 e3 => ?_)
  have g3 := ((clean_tidy (T := T) h.layout hsane1 env w2).plan g1).1
  have i3 := clean_within (s := s1) (c := c) (env := env) hw1
  rw [e3] at g3 i3
  have hr := rsyncReady h.layout h.conds h.at_ e1 e2 e3
  have hmoved := moveStaged_published h.layout.rrdpStaging h.pub.goodSnap h.pub.goodDeltas h.staged e1
    (st.snapshot.relPath, st.snapshot.hash) (List.mem_cons_self ..)
  have hsnap : FileHas w3.cur (c.pubPath st.snapshot.relPath) st.snapshot.hash := by
    refine hmoved.of_leaf ?_
    rw [i3.frame hw1 (c.pubPath st.snapshot.relPath) ?_, hs2.cur]
    rintro ⟨d, a1, a2, a3⟩
    exact (h.step.fresh (st.snapshot.relPath, st.snapshot.hash) (List.mem_cons_self ..)).2 d (h.due e2 a1 a3) a2
  have hsane2 := clean_sane e3 hsane1
  have hrp : Goes (rsyncPart c s2) env w3 ∧ (planOf T c name).Good (rsyncPart c s2 env w3).2.cur := by
    unfold rsyncPart
    by_cases he : c.rsyncEnabled = true
    · rw [if_pos he]
      obtain ⟨b, hb1, hb2⟩ := hsnap
      have hread : w3.cur.read (s2.mappings.path st.snapshot.relPath) = some b := by
        rw [hr.path]
        unfold FS.file? at hb1
        unfold FS.read FS.resolve
        cases hx : w3.cur.get (c.pubPath st.snapshot.relPath) with
        | none => rw [hx] at hb1; cases hb1
        | some m =>
          rw [hx] at hb1
          cases m with
          | dir => cases hb1
          | link t => cases hb1
          | file b t => simpa using hb1
      have hrr : RsyncRecorded c w3.cur rst := by
        have hlf := hr.leaf c.rsyncStatePath rsyncState_not_staging h.layout.rrdpRsyncState.1
        rcases hrs with ⟨x, x1, x2⟩ | ⟨x1, x2⟩
        · exact Or.inl ⟨x, by rw [FS.file?_of_leaf hlf]; exact x1, x2⟩
        · exact Or.inr ⟨hlf.trans x1, x2⟩
      exact ⟨updateRsync_goes hP hf hk (hsym he) hr.snapshot (h.conds.objects he) (hr.objects hcs hT')
          hr.wf g3 hrr hread (hwhole b (hb2.trans h.at_.staged.snapHash)),
        (updateRsync_good hP (hsym he) hr.snapshot (h.conds.objects he) (hr.objects hcs hT') hr.wf g3 g3).1⟩
    · rw [if_neg he]
      exact ⟨Goes.pure, g3⟩
  refine Goes.bind hrp.1 (fun _ w4 e4 => ?_)
  have g4 := hrp.2
  rw [e4] at g4
  refine Goes.bind (writeNotification_goes hP hf h.conds.uri hsane2 hr.snapshot g4) (fun _ w5 e5 => ?_)
  have g5 := ((writeNotification_tidy (d := c.rrdpNotifyDelay) hP h.conds.uri hsane2 env w4).plan g4).1
  rw [e5] at g5
  exact writeBuf_goes hP planOf_state _ hf g5

theorem loadState_goes {w : World} (hu : NotifUri c base name) (hf : NoFaults env)
    (h : w.cur.exists? c.rrdpStatePath = false ∨ ∃ s, Recorded c w.cur s) : Goes (loadState c) env w := by
  unfold loadState
  refine Goes.bind (m := getFs) ⟨_, _, rfl⟩ (fun fs w1 h1 => ?_)
  cases h1
  rcases h with h | ⟨s, b, h1, h2⟩
  · rw [if_neg (by rw [h]; simp)]
    exact Goes.lift (create_fresh hu)
  · rw [if_pos (exists_of_read h1)]
    unfold RrdpState.recover
    refine Goes.bind (readFile_goes hf h1) (fun b' w1 h3 => ?_)
    have h4 := (readFile_ok h3).1
    rw [h1] at h4
    cases h4
    rw [h2]
    exact Goes.pure

/-- What the source offers is what it supplies. -/
theorem Supplies.offered {f0 : FS} {n m : Notif} (h : Supplies c base env f0 n)
    (ho : Offers c env f0 none m) : m = n := by
  obtain ⟨src, h1, h2⟩ := h.notification
  obtain ⟨src', b, e, g1, g2, g3⟩ := ho
  have : src' = src := by
    have e1 := resolve_locates.2 h1
    rw [resolve_locates.2 g1] at e1
    injection e1
  subst this
  have := (h2 f0 (fun _ _ => rfl)).body g2
  rw [g3] at this
  injection this

/-- A run that completes has published what the source supplies. -/
theorem completed_as {depth : Nat} {f0 : FS} {n : Notif} {w' : World}
    (hl : Layout c base name) (ho : c.rsyncEnabled = true → CleanObjects c.rsyncIncludeHost)
    (hk : Steady life T c base name p f0) (hr : TidyRun life T c base name p p' depth env f0)
    (hsup : Supplies c base env f0 n) (h : process depth c env (World.start f0) = (.ok (), w')) :
    PublishedAs c base name w'.cur n := by
  have hc : RunConds c base name env f0 :=
    ⟨hl.uri, hk.kept.wf, fun s hs => (hk.kept.state s hs).sane, hr.good.source, ho⟩
  have hk' := run_kept hl ho hk.kept hr.good w'.cur (by rw [h]; exact List.mem_cons_self ..)
  have hpr : ∀ s, InUse c base name f0 s → Proper life c base name p s := by
    rintro s (h | ⟨_, rfl⟩)
    · exact hk.kept.state s h
    · exact freshState_proper life p
  have fin : ∀ m t, w'.cur.leaf (c.notifPath name) = some (.file (Ext.writeNotif m) t) →
      m.session = n.session → m.serial = n.serial → PublishedAs c base name w'.cur n := by
    intro m t h1 h2 h3
    refine ⟨m, t, file_of_leaf h1, h2, h3, fun r hr => ?_⟩
    rcases hk'.notif with h4 | ⟨m', t', h4, h5⟩
    · rw [h4] at h1; cases h1
    · rw [h4] at h1
      injection h1 with h1
      injection h1 with h1
      have := congrArg Ext.parseNotif h1
      rw [Ext.parse_write, Ext.parse_write] at this
      injection this with this
      subst this
      obtain ⟨rel, k1, _, _, k4, _⟩ := h5.refs r hr
      exact ⟨rel, k1, k4⟩
  rcases run_ok (w := World.start f0) hc h with ⟨hs, s, hu, hcase⟩ | ⟨s, st, w1, n1, h1, h2⟩
  · have het := (hpr s hu).etag
    rcases hcase with ⟨m, hm, hnot⟩ | ⟨u, m, tick, _, h304⟩
    · rw [het] at hm
      have hmn := hsup.offered hm
      subst hmn
      have hx : ∃ x, s.snapshot = some x ∧ x.session = m.session ∧ m.serial ≤ x.serial := by
        cases hsn : s.snapshot with
        | none => exact (hnot (fun x hx => (by rw [hsn] at hx; cases hx))).elim
        | some x =>
          refine ⟨x, rfl, ?_⟩
          by_cases h1 : x.session = m.session
          · refine ⟨h1, Nat.le_of_not_lt (fun h2 => hnot (fun y hy => ?_))⟩
            rw [hsn] at hy; cases hy
            exact Or.inr h2
          · refine (hnot (fun y hy => ?_)).elim
            rw [hsn] at hy; cases hy
            exact Or.inl h1
      obtain ⟨x, x1, x2, x3⟩ := hx
      have hrec : Recorded c f0 s := by
        rcases hu with hu | ⟨_, rfl⟩
        · exact hu
        · cases x1
      obtain ⟨m', t, a1, a2⟩ := hk.ahead s x hrec x1
      have a3 : life.age m'.session < p.age ∨ (life.age m'.session = p.age ∧ m'.serial ≤ p.serial) := by
        rcases hk.kept.notif with h4 | ⟨m2, t', h4, h5⟩
        · rw [h4] at a1; cases a1
        · rw [h4] at a1
          injection a1 with a1
          injection a1 with a1
          have := congrArg Ext.parseNotif a1
          rw [Ext.parse_write, Ext.parse_write] at this
          injection this with this
          subst this
          exact h5.version
      have a4 : p.age < life.age m.session ∨ (p.age = life.age m.session ∧ p.serial ≤ m.serial) := by
        rcases hr.good.notBefore _ _ hm with h | ⟨h, h', _⟩
        · exact Or.inl h
        · exact Or.inr ⟨h, h'⟩
      have hcur : w'.cur = f0 := hs.cur
      refine fin m' t (by rw [hcur]; exact a1) ?_ ?_
      · rw [x2] at a2
        rcases a2 with a2 | ⟨a2, _⟩
        · omega
        · exact a2.symm
      · rw [x2] at a2
        rcases a2 with a2 | ⟨a2, a5⟩
        · omega
        · rw [← a2] at a3
          omega
    · exact (hr.good.no304 _ _ het h304).elim
  · obtain ⟨s0, n0, hrd, hof⟩ := readyAt hl hc hk.kept hr.good h1
    rw [(hpr s0 hrd.inUse).etag] at hof
    have hmn := hsup.offered hof
    subst hmn
    obtain ⟨_, _, _, _, _, _, _, _, hd⟩ := publish_done hl hrd.pub h1.wf h2
    obtain ⟨t, ht⟩ := hd.notif
    refine fin _ t (by unfold FS.leaf; rw [ht]) ?_ ?_
    · exact h1.staged.snapSession.trans hrd.step.limited.session
    · exact h1.staged.snapSerial.trans hrd.step.limited.serial

theorem restart {depth : Nat} {f0 : FS} {n : Notif} (hT : T.Tidy name)
    (hl : Layout c base name) (ho : c.rsyncEnabled = true → CleanObjects c.rsyncIncludeHost)
    (hsym : c.rsyncEnabled = true → c.rsyncUseSymlinks = true) (hmax : c.rrdpMaxDeltas ≠ some 0)
    (hk : Steady life T c base name p f0) (hr : TidyRun life T c base name p p' depth env f0)
    (hf : NoFaults env) (hcf : ChildrenFirst env) (hst : StatesWhole c f0)
    (hsup : Supplies c base env f0 n) (hpass : Passes depth c env f0) :
    Goes (process depth c) env (World.start f0) := by
  have hP := planOf_sound hT hl
  have hc : RunConds c base name env f0 :=
    ⟨hl.uri, hk.kept.wf, fun s hs => (hk.kept.state s hs).sane, hr.good.source, ho⟩
  obtain ⟨s0, w1, e1⟩ := loadState_goes (w := World.start f0) hl.uri hf hst.rrdp
  have hs1 : Same (World.start f0) w1 := by
    have := loadState_same c env (World.start f0)
    rw [e1] at this
    exact this
  have hw1 : w1.cur = f0 := hs1.cur
  have huse : InUse c base name f0 s0 := loadState_inUse hl.uri e1
  have hprop : Proper life c base name p s0 := by
    rcases huse with h | ⟨_, rfl⟩
    · exact hk.kept.state s0 h
    · exact freshState_proper life p
  obtain ⟨src, hsrc, hserve⟩ := hsup.notification
  have hans := hserve w1.cur (fun q _ => by rw [hw1])
  obtain ⟨n', et, w2, e2, hn'⟩ := readNotification_answers (w := w1) (f := c.fetcher) (etag := s0.source.etag)
    (P := fun m => m = n) (resolve_locates.2 hsrc) (hf _) (by
      rw [hprop.etag]
      revert hans
      unfold FetchSource.Answers
      cases src with
      | uri u m => exact fun h k => (h k).imp (fun hdr h => h.imp (fun b h => ⟨h.1, h.2.1, n, h.2.2, rfl⟩))
      | file q => exact fun h => h.imp (fun b h => ⟨h.1, n, h.2, rfl⟩))
  rw [hn'] at e2
  have hs2 := (readNotification_ok e2).1
  have hw2 : w2.cur = f0 := hs2.cur.trans hw1
  have hoff : Offers c env f0 none n := by
    obtain ⟨_, src', hs', h⟩ := readNotification_ok e2
    rcases h with ⟨m, e, b, h1, h2, h3⟩ | ⟨h1, _⟩
    · injection h1 with h1
      injection h1 with h1 _
      rw [hprop.etag, hw1] at h2
      exact ⟨src', b, e, resolve_locates.1 hs', h2, by rw [h1]; exact h3⟩
    · cases h1
  obtain ⟨ds, hds⟩ := sortVerify_ok hmax hsup.deltas
  have hlim : Limited c n { n with deltas := ds } := ⟨ds, sortVerify_limit hds, rfl⟩
  have hhas := (hr.has _ _ hoff).limited hlim
  -- the update
  have hup : Goes (s0.updateStaged c) env w1 := by
    unfold RrdpState.updateStaged
    refine Goes.bind ⟨_, _, e2⟩ (fun r w e => ?_)
    rw [e2] at e
    cases e
    dsimp only
    rw [hds]
    refine Goes.bind (Goes.lift rfl) (fun ds' w e => ?_)
    cases e
    cases hdec : decideUpdate s0.snapshot { n with deltas := ds } with
    | noChange => exact Goes.pure
    | before =>
      exfalso
      unfold decideUpdate at hdec
      cases hsn : s0.snapshot with
      | none => rw [hsn] at hdec; cases hdec
      | some x =>
        rw [hsn] at hdec
        dsimp only at hdec
        by_cases h1 : x.session ≠ n.session
        · rw [if_pos h1] at hdec; cases hdec
        · rw [if_neg h1] at hdec
          have h1 : x.session = n.session := Decidable.not_not.1 h1
          by_cases h2 : x.serial < n.serial
          · rw [if_pos h2] at hdec; cases hdec
          · rw [if_neg h2] at hdec
            by_cases h3 : x.serial = n.serial
            · rw [if_pos h3] at hdec; cases hdec
            · have h4 := (hprop.snapshot x hsn).2
              rw [h1] at h4
              rcases hr.good.notBefore _ _ hoff with h | ⟨h, h', _⟩ <;> omega
    | proceed reset =>
      dsimp only
      have hb := stageBound_tidy hl.uri hprop.sane ((hr.good.source _ _ hoff).limited hds) hhas
      have hb' := stageBound hl.uri hprop.sane ((hr.good.source _ _ hoff).limited hds)
      refine stage_goes (f0 := f0) hP hf (fun r hr => ?_) ⟨⟨hb.name, ?_⟩, fun _ _ => trivial,
        fun rel h => ⟨hb.snapFile rel h, ?_⟩, fun _ _ _ _ => trivial,
        fun d hd rel h => ⟨hb.deltaFile d hd rel h, ?_⟩⟩ (by rw [hw2]; exact hk.plan)
        ⟨by rw [hw2]; exact hk.kept.wf, fun q _ => by rw [hw2]⟩
      · obtain ⟨h1, h2⟩ := hsup.files r (refs_limited hds r hr)
        rw [hprop.sane.mappings]
        exact ⟨h1, hhas.names r hr, h2⟩
      · exact hb'.name
      · exact hb'.snapFile rel h
      · exact hb'.deltaFile d hd rel h
  obtain ⟨r, w3, e3⟩ := hup
  cases r with
  | none =>
    have : prepare depth c env (World.start f0) = (.ok none, w3) := by
      unfold prepare
      rw [M.bind_of_ok e1, M.bind_of_ok e3]
      rfl
    rw [process_eq]
    unfold Goes
    rw [M.bind_of_ok this]
    exact Goes.pure
  | some st =>
    obtain ⟨s, w4, w5, e4, e5⟩ := hpass s0 w1 st w3 e1 e3
    have hprep : prepare depth c env (World.start f0) = (.ok (some (s, st)), w5) := by
      unfold prepare
      rw [M.bind_of_ok e1, M.bind_of_ok e3]
      dsimp only
      rw [M.bind_of_ok e4, M.bind_of_ok e5]
      rfl
    rcases run_cases (depth := depth) (w := World.start f0) hc with ⟨_, h1⟩ | ⟨s', st', w', n1, h1, h2⟩
    · exact (h1 _ _ _ hprep).elim
    · obtain ⟨s0', n0, hrd, hof⟩ := readyAt hl hc hk.kept hr.good h1
      have he : s0'.source.etag = none := by
        rcases hrd.inUse with h | ⟨_, rfl⟩
        · exact (hk.kept.state s0' h).etag
        · rfl
      have hof' := hof
      rw [he] at hof'
      have hmn := hsup.offered hof'
      subst hmn
      obtain ⟨v, hv⟩ := hrd.same
      have hnm : Named T c s' := (hrd.inUse.named hk.named).congr (by rw [hv]) (by rw [hv]) (by rw [hv])
      have hgood : (planOf T c name).Good w'.cur := by
        have := ((prepare_tidy (depth := depth) (w := World.start f0) hP hc hr.has).plan hk.plan).1
        rw [h1.prep] at this
        exact this
      obtain ⟨rst, hrst⟩ := hst.rsync
      unfold Goes
      rw [h2]
      exact publish_goes hT hsym hf hcf hrd hr.has ((hr.has _ _ hof).limited hrd.step.limited) hnm hgood hrst
        (fun b hb => hsup.whole b (by
          obtain ⟨ds', _, h⟩ := hrd.step.limited
          rw [h] at hb
          exact hb))

end

end KSync
