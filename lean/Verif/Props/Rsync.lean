import Verif.Lemmas.Objects
import Verif.Props.Update

/-!
# The rsync directory (properties C24, C25, C26, C27, C28, C32)

`TreeIs`, `TimesAre`, `servedDir`, `NewRevision`, `RevisionDue` are defined in
`Verif/Spec/Rsync.lean`.
-/

set_option linter.unusedVariables false

namespace KSync

/-! ## Lemmas for this file -/

theorem Layout.rsync_leaf [Ext] {c : Config} {base name : Str} {env : Env} {fs : FS} {s : RrdpState}
    {x : SnapshotState} {w : World} (hl : Layout c base name)
    (h : RsyncReady c base name env fs s x w) {q : Path} (hq : RsyncArea c q) :
    w.cur.leaf q = fs.leaf q := by
  refine h.leaf q (fun h' => ?_) (fun h' => hl.rrdp_not_rsync h' hq)
  rcases hq with hq | rfl
  · exact hl.rsyncStaging.not_both hq h'
  · unfold Config.stagingDir Config.rsyncStatePath at h'
    rw [List.prefix_append_right_inj] at h'
    exact absurd h' (by decide)

theorem link_of_get {f : FS} {p : Path} {t : Name} (h : f.get p = some (.link t)) :
    f.link? p = some t := by
  unfold FS.link?; rw [h]

theorem servedDir_link {c : Config} {f : FS} {rev : RsyncRevision}
    (h : f.link? c.rsyncCurrent = some rev.dirName) : servedDir c f = rev.path c := by
  unfold servedDir; rw [h]; rfl

theorem Filled.rsyncSame [Ext] {env : Env} {c : Config} {f f' : FS} {d : Path} {ih : Bool}
    {els : List (RsyncUri × Bytes)} (h : Filled env f d ih els) (hs : RsyncSame c f f')
    (hd : c.rsyncDir <+: d) : Filled env f' d ih els := by
  have key : ∀ q, d <+: q → f'.leaf q = f.leaf q := fun q hq => hs.1 q (Or.inl (hd.trans hq))
  refine ⟨⟨(hs.2 d hd).2 h.1.1, fun q => ?_⟩, fun hf => (h.2 hf).of_leaf key⟩
  rw [key _ (List.prefix_append _ _)]
  exact h.1.2 q

theorem switchTo_in [Ext] {rev : RsyncRevision} {st : RsyncDirState} {c : Config} {E : Eff}
    (h1 : ∀ q, c.rsyncTmp <+: q → E.files q) (h2 : ∀ q, c.rsyncCurrent <+: q → E.files q)
    (h3 : ∀ old, st.current = some old → c.rsyncUseSymlinks = false → ∀ q, old.path c <+: q → E.files q)
    (h4 : ∀ q, rev.path c <+: q → E.files q) : Rel (Within E) (switchTo rev st c) := by
  unfold switchTo
  by_cases hm : c.rsyncUseSymlinks = true
  · rw [if_pos hm]
    exact symlinkCurrent_in (fun q hq => h1 q (by rw [cur_tmp_path] at hq; exact hq)) h2
  · rw [if_neg hm]
    exact renameCurrent_in (fun old ho => h3 old ho (by simpa using hm)) h2 h4

theorem nothing_below {f : FS} (hw : f.WF) {p q : Path} (h : f.exists? p = false) (hq : p <+: q) :
    f.get q = none ∨ (q = p ∧ ∃ t, f.get q = some (.link t)) := by
  unfold FS.exists? FS.resolve at h
  by_cases he : q = p
  · subst he
    match hg : f.get q with
    | none => exact Or.inl rfl
    | some .dir => rw [hg] at h; cases h
    | some (.file b t) => rw [hg] at h; cases h
    | some (.link t) => exact Or.inr ⟨rfl, t, rfl⟩
  · left
    by_cases hn : f.get q = none
    · exact hn
    · have := hw.above hq (Ne.symm he) hn
      rw [this] at h
      cases h

/-! ## The theorems -/

/-- **C24.** After a successful update with rsync enabled the directory that is served contains
exactly the objects of the snapshot that is published via RRDP: for each object a file with its bytes
(the last one if a path occurs twice), and nothing else. (With C30: if there was no I/O failure, each
file has the time that belongs to it.) -/
theorem C24_served_is_snapshot [Ext] (depth : Nat) (c : Config) (env : Env) (fs : FS)
    (base name : Str) (w' : World) (hl : Layout c base name) (hc : RunConds c base name env fs)
    (he : c.rsyncEnabled = true) (hcs : CleanSource c base env fs)
    (hlk : fs.link? c.rsyncStatePath = none)
    (hnew : ∀ n, Announces c base name env fs n → NewRevision c fs n.rev)
    (h : process depth c env (World.start fs) = (.ok (), w')) :
    w'.crashPoints = [fs] ∨
    ∃ n n' t rel b, Announces c base name env fs n ∧ SameVersion n n' ∧
      w'.cur.get (c.notifPath name) = some (.file (Ext.writeNotif n') t) ∧
      n.snapUri = base ++ rel ∧ w'.cur.file? (c.pubPath rel) = some b ∧ Ext.sha b = n.snapHash ∧
      (Ext.streamSnapshot b).2 = true ∧
      TreeIs w'.cur (servedDir c w'.cur) c.rsyncIncludeHost (Ext.streamSnapshot b).1 ∧
      (NoFaults env → TimesAre w'.cur (servedDir c w'.cur)) ∧
      (c.rsyncUseSymlinks = true → w'.cur.link? c.rsyncCurrent = some n.rev.dirName) ∧
      (c.rsyncUseSymlinks = false → w'.cur.get c.rsyncCurrent = some .dir) := by
  rcases run_rsync_ok hl hc he h with h1 | ⟨s, x, w3, w4, hr, hu, hsame, hleaf, n', t, hn, v1, v2, v3, v4⟩
  · exact Or.inl h1
  · refine Or.inr ?_
    obtain ⟨n, ha, hv, hh, huri⟩ := hr.version
    obtain ⟨hsl, hsb⟩ := hr.source hcs
    have hlk3 : w3.cur.link? c.rsyncStatePath = none := by
      rw [FS.link?_of_leaf (hl.rsync_leaf hr (Or.inr rfl))]; exact hlk
    have hn3 : NewRevision c w3.cur x.rev := by
      rw [hv]
      exact (hnew n ha).of_leaf (hl.rsync_leaf hr (Or.inr rfl)) (fun q hq => hl.rsync_leaf hr (Or.inl hq))
    obtain ⟨w1', w2', w3', w4', w5', st, st1, st2, d⟩ := updateRsync_ok hr.snapshot hu
    have hlk3' : w3.cur.link? (s.mappings.path x.relPath) = none := by rw [hr.path]; exact hsl
    obtain ⟨s1, _⟩ := recover_ok hlk3 d.recovered
    obtain ⟨b, hb⟩ := makeRevision_reads (by rw [s1.cur]; exact hn3.noFiles)
      (by rw [s1.cur]; exact hlk3') d.made
    rw [s1.cur] at hb
    obtain ⟨hw4, hcomp, hfil, hsym, hmov⟩ := updateRsync_served (hc.objects he) hr.wf hlk3
      hl.rsyncRsyncState hr.snapshot hb hn3 hu
    rw [hr.path] at hb
    have hcur : w'.cur.leaf c.rsyncCurrent = w4.cur.leaf c.rsyncCurrent :=
      hsame.1 _ (Or.inl (List.prefix_append _ _))
    have hserved : servedDir c w'.cur = servedDir c w4.cur := by
      unfold servedDir
      rw [FS.link?_of_leaf hcur]
    have hbelow : c.rsyncDir <+: servedDir c w4.cur := by
      unfold servedDir
      split
      · exact List.prefix_append _ _
      · exact List.prefix_append _ _
    have hfil' := hfil.rsyncSame hsame hbelow
    refine ⟨n, n', t, x.relPath, b, ha, ⟨?_, ?_, ?_, ?_⟩, hn, huri, ?_, ?_, hcomp, ?_, ?_, ?_, ?_⟩
    · rw [v1]; exact congrArg RsyncRevision.session hv
    · rw [v2]; exact congrArg RsyncRevision.serial hv
    · rw [v4, huri]
    · rw [v3, hh]
    · rw [FS.file?_of_leaf hleaf]; exact hb
    · rw [hsb b hb, hh]
    · rw [hserved]; exact hfil'.1
    · rw [hserved]; exact hfil'.2
    · intro hm
      rw [FS.link?_of_leaf hcur, ← hv]
      exact hsym hm
    · intro hm
      exact (hsame.2 _ (List.prefix_append _ _)).2 (hmov hm)

/-- **C25.** With links: at every instant of a run `current` is exactly what it was before the run,
or the link to the directory of the newly announced version. -/
theorem C25_link_switched_atomically [Ext] (depth : Nat) (c : Config) (env : Env) (fs : FS)
    (base name : Str) (hl : Layout c base name) (hc : RunConds c base name env fs)
    (he : c.rsyncEnabled = true) (hm : c.rsyncUseSymlinks = true) :
    ∀ f ∈ (process depth c env (World.start fs)).2.crashPoints,
      f.leaf c.rsyncCurrent = fs.leaf c.rsyncCurrent ∨
      ∃ n, Announces c base name env fs n ∧ f.get c.rsyncCurrent = some (.link n.rev.dirName) := by
  have hcur : RsyncArea c c.rsyncCurrent := Or.inl (List.prefix_append _ _)
  have hleaf : ∀ f f' : FS, f'.leaf c.rsyncCurrent = f.leaf c.rsyncCurrent → ∀ t,
      f.get c.rsyncCurrent = some (.link t) → f'.get c.rsyncCurrent = some (.link t) := by
    intro f f' h1 t h2
    have h3 := FS.link?_of_leaf h1
    rw [link_of_get h2] at h3
    unfold FS.link? at h3
    split at h3
    · rename_i hg; cases h3; exact hg
    · cases h3
  suffices hs : ∀ f ∈ (process depth c env (World.start fs)).2.crashPoints, f.WF ∧
      (f.leaf c.rsyncCurrent = fs.leaf c.rsyncCurrent ∨
      ∃ n, Announces c base name env fs n ∧ f.get c.rsyncCurrent = some (.link n.rev.dirName)) from
    fun f hf => (hs f hf).2
  let P : FS → Prop := fun f => f.WF ∧ (f.leaf c.rsyncCurrent = fs.leaf c.rsyncCurrent ∨
      ∃ n, Announces c base name env fs n ∧ f.get c.rsyncCurrent = some (.link n.rev.dirName))
  have frame : ∀ {S : Path → Prop}, ¬ S c.rsyncCurrent → ∀ f f', P f → Change S f f' → P f' := by
    rintro S hS f f' ⟨g1, g2⟩ g3
    have g4 := (g3 g1).2 _ hS
    refine ⟨(g3 g1).1, ?_⟩
    rcases g2 with g2 | ⟨n, g2, g5⟩
    · exact Or.inl (g4.trans g2)
    · exact Or.inr ⟨n, g2, hleaf f f' g4 _ g5⟩
  refine run_rsync_keeps (P := P) hl hc he (fun f h1 h2 => ⟨h1, Or.inl (h2 _ hcur)⟩) ?_ ?_
  · rintro f f' ⟨g1, g2⟩ hs hw
    refine ⟨hw, ?_⟩
    rcases g2 with g2 | ⟨n, g2, g3⟩
    · exact Or.inl ((hs.1 _ hcur).trans g2)
    · exact Or.inr ⟨n, g2, hleaf f f' (hs.1 _ hcur) _ g3⟩
  · intro s x w hr
    obtain ⟨n, ha, hv, _⟩ := hr.version
    have hnc : ¬ (c.rsyncCurrent = c.rsyncStatePath) := fun h =>
      hl.rsyncRsyncState.1 (h ▸ List.prefix_append _ _)
    refine updateRsync_tr (T := Keeps P) hr.snapshot ?_ ?_ ?_ ?_ ?_ ?_
    · exact Keeps.of_same (recover_same c env w)
    · intro st w1 _
      exact Keeps.of_within (makeRevision_in (hc.objects he) env w1)
        (frame (fun h => rev_not_current h (List.prefix_refl _)))
    · intro st w1 w2 _ _
      unfold switchTo
      rw [if_pos hm]
      have k1 := symlinkCurrent_steps (rev := x.rev) (c := c) env w2
      have k2 := symlinkCurrent_in (r := x.rev) (c := c) (E := Eff.only (fun _ => True))
        (fun _ _ => trivial) (fun _ _ => trivial) env w2
      refine Keeps.of_steps (k1.and k2.steps) ?_
      rintro f f' ⟨g1, g2⟩ ⟨⟨_, g4⟩, g5⟩
      refine ⟨(g5 g1).1, ?_⟩
      rcases g4 with g4 | ⟨_, g4⟩
      · rcases g2 with g2 | ⟨n, g2, g3⟩
        · exact Or.inl ((leaf_of_get g4).trans g2)
        · exact Or.inr ⟨n, g2, g4.trans g3⟩
      · exact Or.inr ⟨n, ha, by rw [← hv]; exact g4⟩
    · intro st w1 w2 w3 _ _ _
      exact Keeps.of_same (updateCurrent_same _ _ env w3)
    · intro st w1 w2 w3 st1 w4 _ _ _ _
      refine Keeps.of_within (cleanOld_in' env w4) (frame ?_)
      rintro ⟨d, _, h⟩
      exact rev_not_current h (List.prefix_refl _)
    · intro st w1 w2 w3 st1 w4 st2 w5 _ _ _ _ _
      exact Keeps.of_within (writeBuf_in (E := Eff.only (· = c.rsyncStatePath)) rfl _ env w5)
        (frame hnc)

/-- **C26.** With links, when the new revision is not on disk yet: at every instant of a run clients
of the rsync server see either exactly the directory they saw before the run, with all its content, or
the directory of the new revision with exactly the objects of the announced snapshot. -/
theorem C26_always_whole [Ext] (depth : Nat) (c : Config) (env : Env) (fs : FS)
    (base name : Str) (hl : Layout c base name) (hc : RunConds c base name env fs)
    (he : c.rsyncEnabled = true) (hm : c.rsyncUseSymlinks = true) (hcs : CleanSource c base env fs)
    (hlk : fs.link? c.rsyncStatePath = none) (hlr : LinksRevision c fs)
    (hnew : ∀ n, Announces c base name env fs n → NewRevision c fs n.rev) :
    ∀ f ∈ (process depth c env (World.start fs)).2.crashPoints,
      (servedDir c f = servedDir c fs ∧ ∀ q, servedDir c fs <+: q → f.leaf q = fs.leaf q) ∨
      ∃ n b, Announces c base name env fs n ∧ Ext.sha b = n.snapHash ∧
        (Ext.streamSnapshot b).2 = true ∧ f.link? c.rsyncCurrent = some n.rev.dirName ∧
        TreeIs f (servedDir c f) c.rsyncIncludeHost (Ext.streamSnapshot b).1 := by
  let New : FS → Prop := fun f => ∃ n b, Announces c base name env fs n ∧ Ext.sha b = n.snapHash ∧
        (Ext.streamSnapshot b).2 = true ∧ f.link? c.rsyncCurrent = some n.rev.dirName ∧
        Filled env f (n.rev.path c) c.rsyncIncludeHost (Ext.streamSnapshot b).1
  let Old : FS → Prop := fun f => f.leaf c.rsyncCurrent = fs.leaf c.rsyncCurrent ∧
    ∀ q, servedDir c fs <+: q → f.leaf q = fs.leaf q
  have hserved : c.rsyncDir <+: servedDir c fs := by
    unfold servedDir
    split
    · exact List.prefix_append _ _
    · exact List.prefix_append _ _
  have hcur : RsyncArea c c.rsyncCurrent := Or.inl (List.prefix_append _ _)
  have key : ∀ f ∈ (process depth c env (World.start fs)).2.crashPoints, Old f ∨ New f := by
    refine run_rsync_keeps (P := fun f => Old f ∨ New f) hl hc he ?_ ?_ ?_
    · exact fun f _ h => Or.inl ⟨h _ hcur, fun q hq => h q (Or.inl (hserved.trans hq))⟩
    · rintro f f' (⟨h1, h2⟩ | ⟨n, b, h1, h2, h3, h4, h5⟩) hs _
      · exact Or.inl ⟨(hs.1 _ hcur).trans h1,
          fun q hq => (hs.1 q (Or.inl (hserved.trans hq))).trans (h2 q hq)⟩
      · refine Or.inr ⟨n, b, h1, h2, h3, ?_, h5.rsyncSame hs (List.prefix_append _ _)⟩
        rw [FS.link?_of_leaf (hs.1 _ hcur)]; exact h4
    · intro s x w hr
      obtain ⟨n, ha, hv, hh, huri⟩ := hr.version
      obtain ⟨hsl, hsb⟩ := hr.source hcs
      have hlk3 : w.cur.link? c.rsyncStatePath = none := by
        rw [FS.link?_of_leaf (hl.rsync_leaf hr (Or.inr rfl))]; exact hlk
      have hn3 : NewRevision c w.cur x.rev := by
        rw [hv]
        exact (hnew n ha).of_leaf (hl.rsync_leaf hr (Or.inr rfl)) (fun q hq => hl.rsync_leaf hr (Or.inl hq))
      have k := updateRsync_links (env := env) hm (hc.objects he) hr.wf hlk3 hl.rsyncRsyncState hr.snapshot
        (by rw [hr.path]; exact hsl) hn3
      refine Keeps.via k (Or.inl ⟨hr.wf, Frame.refl _⟩) ?_
      rintro f (⟨_, h1⟩ | ⟨st, els, _, ⟨b, h1, h2, rfl⟩, _, h3, h4, _⟩)
      · left
        have hnot : ∀ q, servedDir c fs <+: q → ¬ (x.rev.path c <+: q ∨ q = c.rsyncTmp) := by
          intro q hq hbad
          have hnl := hn3.notLinked
          rw [FS.link?_of_leaf (hl.rsync_leaf hr hcur)] at hnl
          unfold servedDir at hq
          match ht : fs.link? c.rsyncCurrent with
          | none =>
            rw [ht] at hq
            rcases hbad with hbad | hbad
            · exact rev_not_current hbad hq
            · subst hbad; exact current_not_tmp hq (List.prefix_refl _)
          | some t =>
            rw [ht] at hq hnl
            obtain ⟨r, rfl⟩ := hlr t ht
            rcases hbad with hbad | hbad
            · have := rev_apart (r := r) hq hbad
              subst this
              exact hnl rfl
            · subst hbad; exact rev_not_tmp (r := r) hq (List.prefix_refl _)
        refine ⟨?_, fun q hq => ?_⟩
        · rw [h1 _ ?_]
          · exact hl.rsync_leaf hr hcur
          · rintro (h | h)
            · exact rev_not_current h (List.prefix_refl _)
            · exact current_not_tmp (c := c) (List.prefix_refl _) (h ▸ List.prefix_refl _)
        · rw [h1 q (hnot q hq)]
          exact hl.rsync_leaf hr (Or.inl (hserved.trans hq))
      · refine Or.inr ⟨n, b, ha, ?_, h2, ?_, ?_⟩
        · rw [hsb b (by rw [← hr.path]; exact h1), hh]
        · rw [← hv]; exact link_of_get h3
        · rw [← hv]; exact h4
  intro f hf
  rcases key f hf with ⟨h1, h2⟩ | ⟨n, b, h1, h2, h3, h4, h5⟩
  · refine Or.inl ⟨?_, h2⟩
    unfold servedDir
    rw [FS.link?_of_leaf h1]
  · refine Or.inr ⟨n, b, h1, h2, h3, h4, ?_⟩
    rw [servedDir_link h4]
    exact h5.1

/-- **C27.** The directory of a revision is untouched at every instant of a run unless its removal is
due, it is that of the version being published, or (without links) `current` is moved there. -/
theorem C27_kept_until_due [Ext] (depth : Nat) (c : Config) (env : Env) (fs : FS)
    (base name : Str) (hl : Layout c base name) (hc : RunConds c base name env fs)
    (he : c.rsyncEnabled = true) (hlk : fs.link? c.rsyncStatePath = none)
    (st : RsyncDirState) (hrec : RsyncRecorded c fs st) (r : RsyncRevision)
    (hdue : ¬ RevisionDue c env st r) (hnew : ∀ n, Announces c base name env fs n → n.rev ≠ r)
    (hmove : c.rsyncUseSymlinks = false → st.current ≠ some r) :
    ∀ f ∈ (process depth c env (World.start fs)).2.crashPoints,
      ∀ q, r.path c <+: q → f.leaf q = fs.leaf q := by
  let P : FS → Prop := fun f => f.WF ∧ ∀ q, r.path c <+: q → f.leaf q = fs.leaf q
  suffices hs : ∀ f ∈ (process depth c env (World.start fs)).2.crashPoints, P f from
    fun f hf => (hs f hf).2
  have area : ∀ q, r.path c <+: q → RsyncArea c q := fun q hq => Or.inl ((List.prefix_append _ _).trans hq)
  have frame : ∀ {S : Path → Prop}, (∀ q, r.path c <+: q → ¬ S q) → ∀ f f', P f → Change S f f' → P f' := by
    rintro S hS f f' ⟨g1, g2⟩ g3
    exact ⟨(g3 g1).1, fun q hq => ((g3 g1).2 q (hS q hq)).trans (g2 q hq)⟩
  refine run_rsync_keeps (P := P) hl hc he (fun f h1 h2 => ⟨h1, fun q hq => h2 q (area q hq)⟩) ?_ ?_
  · rintro f f' ⟨g1, g2⟩ hs hw
    exact ⟨hw, fun q hq => (hs.1 q (area q hq)).trans (g2 q hq)⟩
  · intro s x w hr
    obtain ⟨n, ha, hv, _⟩ := hr.version
    have hne : x.rev ≠ r := by rw [hv]; exact hnew n ha
    have hlk3 : w.cur.link? c.rsyncStatePath = none := by
      rw [FS.link?_of_leaf (hl.rsync_leaf hr (Or.inr rfl))]; exact hlk
    have same : ∀ st' w1, RsyncDirState.recover c env w = (.ok st', w1) → st' = st := by
      intro st' w1 e1
      obtain ⟨_, h1⟩ := recover_ok hlk3 e1
      exact (h1.of_leaf (hl.rsync_leaf hr (Or.inr rfl))).unique hrec
    have notRev : ∀ q, r.path c <+: q → ¬ x.rev.path c <+: q :=
      fun q hq h => hne (rev_apart h hq)
    refine updateRsync_tr (T := Keeps P) hr.snapshot ?_ ?_ ?_ ?_ ?_ ?_
    · exact Keeps.of_same (recover_same c env w)
    · intro st' w1 _
      exact Keeps.of_within (makeRevision_in (hc.objects he) env w1) (frame notRev)
    · intro st' w1 w2 e1 _
      obtain rfl := same st' w1 e1
      refine Keeps.of_within (switchTo_in (E := Eff.only (fun q => c.rsyncTmp <+: q ∨
        c.rsyncCurrent <+: q ∨ x.rev.path c <+: q ∨
        ∃ old, st'.current = some old ∧ c.rsyncUseSymlinks = false ∧ old.path c <+: q))
        (fun q h => Or.inl h) (fun q h => Or.inr (Or.inl h))
        (fun old h1 h2 q h3 => Or.inr (Or.inr (Or.inr ⟨old, h1, h2, h3⟩)))
        (fun q h => Or.inr (Or.inr (Or.inl h))) env w2) (frame ?_)
      rintro q hq (h | h | h | ⟨old, h1, h2, h3⟩)
      · exact rev_not_tmp hq h
      · exact rev_not_current hq h
      · exact notRev q hq h
      · have := rev_apart h3 hq
        subst this
        exact hmove h2 h1
    · intro st' w1 w2 w3 _ _ _
      exact Keeps.of_same (updateCurrent_same _ _ env w3)
    · intro st' w1 w2 w3 st1 w4 e1 _ _ e4
      obtain rfl := same st' w1 e1
      refine Keeps.of_within (cleanOld_within (st := st1) (c := c) (env := env) (w := w4)) (frame ?_)
      rintro q hq ⟨d, hd, h5, h6⟩
      have := rev_apart h6 hq
      subst this
      exact hdue (updateCurrent_due e4 hd h5)
    · intro st' w1 w2 w3 st1 w4 st2 w5 _ _ _ _ _
      refine Keeps.of_within (writeBuf_in (E := Eff.only (· = c.rsyncStatePath)) rfl _ env w5) (frame ?_)
      intro q hq h
      subst h
      exact hl.rsyncRsyncState.1 ((List.prefix_append _ _).trans hq)

/-- **C27.** After a successful update the rsync state names the new revision as current, the revision
it replaces is scheduled, and of all scheduled revisions exactly those are forgotten that were scheduled
at least `--cleanup-after` seconds before the clock reading `k` taken by the cleanup; of those nothing
is left, be it a file or a directory (a link in place of the directory is passed over). -/
theorem C27_after_success [Ext] (depth : Nat) (c : Config) (env : Env) (fs : FS)
    (base name : Str) (w' : World) (hl : Layout c base name) (hc : RunConds c base name env fs)
    (he : c.rsyncEnabled = true) (hlk : fs.link? c.rsyncStatePath = none)
    (h : process depth c env (World.start fs) = (.ok (), w')) :
    w'.crashPoints = [fs] ∨
    ∃ n st st' i k, Announces c base name env fs n ∧ RsyncRecorded c fs st ∧
      RsyncRecorded c w'.cur st' ∧ st'.current = some n.rev ∧ i ≤ k ∧
      ∀ d : DeprecatedRevision,
        (d ∈ st'.old ↔ (d ∈ st.old ∨ (st.current = some d.revision ∧ d.since = env.clock i)) ∧
          env.clock k < d.since + c.cleanupAfter) ∧
        ((d ∈ st.old ∨ (st.current = some d.revision ∧ d.since = env.clock i)) →
          d.since + c.cleanupAfter ≤ env.clock k →
          ∀ q, d.revision.path c <+: q → w'.cur.get q = none ∨
            (q = d.revision.path c ∧ ∃ t, w'.cur.get q = some (.link t))) := by
  rcases run_rsync_ok hl hc he h with h1 | ⟨s, x, w, w0, hr, hu, hsame, _, _⟩
  · exact Or.inl h1
  · refine Or.inr ?_
    obtain ⟨n, ha, hv, _⟩ := hr.version
    have hlk3 : w.cur.link? c.rsyncStatePath = none := by
      rw [FS.link?_of_leaf (hl.rsync_leaf hr (Or.inr rfl))]; exact hlk
    obtain ⟨w1, w2, w3, w4, w5, st, st1, st2, d⟩ := updateRsync_ok hr.snapshot hu
    obtain ⟨s1, hrec⟩ := recover_ok hlk3 d.recovered
    obtain ⟨c1, s4, ht, hcase⟩ := updateCurrent_ok d.updated
    obtain ⟨c2, c3, c4⟩ := cleanOld_ok d.cleaned
    -- the tree stays well-formed
    have hw1 : w1.cur.WF := by rw [s1.cur]; exact hr.wf
    have hw2 : w2.cur.WF := by
      have := (makeRevision_in (rev := x.rev) (c := c) (src := s.mappings.path x.relPath)
        (hc.objects he) env w1).wf hw1
      rw [d.made] at this; exact this
    have hw3 : w3.cur.WF := by
      have := (switchTo_in (rev := x.rev) (st := st) (c := c) (E := Eff.only (fun _ => True))
        (fun _ _ => trivial) (fun _ _ => trivial) (fun _ _ _ _ _ => trivial) (fun _ _ => trivial)
        env w2).wf hw2
      rw [d.switched] at this; exact this
    have hw5 : w5.cur.WF := by
      have := (cleanOld_in' (st := st1) (c := c) env w4).wf (by rw [s4.cur]; exact hw3)
      rw [d.cleaned] at this; exact this
    have hwr := writeBuf_in (E := Eff.only (· = c.rsyncStatePath)) (p := c.rsyncStatePath) rfl
      (Ext.encRsync st2) env w5
    rw [show writeBuf c.rsyncStatePath (Ext.encRsync st2) env w5 = _ from d.persisted] at hwr
    obtain ⟨_, ⟨t, hfile⟩, _⟩ := writeBuf_ok (show writeBuf c.rsyncStatePath (Ext.encRsync st2) env w5
      = _ from d.persisted)
    have hst : st1.current = some x.rev := c1
    have mem : ∀ e : DeprecatedRevision, e ∈ st1.old ↔
        (e ∈ st.old ∨ (st.current = some e.revision ∧ e.since = env.clock w3.tick)) := by
      intro e
      rcases hcase with ⟨g1, g2⟩ | ⟨old, g1, g2, _⟩
      · rw [g2, g1]
        constructor
        · exact Or.inl
        · rintro (g | ⟨g, _⟩)
          · exact g
          · cases g
      · rw [g2, g1, List.mem_append, List.mem_singleton]
        constructor
        · rintro (g | rfl)
          · exact Or.inl g
          · exact Or.inr ⟨rfl, rfl⟩
        · rintro (g | ⟨g, g'⟩)
          · exact Or.inl g
          · refine Or.inr ?_
            cases e
            dsimp only at g g'
            cases g
            rw [g']
    refine ⟨n, st, st2, w3.tick, w4.tick, ha, hrec.of_leaf (hl.rsync_leaf hr (Or.inr rfl)), ?_, ?_, ht,
      fun e => ⟨?_, ?_⟩⟩
    · refine Or.inl ⟨Ext.encRsync st2, ?_, Ext.dec_enc_rsync _⟩
      rw [FS.file?_of_leaf (hsame.1 _ (Or.inr rfl))]
      unfold FS.file?; rw [hfile]
    · rw [c2, hst, hv]
    · rw [c3, mem]
    · intro g1 g2 q hq
      have g3 := c4 e ((mem e).2 g1) g2
      have hqd : c.rsyncDir <+: q := (List.prefix_append _ _).trans hq
      have hne : ¬ q <+: c.rsyncStatePath := fun h' => hl.rsyncRsyncState.1 (hqd.trans h')
      rw [hsame.get hqd, FS.get_of_same (hwr.frame hw5 q (fun (h' : q = _) =>
        hne (h' ▸ List.prefix_refl _))) ((hwr.dirs.ends DirFrame.refl (fun _ _ _ => DirFrame.trans)).1 q
          (fun p (hp : p = _) => hp ▸ hne))]
      exact nothing_below hw5 g3 hq

/-- **C28**, for one run: with links, if the version being published is not mentioned in the rsync state
(neither current nor replaced earlier), then at every instant `current` is as before the run or points
to the new revision's directory with all its objects, and so it is after success. (In contrast to C26
the directory may have been begun by an interrupted run.) -/
theorem C28_current_survives_partial [Ext] (depth : Nat) (c : Config) (env : Env) (fs : FS)
    (base name : Str) (hl : Layout c base name) (hc : RunConds c base name env fs)
    (he : c.rsyncEnabled = true) (hm : c.rsyncUseSymlinks = true) (hcs : CleanSource c base env fs)
    (hlk : fs.link? c.rsyncStatePath = none)
    (hnew : ∀ n st, Announces c base name env fs n → RsyncRecorded c fs st →
      st.current ≠ some n.rev ∧ ∀ d ∈ st.old, d.revision ≠ n.rev) :
    (∀ f ∈ (process depth c env (World.start fs)).2.crashPoints,
      f.leaf c.rsyncCurrent = fs.leaf c.rsyncCurrent ∨
      ∃ n b, Announces c base name env fs n ∧ Ext.sha b = n.snapHash ∧
        (Ext.streamSnapshot b).2 = true ∧ f.link? c.rsyncCurrent = some n.rev.dirName ∧
        HasObjects f (servedDir c f) c.rsyncIncludeHost (Ext.streamSnapshot b).1) ∧
    ∀ w', process depth c env (World.start fs) = (.ok (), w') → w'.crashPoints = [fs] ∨
      ∃ n b, Announces c base name env fs n ∧ Ext.sha b = n.snapHash ∧
        (Ext.streamSnapshot b).2 = true ∧ w'.cur.link? c.rsyncCurrent = some n.rev.dirName ∧
        HasObjects w'.cur (servedDir c w'.cur) c.rsyncIncludeHost (Ext.streamSnapshot b).1 := by
  have hcur : RsyncArea c c.rsyncCurrent := Or.inl (List.prefix_append _ _)
  let New : FS → Prop := fun f => ∃ n b, Announces c base name env fs n ∧ Ext.sha b = n.snapHash ∧
        (Ext.streamSnapshot b).2 = true ∧ f.link? c.rsyncCurrent = some n.rev.dirName ∧
        HasObjects f (n.rev.path c) c.rsyncIncludeHost (Ext.streamSnapshot b).1
  have conv : ∀ f, New f → ∃ n b, Announces c base name env fs n ∧ Ext.sha b = n.snapHash ∧
        (Ext.streamSnapshot b).2 = true ∧ f.link? c.rsyncCurrent = some n.rev.dirName ∧
        HasObjects f (servedDir c f) c.rsyncIncludeHost (Ext.streamSnapshot b).1 := by
    rintro f ⟨n, b, h1, h2, h3, h4, h5⟩
    exact ⟨n, b, h1, h2, h3, h4, by rw [servedDir_link h4]; exact h5⟩
  have newSame : ∀ f f', New f → RsyncSame c f f' → New f' := by
    rintro f f' ⟨n, b, h1, h2, h3, h4, h5⟩ hs
    refine ⟨n, b, h1, h2, h3, by rw [FS.link?_of_leaf (hs.1 _ hcur)]; exact h4, h5.of_leaf ?_⟩
    exact fun q hq => hs.1 q (Or.inl ((List.prefix_append _ _).trans hq))
  have core : ∀ s x w, RsyncReady c base name env fs s x w →
      Keeps (fun f => f.leaf c.rsyncCurrent = fs.leaf c.rsyncCurrent ∨ New f) w (updateRsync s c env w).2 ∧
      ((updateRsync s c env w).1 = .ok () → New (updateRsync s c env w).2.cur) := by
    intro s x w hr
    obtain ⟨n, ha, hv, hh, huri⟩ := hr.version
    obtain ⟨hsl, hsb⟩ := hr.source hcs
    have hlk3 : w.cur.link? c.rsyncStatePath = none := by
      rw [FS.link?_of_leaf (hl.rsync_leaf hr (Or.inr rfl))]; exact hlk
    obtain ⟨k1, k2⟩ := updateRsync_has (env := env) hm (hc.objects he) hr.wf hlk3 hl.rsyncRsyncState
      hr.snapshot (by rw [hr.path]; exact hsl)
      (fun st h => by rw [hv]; exact (hnew n st ha (h.of_leaf (hl.rsync_leaf hr (Or.inr rfl)))).1)
      (fun st h => by rw [hv]; exact (hnew n st ha (h.of_leaf (hl.rsync_leaf hr (Or.inr rfl)))).2)
    have made : ∀ f els, MadeFrom (s.mappings.path x.relPath) els w.cur →
        f.link? c.rsyncCurrent = some x.rev.dirName →
        HasObjects f (x.rev.path c) c.rsyncIncludeHost els → New f := by
      rintro f els ⟨b, g1, g2, rfl⟩ g3 g4
      refine ⟨n, b, ha, ?_, g2, by rw [← hv]; exact g3, by rw [← hv]; exact g4⟩
      rw [hsb b (by rw [← hr.path]; exact g1), hh]
    refine ⟨Keeps.via k1 ⟨hr.wf, Or.inl rfl⟩ ?_, fun hok => ?_⟩
    · rintro f ⟨_, h | ⟨h1, els, h2, h3⟩⟩
      · exact Or.inl (h.trans (hl.rsync_leaf hr hcur))
      · exact Or.inr (made f els h2 h1 h3)
    · obtain ⟨h1, els, h2, h3⟩ := k2 hok
      exact made _ els h2 h1 h3
  refine ⟨fun f hf => ?_, fun w' h => ?_⟩
  · have := run_rsync_keeps (P := fun f => f.leaf c.rsyncCurrent = fs.leaf c.rsyncCurrent ∨ New f) hl hc he
      (fun f _ h => Or.inl (h _ hcur))
      (fun f f' h hs _ => h.imp (fun h => (hs.1 _ hcur).trans h) (fun h => newSame f f' h hs))
      (fun s x w hr => (core s x w hr).1) f hf
    exact this.imp id (conv f)
  · rcases run_rsync_ok hl hc he h with h1 | ⟨s, x, w, w0, hr, hu, hsame, _, _⟩
    · exact Or.inl h1
    · have := (core s x w hr).2
      rw [hu] at this
      exact Or.inr (conv _ (newSame _ _ (this rfl) hsame))

/-- **C32.** Without links: while a new revision is published, at every instant what was in `current`
is there or, all of it, in the directory of the previous revision; after success it is in the latter
and `current` holds exactly the objects of the new snapshot. -/
theorem C32_move_mode [Ext] (depth : Nat) (c : Config) (env : Env) (fs : FS)
    (base name : Str) (hl : Layout c base name) (hc : RunConds c base name env fs)
    (he : c.rsyncEnabled = true) (hm : c.rsyncUseSymlinks = false) (hcs : CleanSource c base env fs)
    (hlk : fs.link? c.rsyncStatePath = none) (st : RsyncDirState) (old : RsyncRevision)
    (hrec : RsyncRecorded c fs st) (hold : st.current = some old)
    (hcur : ∃ q, q ≠ [] ∧ fs.leaf (c.rsyncCurrent ++ q) ≠ none)
    (hnew : ∀ n, Announces c base name env fs n → NewRevision c fs n.rev)
    (hdue : ¬ RevisionDue c env st old) :
    (∀ f ∈ (process depth c env (World.start fs)).2.crashPoints,
      (∀ q, f.leaf (c.rsyncCurrent ++ q) = fs.leaf (c.rsyncCurrent ++ q)) ∨
      (∀ q, f.leaf (old.path c ++ q) = fs.leaf (c.rsyncCurrent ++ q))) ∧
    ∀ w', process depth c env (World.start fs) = (.ok (), w') → w'.crashPoints = [fs] ∨
      ((∀ q, w'.cur.leaf (old.path c ++ q) = fs.leaf (c.rsyncCurrent ++ q)) ∧
        ∃ n b, Announces c base name env fs n ∧ Ext.sha b = n.snapHash ∧
          (Ext.streamSnapshot b).2 = true ∧
          TreeIs w'.cur c.rsyncCurrent c.rsyncIncludeHost (Ext.streamSnapshot b).1) := by
  have below : ∀ q, RsyncArea c (c.rsyncCurrent ++ q) := fun q =>
    Or.inl ((List.prefix_append _ _).trans (List.prefix_append _ _))
  have below' : ∀ q, RsyncArea c (old.path c ++ q) := fun q =>
    Or.inl ((List.prefix_append _ _).trans (List.prefix_append _ _))
  have core : ∀ s x w, RsyncReady c base name env fs s x w →
      Keeps (fun f => (∀ q, f.leaf (c.rsyncCurrent ++ q) = fs.leaf (c.rsyncCurrent ++ q)) ∨
        (∀ q, f.leaf (old.path c ++ q) = fs.leaf (c.rsyncCurrent ++ q))) w (updateRsync s c env w).2 ∧
      ((updateRsync s c env w).1 = .ok () →
        ∀ q, (updateRsync s c env w).2.cur.leaf (old.path c ++ q) = fs.leaf (c.rsyncCurrent ++ q)) := by
    intro s x w hr
    obtain ⟨n, ha, hv, hh, huri⟩ := hr.version
    obtain ⟨hsl, hsb⟩ := hr.source hcs
    have hlk3 : w.cur.link? c.rsyncStatePath = none := by
      rw [FS.link?_of_leaf (hl.rsync_leaf hr (Or.inr rfl))]; exact hlk
    obtain ⟨k1, k2⟩ := updateRsync_moves (env := env) hm (hc.objects he) hr.wf hlk3 hl.rsyncRsyncState
      hr.snapshot (hrec.of_leaf (hl.rsync_leaf hr (Or.inr rfl)).symm) hold (by rw [hr.path]; exact hsl)
      (by
        obtain ⟨q, g1, g2⟩ := hcur
        exact ⟨q, g1, by rw [hl.rsync_leaf hr (below q)]; exact g2⟩)
      (by
        intro h'
        rw [hv] at h'
        exact (hnew n ha).notCurrent st hrec (by rw [hold, h']))
      (by
        intro q hq
        rw [hl.rsync_leaf hr (Or.inl ((List.prefix_append _ _).trans hq))]
        rw [hv] at hq
        exact (hnew n ha).noFiles q hq) hdue
    refine ⟨Keeps.via k1 (Or.inl ⟨hr.wf, Frame.refl _⟩) ?_, fun hok q => ?_⟩
    · rintro f (⟨_, h⟩ | h)
      · refine Or.inl (fun q => ?_)
        rw [h _ (fun h' => rev_not_current h' (List.prefix_append _ _)), hl.rsync_leaf hr (below q)]
      · exact Or.inr (fun q => by rw [h q, hl.rsync_leaf hr (below q)])
    · rw [k2 hok q, hl.rsync_leaf hr (below q)]
  refine ⟨?_, fun w' h => ?_⟩
  · refine run_rsync_keeps hl hc he (fun f _ h => Or.inl (fun q => h _ (below q))) ?_
      (fun s x w hr => (core s x w hr).1)
    rintro f f' h hs _
    exact h.imp (fun h q => (hs.1 _ (below q)).trans (h q)) (fun h q => (hs.1 _ (below' q)).trans (h q))
  · rcases run_rsync_ok hl hc he h with h1 | ⟨s, x, w, w0, hr, hu, hsame, _, _⟩
    · exact Or.inl h1
    · rcases C24_served_is_snapshot depth c env fs base name w' hl hc he hcs hlk hnew h with
        h1 | ⟨n, _, _, _, b, g1, _, _, _, _, g2, g3, g4, _, _, g5⟩
      · exact Or.inl h1
      · refine Or.inr ⟨fun q => ?_, n, b, g1, g2, g3, ?_⟩
        · have := (core s x w hr).2
          rw [hu] at this
          exact (hsame.1 _ (below' q)).trans (this rfl q)
        · have : servedDir c w'.cur = c.rsyncCurrent := by
            unfold servedDir FS.link?
            rw [g5 hm]
          rw [this] at g4
          exact g4

/-! ### The hypotheses can be met: the second and the third run -/

section

open Demo

set_option maxRecDepth 100000

namespace Demo

theorem cleanSource2 : CleanSource conf base (envAt 1 notif2) fs1 := ⟨no304 1 notif2, noLinks1, oneHash2⟩

theorem announced {t : Time} {n n' : Notif} {c : Config} {fs : FS}
    (hc : c.notificationUri = conf.notificationUri) (hm : c.fetchMap = none)
    (h : Announces c base name (envAt t n) fs n') : n' = n := by
  obtain ⟨s, _, h, _⟩ := h
  refine offers_only (by exact hm) (fun k r hr => ?_) h
  have : r.uri = uri "n" := by rw [hr, hc]; rfl
  show (if _ then _ else _) = _
  rw [if_pos this]

/-- The rsync state after the first run. -/
def rsync1 : RsyncDirState := ⟨some notif1.rev, []⟩

theorem rsyncRecorded1 : RsyncRecorded conf fs1 rsync1 :=
  Or.inl ⟨Ext.encRsync rsync1, by decide +kernel, by decide +kernel⟩

theorem newRevision2 : ∀ n, Announces conf base name (envAt 1 notif2) fs1 n → NewRevision conf fs1 n.rev := by
  intro n hn
  rw [announced rfl rfl hn]
  refine ⟨by decide +kernel, FS.noFiles_of_check (by decide +kernel), fun st h => ?_, fun st h => ?_⟩
  · rw [h.unique rsyncRecorded1]; decide
  · rw [h.unique rsyncRecorded1]; intro d hd; cases hd

theorem linksRevision1 : LinksRevision conf fs1 := by
  intro t ht
  have : fs1.link? conf.rsyncCurrent = some notif1.rev.dirName := by decide +kernel
  rw [this] at ht
  cases ht
  exact ⟨_, rfl⟩

theorem notDue {c : Config} (h : c.cleanupAfter = 10) :
    ¬ RevisionDue c (envAt 1 notif2) rsync1 notif1.rev := by
  rintro ⟨since, k, h1, h2 | ⟨_, i, _, h3⟩⟩
  · cases h2
  · rw [h3, h] at h1
    have h1 : (1 : Int) + 10 ≤ 1 := h1
    exact absurd h1 (by decide)

end Demo

example := C24_served_is_snapshot 5 conf (envAt 1 notif2) fs1 base name _ layout (runConds1 1) rfl
  cleanSource2 (by decide +kernel) newRevision2 run2

/-- The object of the second version is served after the second run. -/
example : fs2.file? (servedDir conf fs2 ++ ["a.cer".toList]) = some [2] := by decide +kernel

example := C25_link_switched_atomically 5 conf (envAt 1 notif2) fs1 base name layout (runConds1 1) rfl rfl

example := C26_always_whole 5 conf (envAt 1 notif2) fs1 base name layout (runConds1 1) rfl rfl
  cleanSource2 (by decide +kernel) linksRevision1 newRevision2

/-- The first revision is kept by the second run. -/
example := C27_kept_until_due 5 conf (envAt 1 notif2) fs1 base name layout (runConds1 1) rfl
  (by decide +kernel) rsync1 rsyncRecorded1 notif1.rev (notDue rfl)
  (fun n hn => by rw [announced rfl rfl hn]; decide) (fun h => by cases h)

/-- ... and removed by the third. -/
example := C27_after_success 5 conf (envAt 20 notif3) fs2 base name _ layout
  (runConds2 20 (by decide)) rfl (by decide +kernel) run3

example : fs2.file? (notif1.rev.path conf ++ ["a.cer".toList]) = some [1] ∧
    (after conf (envAt 20 notif3) fs2).get (notif1.rev.path conf) = none := by decide +kernel

example := C28_current_survives_partial 5 conf (envAt 1 notif2) fs1 base name layout (runConds1 1) rfl rfl
  cleanSource2 (by decide +kernel) (fun n st hn h => ⟨(newRevision2 n hn).notCurrent st h,
    (newRevision2 n hn).notOld st h⟩)

/-! ### Without links -/

namespace Demo

/-- The same configuration with `--rsync-dir-force-moves`. -/
def confM : Config := { conf with rsyncUseSymlinks := false }

def fsM : FS := after confM (envAt 0 notif1) fs0

theorem notifUriM : NotifUri confM base name := 
  ⟨notifUri.1, notifUri.2, notifUri.3, notifUri.4, notifUri.5, notifUri.6, notifUri.7⟩

theorem layoutM : Layout confM base name :=
  ⟨notifUriM, apart_of (by decide), apart_of (by decide), apart_of (by decide),
    apart_of (by decide), apart_of (by decide), apart_of (by decide), apart_of (by decide)⟩

theorem offersM {t : Time} {n n' : Notif} {fs : FS} {etag : Option Str}
    (h : Offers confM (envAt t n) fs etag n') : n' = n :=
  offers_only rfl (fun k r hr => by
    have : r.uri = uri "n" := by rw [hr]; rfl
    show (if _ then _ else _) = _
    rw [if_pos this]) h

theorem recordedM : Recorded confM fsM state1 :=
  ⟨Ext.encState state1, by decide +kernel, by decide +kernel⟩

theorem runCondsM : RunConds confM base name (envAt 1 notif2) fsM :=
  ⟨notifUriM, FS.wf_of_check (by decide +kernel), saneState_of (dep := []) recordedM
    ⟨by decide, by decide, by decide, by decide, by decide, by decide, by decide⟩,
    fun etag n' hn => by rw [offersM hn]; exact goodNotif_of_check (by decide), fun _ => cleanObjects _⟩

theorem cleanSourceM : CleanSource confM base (envAt 1 notif2) fsM := by
  refine ⟨no304 1 notif2, FS.noLinks_of_check (by decide +kernel), fun etag n hn => ?_⟩
  rw [offersM hn]
  intro r hr r' hr' rel rel' h h' he
  have h2 : notif2.refs = [(uri "s2", snap 2), (uri "d2", [2])] := by decide
  rw [h2] at hr hr'
  simp only [List.mem_cons, List.not_mem_nil, or_false] at hr hr'
  rcases hr with rfl | rfl <;> rcases hr' with rfl | rfl
  · rfl
  · rw [rel_eq h, rel_eq h'] at he; exact absurd he (by decide)
  · rw [rel_eq h, rel_eq h'] at he; exact absurd he (by decide)
  · rfl

theorem rsyncRecordedM : RsyncRecorded confM fsM rsync1 :=
  Or.inl ⟨Ext.encRsync rsync1, by decide +kernel, by decide +kernel⟩

theorem newRevisionM : ∀ n, Announces confM base name (envAt 1 notif2) fsM n → NewRevision confM fsM n.rev := by
  intro n hn
  rw [announced (c := confM) rfl rfl hn]
  refine ⟨by decide +kernel, FS.noFiles_of_check (by decide +kernel), fun st h => ?_, fun st h => ?_⟩
  · rw [h.unique rsyncRecordedM]; decide
  · rw [h.unique rsyncRecordedM]; intro d hd; cases hd

end Demo

example := C32_move_mode 5 confM (envAt 1 notif2) fsM base name layoutM runCondsM rfl rfl cleanSourceM
  (by decide +kernel) rsync1 notif1.rev rsyncRecordedM rfl ⟨["a.cer".toList], by decide, by decide +kernel⟩
  newRevisionM (notDue rfl)

example : fsM.file? (confM.rsyncCurrent ++ ["a.cer".toList]) = some [1] ∧
    (after confM (envAt 1 notif2) fsM).file? (confM.rsyncCurrent ++ ["a.cer".toList]) = some [2] ∧
    (after confM (envAt 1 notif2) fsM).file? (notif1.rev.path confM ++ ["a.cer".toList]) = some [1] := by
  decide +kernel

/-! ### A revision that is published again and again -/

namespace Demo

/-- A disk on which publication always fails at the notification file: there is a directory in its
place. -/
def fsD : FS := ⟨[(["r".toList], .dir), (["r".toList, "n".toList], .dir)]⟩

/-- After two runs that fail when the notification is written, at times 0 and 1. -/
def fsD2 : FS := after conf (envAt 1 notif1) (after conf (envAt 0 notif1) fsD)

end Demo

open Demo in
/-- **C28** is false of the code when publication keeps failing after the rsync part: only one revision
is ever announced, but the second failing run schedules it (it is recorded as current already), and a
third run, once `--cleanup-after` seconds have gone by, removes the directory `current` points to.
No operation fails but for the notification file that cannot be put in place. -/
theorem C28_refuted_for_repeated_publication :
    fsD2.link? conf.rsyncCurrent = some notif1.rev.dirName ∧
    fsD2.file? (notif1.rev.path conf ++ ["a.cer".toList]) = some [1] ∧
    (after conf (envAt 20 notif1) fsD2).link? conf.rsyncCurrent = some notif1.rev.dirName ∧
    (after conf (envAt 20 notif1) fsD2).get (notif1.rev.path conf) = none := by
  decide +kernel

end

end KSync
