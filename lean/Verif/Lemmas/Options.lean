import Verif.Spec.Options
import Verif.Lemmas.Forget

/-! # Changing the options from run to run (C80) -/

set_option linter.unusedSectionVars false
set_option linter.unusedVariables false

namespace KSync

variable [Ext] {env : Env} {w w' : World} {life : SourceLife} {c c' : Config} {base name : Str}
  {p p' : Progress} {f f' : FS}

/-! ## A directory where the link should go -/

theorem isDir_of_below {p : Path} {fs : FS} (hw : fs.WF) (h : ∃ q, q ≠ [] ∧ fs.leaf (p ++ q) ≠ none) :
    fs.get p = some .dir := by
  obtain ⟨q, hq, hlq⟩ := h
  refine hw.above (List.prefix_append _ q) (fun h => hq (by simpa using h.symm)) (fun h => ?_)
  unfold FS.leaf at hlq
  rw [h] at hlq
  exact hlq rfl

theorem symlinkCurrent_blocked {rev : RsyncRevision} (hw : w.cur.WF)
    (h : ∃ q, q ≠ [] ∧ w.cur.leaf (c.rsyncCurrent ++ q) ≠ none) :
    (symlinkCurrent rev c env w).1 ≠ .ok () ∧
      Within (Eff.only (c.rsyncTmp <+: ·)) w (symlinkCurrent rev c env w).2 := by
  have key : ∀ q, q ≠ [] → ¬ c.rsyncTmp <+: c.rsyncCurrent ++ q := by
    intro q _ hp
    unfold Config.rsyncTmp Config.rsyncCurrent at hp
    rw [List.append_assoc, List.prefix_append_right_inj, List.singleton_append, List.cons_prefix_cons] at hp
    exact absurd hp.1 (by decide)
  have full : ∀ {u : World}, Within (Eff.only (c.rsyncTmp <+: ·)) w u →
      ∃ e, rename c.rsyncTmp c.rsyncCurrent env u = (.error e, { u with tick := u.tick + 1 }) := by
    intro u hu
    obtain ⟨q, hq, hlq⟩ := h
    exact rename_full (hu.wf hw) ⟨q, hq, by rw [hu.frame hw _ (key q hq)]; exact hlq⟩
  have eq : symlinkCurrent rev c env w = (getFs >>= fun fs => (if fs.exists? c.rsyncTmp = true then
      removeFile c.rsyncTmp else pure ()) >>= fun _ => symlink rev.dirName c.rsyncTmp >>= fun _ =>
      rename c.rsyncTmp c.rsyncCurrent) env w := by
    unfold symlinkCurrent
    dsimp only
    rw [cur_tmp_path]
    rfl
  have h1 : Within (Eff.only (c.rsyncTmp <+: ·)) w ((if w.cur.exists? c.rsyncTmp = true then
      removeFile c.rsyncTmp else pure ()) env w).2 := by
    split
    · exact removeFile_in (List.prefix_refl _) env w
    · exact Tr.refl (T := Within (Eff.only (c.rsyncTmp <+: ·))) _
  rw [eq, getFs_bind]
  constructor
  · intro hok
    obtain ⟨⟨⟩, w1, e1, hok⟩ := M.bind_ok.1 (Prod.ext hok rfl)
    obtain ⟨⟨⟩, w2, e2, hok⟩ := M.bind_ok.1 hok
    rw [e1] at h1
    have h2 := symlink_in (E := Eff.only (c.rsyncTmp <+: ·)) (List.prefix_refl c.rsyncTmp) rev.dirName env w1
    rw [e2] at h2
    obtain ⟨e, he⟩ := full (Tr.trans h1 h2)
    rw [he] at hok
    cases hok
  · refine Tr.bindAt (T := Within (Eff.only (c.rsyncTmp <+: ·))) h1 (fun _ w1 e1 =>
      Tr.bindAt (T := Within (Eff.only (c.rsyncTmp <+: ·))) ?_ (fun _ w2 e2 => ?_))
    · exact symlink_in (E := Eff.only (c.rsyncTmp <+: ·)) (List.prefix_refl c.rsyncTmp) _ env w1
    · rw [e1] at h1
      have h2 := symlink_in (E := Eff.only (c.rsyncTmp <+: ·)) (List.prefix_refl c.rsyncTmp) rev.dirName env w1
      rw [e2] at h2
      obtain ⟨e, he⟩ := full (Tr.trans h1 h2)
      rw [he]
      exact ⟨Same.steps ⟨rfl, rfl⟩,
        ⟨.refl _, .refl _, .refl _, Nat.le_succ _, .refl _⟩, Same.steps ⟨rfl, rfl⟩⟩

theorem updateRsync_blocked {s : RrdpState} {x : SnapshotState}
    (hm : c.rsyncUseSymlinks = true) (ho : CleanObjects c.rsyncIncludeHost) (hw : w.cur.WF)
    (hs : s.snapshot = some x) (h : ∃ q, q ≠ [] ∧ w.cur.leaf (c.rsyncCurrent ++ q) ≠ none) :
    (updateRsync s c env w).1 ≠ .ok () ∧
      Within (Eff.only (fun q => x.rev.path c <+: q ∨ c.rsyncTmp <+: q)) w (updateRsync s c env w).2 := by
  have key : ∀ st w1 w2, RsyncDirState.recover c env w = (.ok st, w1) →
      makeRevision x.rev c (s.mappings.path x.relPath) env w1 = (.ok (), w2) →
      (switchTo x.rev st c env w2).1 ≠ .ok () ∧
      Within (Eff.only (c.rsyncTmp <+: ·)) w2 (switchTo x.rev st c env w2).2 := by
    intro st w1 w2 e1 e2
    have k := makeRevision_in (rev := x.rev) (c := c) (src := s.mappings.path x.relPath) ho env w1
    rw [e2] at k
    have k0 := rsyncRecover_in (E := Eff.none) c env w
    rw [e1] at k0
    have hw1 : w1.cur.WF := k0.wf hw
    unfold switchTo
    rw [if_pos hm]
    refine symlinkCurrent_blocked (k.wf hw1) ?_
    obtain ⟨q, hq, hlq⟩ := h
    refine ⟨q, hq, ?_⟩
    rw [k.frame hw1 _ (fun h => rev_not_current h (List.prefix_append _ _)), k0.frame hw _ (fun h => h)]
    exact hlq
  constructor
  · intro hok
    obtain ⟨w1, w2, w3, w4, w5, st0, st1, st2, hd⟩ := updateRsync_ok (w' := (updateRsync s c env w).2) hs
      (by rw [← hok])
    exact (key _ _ _ hd.recovered hd.made).1 (by rw [hd.switched])
  · refine updateRsync_tr (T := Within (Eff.only (fun q => x.rev.path c <+: q ∨ c.rsyncTmp <+: q))) hs
      (rsyncRecover_in c env w) ?_ ?_ ?_ ?_ ?_
    · exact fun st' w1 _ => Within.mono (Eff.only_le (fun _ h => Or.inl h)) (makeRevision_in ho env w1)
    · intro st' w1 w2 e1 e2
      exact Within.mono (Eff.only_le (fun _ h => Or.inr h)) (key _ _ _ e1 e2).2
    · intro st' w1 w2 w3 e1 e2 e3
      exact ((key _ _ _ e1 e2).1 (by rw [e3])).elim
    · intro st' w1 w2 w3 _ _ e1 e2 e3
      exact ((key _ _ _ e1 e2).1 (by rw [e3])).elim
    · intro st' w1 w2 w3 _ _ _ _ e1 e2 e3
      exact ((key _ _ _ e1 e2).1 (by rw [e3])).elim

/-- The places that do not change. -/
def BlockedPath (c : Config) (name : Str) (q : Path) : Prop :=
  q = c.notifPath name ∨ q = c.rrdpStatePath ∨ q = c.rsyncStatePath ∨ c.rsyncCurrent <+: q

theorem BlockedPath.stuck {q : Path} (h : BlockedPath c name q) : StuckPath c name ⟨none, []⟩ q := by
  rcases h with h | h | h | h
  · exact Or.inl h
  · exact Or.inr (Or.inl h)
  · exact Or.inr (Or.inr (Or.inl h))
  · exact Or.inr (Or.inr (Or.inr (Or.inl h)))

theorem blockedPath_not_tmp (hl : Layout c base name) {q : Path} (h : BlockedPath c name q) :
    ¬ c.rsyncTmp <+: q := by
  intro hr
  have hq : c.rsyncDir <+: q := (List.prefix_append _ _).trans hr
  rcases h with rfl | rfl | rfl | h
  · exact hl.rrdpRsync.not_both (List.prefix_append _ _) hq
  · exact hl.rsyncState.1 hq
  · exact hl.rsyncRsyncState.1 hq
  · have := List.prefix_of_prefix_length_le hr h (by unfold Config.rsyncTmp Config.rsyncCurrent; simp)
    exact tmp_ne_current c (List.IsPrefix.eq_of_length this (by unfold Config.rsyncTmp Config.rsyncCurrent; simp))

theorem run_blocked_links {depth : Nat} {f0 f1 : FS} (hl : Layout c base name)
    (ho : CleanObjects c.rsyncIncludeHost) (he : c.rsyncEnabled = true) (hm : c.rsyncUseSymlinks = true)
    (hs : ∃ q, q ≠ [] ∧ f0.leaf (c.rsyncCurrent ++ q) ≠ none) (h0 : Frozen (BlockedPath c name) f0 f1)
    (hsane : SaneState c base name f1) (hr : GoodSource c base name env f1) :
    Keeps (Frozen (BlockedPath c name) f0) (World.start f1) (process depth c env (World.start f1)).2 ∧
    ((process depth c env (World.start f1)).1 = .ok () →
      (process depth c env (World.start f1)).2.crashPoints = [f1]) := by
  have hc : RunConds c base name env f1 := ⟨hl.uri, h0.1, hsane, hr, fun _ => ho⟩
  refine run_blocked hl hc h0 (fun q hq => stuckPath_not_staging hl hq.stuck)
    (fun q hq => stuckPath_not_data hl hq.stuck) ?_
  intro s st' w n h w1 s1 w2 s2 w3 e1 e2 e3
  have hrd := rsyncReady hl hc h e1 e2 e3
  unfold rsyncPart
  rw [if_pos he]
  have := updateRsync_blocked (env := env) (w := w3) hm ho hrd.wf hrd.snapshot (by
    obtain ⟨q, hq, hlq⟩ := hs
    have hb : BlockedPath c name (c.rsyncCurrent ++ q) := Or.inr (Or.inr (Or.inr (List.prefix_append _ _)))
    refine ⟨q, hq, ?_⟩
    rw [hrd.leaf _ (stuckPath_not_staging hl hb.stuck) (fun h => hl.rrdpRsync.not_both h
      ((List.prefix_append _ _).trans (List.prefix_append _ _))), h0.2 _ hb]
    exact hlq)
  refine ⟨this.1, _, fun q hq h => ?_, this.2⟩
  rcases h with h | h
  · exact stuckPath_not_rev (st := ⟨none, []⟩) hl (by intro h; cases h) hq.stuck h
  · exact blockedPath_not_tmp hl hq h

theorem history_blocked_links {f0 f : FS} (hl : Layout c base name)
    (ho : CleanObjects c.rsyncIncludeHost) (he : c.rsyncEnabled = true) (hm : c.rsyncUseSymlinks = true)
    (hw : f0.WF) (hn : f0.link? c.rrdpStatePath = none) (hsane : SaneState c base name f0)
    (hs : ∃ q, q ≠ [] ∧ f0.leaf (c.rsyncCurrent ++ q) ≠ none) {i : Unit}
    (h : History (ι := Unit) c (fun _ g => g = f0)
      (fun _ _ _ env fs => GoodSource c base name env fs) i f) :
    Frozen (BlockedPath c name) f0 f ∧ SaneState c base name f := by
  have sane : ∀ {g}, Frozen (BlockedPath c name) f0 g → SaneState c base name g := fun hg s hr =>
    hsane s ((Recorded.of_leaf hn (hg.2 _ (Or.inr (Or.inl rfl)))).1 hr)
  induction h with
  | start h => subst h; exact ⟨⟨hw, fun _ _ => rfl⟩, hsane⟩
  | run _ hok hf ih =>
    have := (run_blocked_links hl ho he hm hs ih.1 ih.2 hok).1.start ih.1 _ hf
    exact ⟨this, sane this⟩

/-! ## The same installation -/

theorem SameInstallation.symm (h : SameInstallation c c') : SameInstallation c' c :=
  ⟨h.uri.symm, h.stateDir.symm, h.rrdpDir.symm, h.rsyncDir.symm⟩

theorem SameInstallation.layout (h : SameInstallation c c') (hl : Layout c base name) : Layout c' base name := by
  obtain ⟨h1, h2, h3, h4⟩ := h
  cases c; cases c'
  dsimp only at h1 h2 h3 h4
  subst h1 h2 h3 h4
  obtain ⟨⟨u1, u2, u3, u4, u5, u6, u7⟩, l1, l2, l3, l4, l5, l6, l7⟩ := hl
  exact ⟨⟨u1, u2, u3, u4, u5, u6, u7⟩, l1, l2, l3, l4, l5, l6, l7⟩

theorem SameInstallation.sane (h : SameInstallation c c') {s : RrdpState} (hs : Sane c base name s) :
    Sane c' base name s := by
  obtain ⟨h1, h2, h3, h4⟩ := h
  cases c; cases c'
  dsimp only at h1 h2 h3 h4
  subst h1 h2 h3 h4
  obtain ⟨s1, s2, s3, s4, s5, s6⟩ := hs
  exact ⟨s1, s2, s3, s4, s5, s6⟩

theorem SameInstallation.kept (h : SameInstallation c c') (hk : Kept life c base name p f) :
    Kept life c' base name p f := by
  have hs : ∀ {s}, Sane c base name s → Sane c' base name s := h.sane
  obtain ⟨h1, h2, h3, h4⟩ := h
  cases c; cases c'
  dsimp only at h1 h2 h3 h4
  subst h1 h2 h3 h4
  refine ⟨hk.wf, hk.links, hk.noLink, fun s hr => ?_, hk.files, hk.notif.imp id ?_⟩
  · obtain ⟨a1, a2, a3, a4, a5, a6, a7⟩ := hk.state s hr
    exact ⟨hs a1, a2, a3, a4, a5, a6, a7⟩
  · rintro ⟨n, t, g1, g2, g3⟩
    exact ⟨n, t, g1, g2, g3⟩

theorem SameInstallation.invariant {ι : Type} {Q : ι → RrdpState → Prop} {N : ι → Notif → Prop} {i : ι}
    (h : SameInstallation c c') (hk : Invariant c base name Q N i f) : Invariant c' base name Q N i f := by
  have hs : ∀ {s}, Sane c base name s → Sane c' base name s := h.sane
  obtain ⟨h1, h2, h3, h4⟩ := h
  cases c; cases c'
  dsimp only at h1 h2 h3 h4
  subst h1 h2 h3 h4
  exact ⟨hk.wf, hk.noLink, fun s hr => ⟨hs (hk.state s hr).1, (hk.state s hr).2⟩, hk.notif⟩

theorem SameInstallation.rsyncKept (h : SameInstallation c c')
    (hh : c'.rsyncIncludeHost = c.rsyncIncludeHost) (hk : RsyncKept life c base name p f) :
    RsyncKept life c' base name p f := by
  have hk' := h.kept hk.kept
  obtain ⟨h1, h2, h3, h4⟩ := h
  cases c; cases c'
  dsimp only at h1 h2 h3 h4 hh
  subst h1 h2 h3 h4 hh
  exact ⟨hk', hk.noLink, hk.current, hk.old, hk.serving⟩

theorem SameInstallation.linkAhead {age : Uuid → Nat} {i : Version × (Notif → Prop)}
    (h : SameInstallation c c') (hk : LinkAhead age c base name i f) : LinkAhead age c' base name i f := by
  have hk' := h.invariant hk.inv
  obtain ⟨h1, h2, h3, h4⟩ := h
  cases c; cases c'
  dsimp only at h1 h2 h3 h4
  subst h1 h2 h3 h4
  exact ⟨hk', hk.ahead⟩

theorem SameInstallation.notifPath (h : SameInstallation c c') : c'.notifPath name = c.notifPath name := by
  unfold Config.notifPath
  rw [h.rrdpDir]

/-! ## Histories -/

theorem Reconfigured.append {ι : Type} {start : ι → FS → Prop} {ok : Config → ι → ι → Nat → Env → FS → Prop}
    {i j : ι} {f g : FS} (h : Reconfigured c start ok i f)
    (h' : Reconfigured c (fun k g => k = i ∧ g = f) ok j g) : Reconfigured c start ok j g := by
  induction h' with
  | start hs => obtain ⟨rfl, rfl⟩ := hs; exact h
  | run _ h0 h1 h2 ih => exact ih.run h0 h1 h2
  | meanwhile _ h1 ih => exact ih.meanwhile h1

theorem Reconfigured.map {ι κ : Type} {start : ι → FS → Prop} {start' : κ → FS → Prop}
    {ok : Config → ι → ι → Nat → Env → FS → Prop} {ok' : Config → κ → κ → Nat → Env → FS → Prop} (v : ι → κ)
    (hs : ∀ i f, start i f → start' (v i) f)
    (ho : ∀ c i j d e f, ok c i j d e f → ok' c (v i) (v j) d e f) {i : ι} {f : FS}
    (h : Reconfigured c start ok i f) : Reconfigured c start' ok' (v i) f := by
  induction h with
  | start h => exact .start (hs _ _ h)
  | run _ h0 h1 h2 ih => exact ih.run h0 (ho _ _ _ _ _ _ h1) h2
  | meanwhile _ h1 ih => exact ih.meanwhile h1

theorem Reconfigured.kept (hl : Layout c base name) (ho : ∀ host, CleanObjects host)
    (h : Reconfigured c (fun _ => Pristine c name)
      (fun c' => GoodRun life c' base name) p f) :
    Kept life c base name p f := by
  induction h with
  | start h => exact Kept.start h
  | run _ hs h1 h2 ih =>
    exact hs.symm.kept (run_kept (hs.layout hl) (fun _ => ho _) (hs.kept ih) h1 _ h2)
  | meanwhile _ h1 ih => exact ih.meanwhile hl h1

theorem Reconfigured.rsyncKept (hl : Layout c base name) (ho : CleanObjects c.rsyncIncludeHost)
    (h : Reconfigured c (fun _ => Untouched c)
      (fun c' p p' depth env f => SameRsync c c' ∧ TimelyRun life c' base name p p' depth env f) p f) :
    RsyncKept life c base name p f := by
  induction h with
  | start h => exact RsyncKept.start h
  | run _ hs h1 h2 ih =>
    refine hs.symm.rsyncKept h1.1.host.symm (RsyncKept.run (hs.layout hl) (by rw [h1.1.host]; exact ho)
      h1.1.enabled h1.1.links (hs.rsyncKept h1.1.host ih) h1.2 h2)
  | meanwhile _ h1 ih => exact ih.meanwhile hl h1

section
variable {age : Uuid → Nat}

theorem Reconfigured.linkAhead {i : Version × (Notif → Prop)} (hl : Layout c base name)
    (ho : CleanObjects c.rsyncIncludeHost)
    (h : Reconfigured c (fun _ f => Unused c name f ∧ RsyncUnused c f)
      (fun c' i j depth env f => SameRsync c c' ∧ AnnouncedRun age c' base name i j depth env f) i f) :
    LinkAhead age c base name i f := by
  induction h with
  | start h => exact LinkAhead.start h.1.pristine hl ho
  | run _ hs h1 h2 ih =>
    exact hs.symm.linkAhead ((hs.linkAhead ih).run (hs.layout hl) (by rw [h1.1.host]; exact ho)
      h1.1.enabled h1.1.links h1.2.forward h1.2.known h2)
  | meanwhile _ h1 ih => exact ih.meanwhile hl h1

theorem Reconfigured.forward {i : Version} (hl : Layout c base name) (ho : ∀ host, CleanObjects host)
    (h : Reconfigured c (fun _ => Pristine c name) (fun c' => ForwardRun age c' base name) i f) :
    Invariant c base name (fun _ _ => True) (fun p n => (n.version age).le p) i f := by
  induction h with
  | start h => exact History.invariant hl (fun _ => ho _) (forward_invariant (age := age) hl) (History.start h)
  | run _ hs h1 h2 ih =>
    exact hs.symm.invariant (Invariant.run (hs.layout hl) (fun _ => ho _) (forward_invariant (hs.layout hl))
      (hs.invariant ih) h1 h2)
  | meanwhile _ h1 ih => exact ih.meanwhile hl h1

theorem Reconfigured.not_back {i j : Version} {f g : FS} {n : Notif} {t : Time} (hl : Layout c base name)
    (ho : ∀ host, CleanObjects host)
    (h : Reconfigured c (fun _ => Pristine c name) (fun c' => ForwardRun age c' base name) i f)
    (h' : Reconfigured c (fun k g => k = i ∧ g = f) (fun c' => ForwardRun age c' base name) j g)
    (hn : f.leaf (c.notifPath name) = some (.file (Ext.writeNotif n) t)) :
    ∃ n' t', g.leaf (c.notifPath name) = some (.file (Ext.writeNotif n') t') ∧
      (n.version age).le (n'.version age) := by
  induction h' with
  | start hs => obtain ⟨rfl, rfl⟩ := hs; exact ⟨n, t, hn, Version.le_refl _⟩
  | run h0 hs h1 h2 ih =>
    obtain ⟨n1, t1, b2, b3⟩ := ih
    obtain ⟨n2, t2, b4, b5⟩ := run_not_back (hs.layout hl) (fun _ => ho _)
      (hs.invariant ((h.append h0).forward hl ho)) h1 h2 (by rw [hs.notifPath]; exact b2)
    exact ⟨n2, t2, by rw [← hs.notifPath]; exact b4, Version.le_trans b3 b5⟩
  | meanwhile _ h1 ih =>
    obtain ⟨n1, t1, b2, b3⟩ := ih
    exact ⟨n1, t1, (h1.notif hl).trans b2, b3⟩

end

theorem Reconfigured.sane {i : Unit} (hl : Layout c base name) (ho : ∀ host, CleanObjects host)
    (h : Reconfigured (ι := Unit) c (fun _ => Pristine c name)
      (fun c' _ _ _ env fs => GoodSource c' base name env fs) i f) :
    Invariant (ι := Unit) c base name (fun _ _ => True) (fun _ _ => True) i f := by
  have hi : ∀ {c}, Inductive (ι := Unit) c base name (fun _ _ _ env fs => GoodSource c base name env fs)
      (fun _ _ => True) (fun _ _ => True) :=
    ⟨fun _ _ _ _ _ h => h, fun _ => trivial, fun _ _ _ => trivial, fun _ _ _ _ _ _ _ _ => trivial,
      fun _ _ _ _ _ _ _ _ => trivial, fun _ _ _ _ _ _ _ _ _ _ _ _ _ _ _ _ _ _ _ => trivial,
      fun _ _ _ _ _ _ _ _ _ _ _ _ _ _ _ _ _ _ _ _ _ => trivial⟩
  induction h with
  | start h => exact History.invariant hl (fun _ => ho _) hi (History.start h)
  | run _ hs h1 h2 ih =>
    exact hs.symm.invariant (Invariant.run (hs.layout hl) (fun _ => ho _) hi (hs.invariant ih) h1 h2)
  | meanwhile _ h1 ih => exact ih.meanwhile hl h1

end KSync
