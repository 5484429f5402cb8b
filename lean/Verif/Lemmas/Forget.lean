import Verif.Spec.Forget
import Verif.Lemmas.Fallback
import Verif.Lemmas.Restart
import Verif.Lemmas.Stuck

/-! # Installations that lose their state (C79) -/

set_option linter.unusedSectionVars false
set_option linter.unusedVariables false

namespace KSync

variable [Ext] {env : Env} {life : SourceLife} {T : SourceTree} {c : Config} {base name : Str}
  {p p' : Progress} {f f' : FS}

theorem Config.owns_rrdp {q : Path} (h : c.rrdpDir <+: q) : c.Owns q := ⟨_, by simp [Config.roots], h⟩
theorem Config.owns_rsync {q : Path} (h : c.rsyncDir <+: q) : c.Owns q := ⟨_, by simp [Config.roots], h⟩
theorem Config.owns_staging {q : Path} (h : c.stagingDir <+: q) : c.Owns q := ⟨_, by simp [Config.roots], h⟩
theorem Config.owns_state : c.Owns c.rrdpStatePath := ⟨_, by simp [Config.roots], List.prefix_refl _⟩
theorem Config.owns_rsyncState : c.Owns c.rsyncStatePath := ⟨_, by simp [Config.roots], List.prefix_refl _⟩

theorem BetweenRuns.owned (h : BetweenRuns c f f') {q : Path} (ho : c.Owns q) : f'.get q = f.get q ∨
    (f'.get q = none ∧ (q = c.rrdpStatePath ∨ q = c.rsyncStatePath ∨ c.stagingDir <+: q)) := by
  rcases h.changed q with h1 | h1 | ⟨h1, _⟩
  · exact Or.inl h1
  · exact Or.inr h1
  · exact absurd ho h1

theorem BetweenRuns.link (h : BetweenRuns c f f') {q : Path} (ho : c.Owns q) (hl : f.link? q = none) :
    f'.link? q = none := by
  unfold FS.link? at *
  rcases h.owned ho with h1 | ⟨h1, _⟩
  · rw [h1]; exact hl
  · rw [h1]

theorem BetweenRuns.rrdp (hl : Layout c base name) (h : BetweenRuns c f f') {q : Path} (hq : c.rrdpDir <+: q) :
    f'.get q = f.get q := by
  rcases h.owned (c.owns_rrdp hq) with h1 | ⟨_, rfl | rfl | h1⟩
  · exact h1
  · exact absurd hq hl.rrdpState.1
  · exact (hl.rrdp_not_rsync hq (Or.inr rfl)).elim
  · exact absurd h1 (fun h1 => hl.rrdpStaging.not_both hq h1)

theorem BetweenRuns.rsync (hl : Layout c base name) (h : BetweenRuns c f f') {q : Path} (hq : c.rsyncDir <+: q) :
    f'.get q = f.get q := by
  rcases h.owned (c.owns_rsync hq) with h1 | ⟨_, rfl | rfl | h1⟩
  · exact h1
  · exact absurd hq hl.rsyncState.1
  · exact absurd hq hl.rsyncRsyncState.1
  · exact absurd h1 (fun h1 => hl.rsyncStaging.not_both hq h1)

theorem BetweenRuns.notif (hl : Layout c base name) (h : BetweenRuns c f f') :
    f'.leaf (c.notifPath name) = f.leaf (c.notifPath name) :=
  leaf_of_get (h.rrdp hl (List.prefix_append _ _))

theorem BetweenRuns.recorded (h : BetweenRuns c f f') (hl : f.link? c.rrdpStatePath = none) {s : RrdpState}
    (hs : Recorded c f' s) : Recorded c f s := by
  obtain ⟨b, h1, h2⟩ := hs
  rcases h.owned c.owns_state with h3 | ⟨h3, _⟩
  · exact ⟨b, by rw [← FS.read_of_leaf hl (leaf_of_get h3)]; exact h1, h2⟩
  · unfold FS.read FS.resolve at h1
    rw [h3] at h1
    cases h1

theorem BetweenRuns.rsyncRecorded (h : BetweenRuns c f f') {st : RsyncDirState}
    (hs : RsyncRecorded c f' st) : RsyncRecorded c f st ∨ st = ⟨none, []⟩ := by
  rcases hs with ⟨b, h1, h2⟩ | ⟨_, h1⟩
  · rcases h.owned c.owns_rsyncState with h3 | ⟨h3, _⟩
    · refine Or.inl (Or.inl ⟨b, ?_, h2⟩)
      unfold FS.file? at *
      rw [← h3]; exact h1
    · unfold FS.file? at h1
      rw [h3] at h1
      cases h1
  · exact Or.inr h1

theorem BetweenRuns.fileHas (hl : Layout c base name) (h : BetweenRuns c f f') {rel : Str} {hash : Hash}
    (hf : FileHas f (c.pubPath rel) hash) (hq : c.rrdpDir <+: c.pubPath rel) :
    FileHas f' (c.pubPath rel) hash := by
  obtain ⟨b, h1, h2⟩ := hf
  refine ⟨b, ?_, h2⟩
  unfold FS.file? at *
  rw [h.rrdp hl hq]; exact h1

theorem Kept.meanwhile (hl : Layout c base name) (hk : Kept life c base name p f) (h : BetweenRuns c f f') :
    Kept life c base name p f' := by
  have hrec : ∀ s, Recorded c f' s → Recorded c f s := fun s => h.recorded hk.noLink
  refine ⟨h.wf, fun q hq => h.link (c.owns_staging hq) (hk.links q hq), h.link c.owns_state hk.noLink, fun s hs => hk.state s (hrec s hs),
    fun s hs rel hash hh => h.fileHas hl (hk.files s (hrec s hs) rel hash hh)
      (List.prefix_append _ _), ?_⟩
  refine hk.notif.imp (fun h1 => (h.notif hl).trans h1) ?_
  rintro ⟨n, t, h1, h2, h3⟩
  refine ⟨n, t, (h.notif hl).trans h1, h2, fun r hr => ?_⟩
  obtain ⟨rel, g1, g2, g3, g4, g5⟩ := h3 r hr
  exact ⟨rel, g1, g2, g3, h.fileHas hl g4 (List.prefix_append _ _), fun s hs => g5 s (hrec s hs)⟩

theorem Invariant.meanwhile {ι : Type} {Q : ι → RrdpState → Prop} {N : ι → Notif → Prop} {i : ι}
    (hl : Layout c base name) (hk : Invariant c base name Q N i f) (h : BetweenRuns c f f') :
    Invariant c base name Q N i f' :=
  ⟨h.wf, h.link c.owns_state hk.noLink, fun s hs => hk.state s (h.recorded hk.noLink hs),
    by rw [h.notif hl]; exact hk.notif⟩

theorem Place.root_mem (i : Place) : i.root c ∈ c.roots := by
  cases i <;> simp [Place.root, Config.roots]

theorem Steady.meanwhile (hl : Layout c base name) (hk : Steady life T c base name p f) (h : BetweenRuns c f f') :
    Steady life T c base name p f' := by
  have hrec : ∀ s, Recorded c f' s → Recorded c f s := fun s => h.recorded hk.kept.noLink
  refine ⟨hk.kept.meanwhile hl h, ⟨fun q n hq => ?_, fun t ht => ?_⟩, fun s hs => hk.named s (hrec s hs),
    fun s x hs hx => ?_⟩
  · rcases h.changed q with h1 | ⟨h1, _⟩ | ⟨h1, h2⟩
    · exact hk.plan.fits q n (h1 ▸ hq)
    · rw [h1] at hq; cases hq
    · refine ⟨fun hf => ?_, fun hd => ?_, fun hk => ?_⟩
      · obtain ⟨i, r, _, rfl⟩ := hf
        exact absurd ⟨i.root c, i.root_mem, List.prefix_append _ _⟩ h1
      · have : ∃ r ∈ c.roots, q <+: r := by
          have key : ∀ (r p : Path), r ∈ c.roots → r <+: p → q <+: p → ∃ r ∈ c.roots, q <+: r := by
            intro r p hr hp hqp
            rcases prefix_total hqp hp with h3 | h3
            · exact ⟨r, hr, h3⟩
            · exact absurd ⟨r, hr, h3⟩ h1
          rcases hd with ⟨p, ⟨i, r, _, rfl⟩, h3, _⟩ | ⟨rev, h3⟩
          · exact key _ _ i.root_mem (List.prefix_append _ _) h3
          · exact key c.rsyncDir _ (by simp [Config.roots]) (List.prefix_append _ _) h3
        obtain ⟨r, hr, hqr⟩ := this
        rcases h2 r hr hqr with h3 | h3
        · rw [h3] at hq; cases hq
        · rw [h3] at hq; exact (Option.some.inj hq).symm
      · refine absurd (c.owns_rsync ?_) h1
        rcases hk with rfl | rfl <;> exact List.prefix_append _ _
  · have e1 : f'.get (planOf T c name).tmp = f.get (planOf T c name).tmp :=
      h.rsync hl (List.prefix_append _ _)
    rw [e1] at ht
    have := hk.plan.anchored t ht
    rw [← this]
    exact h.rsync hl (List.prefix_append _ _)
  · obtain ⟨n, t, h1, h2⟩ := hk.ahead s x (hrec s hs) hx
    exact ⟨n, t, (h.notif hl).trans h1, h2⟩

theorem RsyncKept.meanwhile (hl : Layout c base name) (hk : RsyncKept life c base name p f)
    (h : BetweenRuns c f f') : RsyncKept life c base name p f' := by
  have hcur : f'.get c.rsyncCurrent = f.get c.rsyncCurrent := h.rsync hl (List.prefix_append _ _)
  refine ⟨hk.kept.meanwhile hl h, h.link c.owns_rsyncState hk.noLink, fun st hs r hr => ?_, fun st hs d hd => ?_, ?_⟩
  · rcases h.rsyncRecorded hs with h1 | rfl
    · exact hk.current st h1 r hr
    · cases hr
  · rcases h.rsyncRecorded hs with h1 | rfl
    · exact hk.old st h1 d hd
    · cases hd
  · refine hk.serving.imp (fun h1 => (leaf_of_get hcur).trans h1) ?_
    rintro ⟨r, b, h1, h2, h3, h4⟩
    have hq : ∀ q, f'.get (r.path c ++ q) = f.get (r.path c ++ q) :=
      fun q => h.rsync hl ((List.prefix_append _ _).trans (List.prefix_append _ _))
    refine ⟨r, b, by rw [FS.link?_of_leaf (leaf_of_get hcur)]; exact h1, h2, fun e he => ?_, fun ha => ?_⟩
    · have := h3 e he
      unfold FS.file? at *
      rw [hq]; exact this
    · obtain ⟨⟨s, x, a1, a2⟩, a3⟩ := ha
      intro q e hqe
      obtain ⟨t, ht⟩ := h4 ⟨⟨s, x, h.recorded hk.kept.noLink a1, a2⟩,
        by rw [← FS.link?_of_leaf (leaf_of_get hcur)]; exact a3⟩ q e hqe
      exact ⟨t, (leaf_of_get (hq q)).trans ht⟩

theorem MoveServed.meanwhile {B : Notif → Prop} (hl : Layout c base name) (hk : MoveServed c B f)
    (h : BetweenRuns c f f') : MoveServed c B f' := by
  have hr : ∀ q, c.rsyncDir <+: q → f'.leaf q = f.leaf q := fun q hq => leaf_of_get (h.rsync hl hq)
  have hcur : ∀ q, f'.leaf (c.rsyncCurrent ++ q) = f.leaf (c.rsyncCurrent ++ q) :=
    fun q => hr _ ((List.prefix_append _ _).trans (List.prefix_append _ _))
  refine ⟨h.wf, h.link c.owns_rsyncState hk.state, fun r => (hr _ (List.prefix_append _ _)).trans (hk.revs r),
    (hr _ (List.prefix_append _ _)).trans hk.current, ?_⟩
  refine hk.served.imp (fun h1 q => (hcur q).trans (h1 q)) ?_
  rintro ⟨n, b, h1, h2, h3, h4⟩
  refine ⟨n, b, h1, h2, h3, fun q e hqe => ?_⟩
  obtain ⟨t, ht⟩ := h4 q e hqe
  exact ⟨t, (hcur q).trans ht⟩

theorem Booked.meanwhile {A : Path → Prop} (hl : Layout c base name) (hk : Booked c base name A f)
    (h : BetweenRuns c f f') : Booked c base name (fun _ => True) f' := by
  refine ⟨h.wf, fun q hq => h.link (c.owns_staging hq) (hk.staging q hq),
    fun q hq => h.link (c.owns_rrdp hq) (hk.rrdp q hq), h.link c.owns_state hk.noLink, ?_, fun s _ q _ _ => Or.inr (Or.inr (Or.inr trivial))⟩
  exact fun s hs => hk.state s (h.recorded hk.noLink hs)

theorem LinkAhead.meanwhile {age : Uuid → Nat} {i : Version × (Notif → Prop)} (hl : Layout c base name)
    (hk : LinkAhead age c base name i f) (h : BetweenRuns c f f') : LinkAhead age c base name i f' := by
  refine ⟨hk.inv.meanwhile hl h, fun n t hn => ?_⟩
  rw [h.notif hl] at hn
  have hcur : f'.get c.rsyncCurrent = f.get c.rsyncCurrent := h.rsync hl (List.prefix_append _ _)
  rw [FS.link?_of_leaf (leaf_of_get hcur)]
  exact hk.ahead n t hn

theorem MoveAhead.meanwhile {age : Uuid → Nat} {i : Version × (Notif → Prop)} (hl : Layout c base name)
    (hk : MoveAhead age c base name i f) (h : BetweenRuns c f f') : MoveAhead age c base name i f' := by
  refine ⟨hk.inv.meanwhile hl h, ?_⟩
  rw [h.notif hl]
  exact hk.ahead.meanwhile hl h

/-! ## Histories with removals -/

theorem Managed.kept {f : FS} (hl : Layout c base name)
    (ho : c.rsyncEnabled = true → CleanObjects c.rsyncIncludeHost)
    (h : Managed c (fun _ => Pristine c name) (GoodRun life c base name) p f) :
    Kept life c base name p f := by
  induction h with
  | start h => exact Kept.start h
  | run _ h1 h2 ih => exact run_kept hl ho ih h1 _ h2
  | meanwhile _ h1 ih => exact ih.meanwhile hl h1

theorem Managed.steady {f : FS} (hT : T.Tidy name) (hl : Layout c base name)
    (ho : c.rsyncEnabled = true → CleanObjects c.rsyncIncludeHost)
    (hsym : c.rsyncEnabled = true → c.rsyncUseSymlinks = true)
    (h : Managed c (fun _ => Untouched c) (TidyRun life T c base name) p f) :
    Steady life T c base name p f := by
  induction h with
  | start h => exact Steady.start hl h
  | run _ h1 h2 ih => exact run_steady hT hl ho hsym ih h1 _ h2
  | meanwhile _ h1 ih => exact ih.meanwhile hl h1

theorem Managed.rsyncKept {f : FS} (hl : Layout c base name)
    (ho : CleanObjects c.rsyncIncludeHost) (he : c.rsyncEnabled = true) (hm : c.rsyncUseSymlinks = true)
    (h : Managed c (fun _ => Untouched c) (TimelyRun life c base name) p f) :
    RsyncKept life c base name p f := by
  induction h with
  | start h => exact RsyncKept.start h
  | run _ h1 h2 ih => exact RsyncKept.run hl ho he hm ih h1 h2
  | meanwhile _ h1 ih => exact ih.meanwhile hl h1

section
variable {age : Uuid → Nat} {i j : Version × (Notif → Prop)}

theorem Managed.booked {f : FS} (hl : Layout c base name)
    (ho : c.rsyncEnabled = true → CleanObjects c.rsyncIncludeHost)
    (h : Managed c (fun _ f => Unused c name f ∧ RsyncUnused c f) (AnnouncedRun age c base name) i f) :
    ∃ A, Booked c base name A f := by
  induction h with
  | start h => exact ⟨_, Booked.start h.1⟩
  | run _ h1 h2 ih => obtain ⟨A, hA⟩ := ih; exact ⟨_, hA.run hl ho h1.sound h2⟩
  | meanwhile _ h1 ih => obtain ⟨A, hA⟩ := ih; exact ⟨_, hA.meanwhile hl h1⟩

theorem Managed.linkAhead {f : FS} (hl : Layout c base name)
    (ho : CleanObjects c.rsyncIncludeHost) (he : c.rsyncEnabled = true) (hm : c.rsyncUseSymlinks = true)
    (h : Managed c (fun _ f => Unused c name f ∧ RsyncUnused c f) (AnnouncedRun age c base name) i f) :
    LinkAhead age c base name i f := by
  induction h with
  | start h => exact LinkAhead.start h.1.pristine hl ho
  | run _ h1 h2 ih => exact ih.run hl ho he hm h1.forward h1.known h2
  | meanwhile _ h1 ih => exact ih.meanwhile hl h1

theorem Managed.moveAhead {f : FS} (hl : Layout c base name)
    (ho : CleanObjects c.rsyncIncludeHost) (he : c.rsyncEnabled = true) (hm : c.rsyncUseSymlinks = false)
    (h : Managed c (fun _ f => Unused c name f ∧ RsyncUnused c f) (AnnouncedRun age c base name) i f) :
    MoveAhead age c base name i f := by
  induction h with
  | start h => exact ⟨pristine_inv h.1.pristine hl ho, .start h.1.pristine.wf h.2⟩
  | run h0 h1 h2 ih =>
    obtain ⟨A, hA⟩ := Managed.booked hl (fun _ => ho) h0
    exact ih.run hl ho he hm (hA.clean h1.sound) h1.forward h1.known h2
  | meanwhile _ h1 ih => exact ih.meanwhile hl h1

theorem Managed.forward {i : Version} {f : FS} (hl : Layout c base name)
    (ho : c.rsyncEnabled = true → CleanObjects c.rsyncIncludeHost)
    (h : Managed c (fun _ => Pristine c name) (ForwardRun age c base name) i f) :
    Invariant c base name (fun _ _ => True) (fun p n => (n.version age).le p) i f := by
  induction h with
  | start h => exact History.invariant hl ho (forward_invariant (age := age) hl) (History.start h)
  | run _ h1 h2 ih => exact Invariant.run hl ho (forward_invariant hl) ih h1 h2
  | meanwhile _ h1 ih => exact ih.meanwhile hl h1

theorem Managed.sane {f : FS} {i : Unit} (hl : Layout c base name)
    (ho : c.rsyncEnabled = true → CleanObjects c.rsyncIncludeHost)
    (h : Managed (ι := Unit) c (fun _ => Pristine c name)
      (fun _ _ _ env fs => GoodSource c base name env fs) i f) :
    Invariant (ι := Unit) c base name (fun _ _ => True) (fun _ _ => True) i f := by
  have hi : Inductive (ι := Unit) c base name (fun _ _ _ env fs => GoodSource c base name env fs)
      (fun _ _ => True) (fun _ _ => True) :=
    ⟨fun _ _ _ _ _ h => h, fun _ => trivial, fun _ _ _ => trivial, fun _ _ _ _ _ _ _ _ => trivial,
      fun _ _ _ _ _ _ _ _ => trivial, fun _ _ _ _ _ _ _ _ _ _ _ _ _ _ _ _ _ _ _ => trivial,
      fun _ _ _ _ _ _ _ _ _ _ _ _ _ _ _ _ _ _ _ _ _ => trivial⟩
  induction h with
  | start h => exact History.invariant hl ho hi (History.start h)
  | run _ h1 h2 ih => exact Invariant.run hl ho hi ih h1 h2
  | meanwhile _ h1 ih => exact ih.meanwhile hl h1

theorem Managed.append {ι : Type} {start : ι → FS → Prop} {ok : ι → ι → Nat → Env → FS → Prop}
    {i j : ι} {f g : FS} (h : Managed c start ok i f)
    (h' : Managed c (fun k g => k = i ∧ g = f) ok j g) : Managed c start ok j g := by
  induction h' with
  | start hs => obtain ⟨rfl, rfl⟩ := hs; exact h
  | run _ h1 h2 ih => exact ih.run h1 h2
  | meanwhile _ h1 ih => exact ih.meanwhile h1

theorem Managed.map {ι κ : Type} {start : ι → FS → Prop} {start' : κ → FS → Prop}
    {ok : ι → ι → Nat → Env → FS → Prop} {ok' : κ → κ → Nat → Env → FS → Prop} (v : ι → κ)
    (hs : ∀ i f, start i f → start' (v i) f)
    (ho : ∀ i j d e f, ok i j d e f → ok' (v i) (v j) d e f) {i : ι} {f : FS}
    (h : Managed c start ok i f) : Managed c start' ok' (v i) f := by
  induction h with
  | start h => exact .start (hs _ _ h)
  | run _ h1 h2 ih => exact ih.run (ho _ _ _ _ _ h1) h2
  | meanwhile _ h1 ih => exact ih.meanwhile h1

theorem run_not_back {i j : Version} {depth : Nat} {g g' : FS} {n1 : Notif} {t1 : Time}
    (hl : Layout c base name) (ho : c.rsyncEnabled = true → CleanObjects c.rsyncIncludeHost)
    (b1 : Invariant c base name (fun _ _ => True) (fun p n => (n.version age).le p) i g)
    (hok : ForwardRun age c base name i j depth env g)
    (hcp : g' ∈ (process depth c env (World.start g)).2.crashPoints)
    (b2 : g.leaf (c.notifPath name) = some (.file (Ext.writeNotif n1) t1)) :
    ∃ n' t', g'.leaf (c.notifPath name) = some (.file (Ext.writeNotif n') t') ∧
      (n1.version age).le (n'.version age) := by
  have hc := b1.conds hl ho hok.source
  rcases (run_records hl hc g' hcp).2 with ⟨_, d1⟩ | ⟨s, st, w, m, t2, d1, d2, _⟩
  · exact ⟨n1, t1, d1.trans b2, Version.le_refl _⟩
  · refine ⟨_, t2, d2, ?_⟩
    have hle : (n1.version age).le i := by
      rcases b1.notif with e | ⟨n2, t3, e1, e2⟩
      · rw [b2] at e; cases e
      · rw [b2] at e1
        injection e1 with e1
        injection e1 with e1 _
        obtain rfl := writeNotif_inj e1
        exact e2
    obtain ⟨etag, n3, a1, a2⟩ := sameVersion_newNotif hl.uri d1
    have := Version.le_trans hle (hok.notBefore _ _ a1)
    unfold Notif.version at *
    rw [a2.session, a2.serial]
    exact this

theorem Managed.not_back {i j : Version} {f g : FS} {n : Notif} {t : Time} (hl : Layout c base name)
    (ho : c.rsyncEnabled = true → CleanObjects c.rsyncIncludeHost)
    (h : Managed c (fun _ => Pristine c name) (ForwardRun age c base name) i f)
    (h' : Managed c (fun k g => k = i ∧ g = f) (ForwardRun age c base name) j g)
    (hn : f.leaf (c.notifPath name) = some (.file (Ext.writeNotif n) t)) :
    ∃ n' t', g.leaf (c.notifPath name) = some (.file (Ext.writeNotif n') t') ∧
      (n.version age).le (n'.version age) := by
  induction h' with
  | start hs => obtain ⟨rfl, rfl⟩ := hs; exact ⟨n, t, hn, Version.le_refl _⟩
  | run h0 h1 h2 ih =>
    obtain ⟨n1, t1, b2, b3⟩ := ih
    obtain ⟨n2, t2, b4, b5⟩ := run_not_back hl ho ((h.append h0).forward hl ho) h1 h2 b2
    exact ⟨n2, t2, b4, Version.le_trans b3 b5⟩
  | meanwhile _ h1 ih =>
    obtain ⟨n1, t1, b2, b3⟩ := ih
    exact ⟨n1, t1, (h1.notif hl).trans b2, b3⟩

end

end KSync
