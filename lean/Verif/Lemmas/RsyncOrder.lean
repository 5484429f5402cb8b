import Verif.Lemmas.Fallback

/-! # The rsync directory never goes back (C87) -/

set_option linter.unusedSectionVars false
set_option linter.unusedVariables false

namespace KSync

variable [Ext] {env : Env} {age : Uuid → Nat} {c : Config} {base name : Str}

/-- With links: in a run, `current` stays as it is or leads to a version that is announced. -/
theorem run_current {depth : Nat} {fs f : FS} (hl : Layout c base name) (ho : CleanObjects c.rsyncIncludeHost)
    (he : c.rsyncEnabled = true) (hm : c.rsyncUseSymlinks = true) (hc : RunConds c base name env fs)
    (hcp : f ∈ (process depth c env (World.start fs)).2.crashPoints) :
    f.leaf c.rsyncCurrent = fs.leaf c.rsyncCurrent ∨
      ∃ m, Announces c base name env fs m ∧ f.link? c.rsyncCurrent = some m.rev.dirName := by
  have hcur : RsyncArea c c.rsyncCurrent := Or.inl (List.prefix_append _ _)
  have step := run_rsync_before_notif (env := env) (depth := depth) (fs := fs)
    (P := fun f => f.leaf c.rsyncCurrent = fs.leaf c.rsyncCurrent ∨
      ∃ m, Announces c base name env fs m ∧ f.link? c.rsyncCurrent = some m.rev.dirName)
    (Q := fun m f => Announces c base name env fs m ∧ f.link? c.rsyncCurrent = some m.rev.dirName)
    hl hc he (fun f _ h => Or.inl (h _ hcur)) ?_ ?_ f hcp
  · rcases step with ⟨h1, _⟩ | ⟨s, st, m, _, h2, _⟩
    · exact h1
    · exact Or.inr ⟨m, h2⟩
  · rintro m f f' ⟨g1, g2⟩ hs hw
    exact ⟨g1, by rw [FS.link?_of_leaf (hs.1 _ hcur)]; exact g2⟩
  · intro s x w m hr ha hv _ hP
    obtain ⟨k1, k2⟩ := updateRsync_current (env := env) hm ho hl.rsyncRsyncState hr.snapshot hr.wf
    refine ⟨Keeps.via k1 ⟨hr.wf, Or.inl rfl⟩ ?_, fun hok => ⟨ha, by rw [← hv]; exact k2 hok⟩⟩
    rintro f ⟨_, h1 | h1⟩
    · rcases hP with hP | ⟨m', g1, g2⟩
      · exact Or.inl (h1.trans hP)
      · exact Or.inr ⟨m', g1, by rw [FS.link?_of_leaf h1]; exact g2⟩
    · exact Or.inr ⟨m, ha, by rw [← hv]; exact h1⟩

/-- `current`, if there is one, leads to a version that was announced and is not after the one the source has
got to. -/
structure LinkBelow (age : Uuid → Nat) (c : Config) (base name : Str) (i : Version × (Notif → Prop))
    (f : FS) : Prop where
  inv : Invariant c base name (fun _ _ => True)
    (fun (i : Version × (Notif → Prop)) n => (n.version age).le i.1) i f
  below : ∀ t, f.link? c.rsyncCurrent = some t → ∃ m, i.2 m ∧ t = m.rev.dirName ∧ (m.version age).le i.1

theorem LinkBelow.run {i j : Version × (Notif → Prop)} {depth : Nat} {fs f : FS}
    (hl : Layout c base name) (ho : CleanObjects c.rsyncIncludeHost) (he : c.rsyncEnabled = true)
    (hm : c.rsyncUseSymlinks = true) (h : LinkBelow age c base name i fs)
    (hf : AnnouncedRun age c base name i j depth env fs)
    (hcp : f ∈ (process depth c env (World.start fs)).2.crashPoints) :
    LinkBelow age c base name j f ∧ ∀ m, i.2 m → (m.version age).le i.1 →
      fs.link? c.rsyncCurrent = some m.rev.dirName →
      ∃ m', j.2 m' ∧ f.link? c.rsyncCurrent = some m'.rev.dirName ∧ (m.version age).le (m'.version age) ∧
        (m'.version age).le j.1 := by
  have hc := h.inv.conds hl (fun _ => ho) hf.forward.source
  have hr := run_current hl ho he hm hc hcp
  refine ⟨⟨Invariant.run (ok := fun (i j : Version × (Notif → Prop)) d e f =>
    ForwardRun age c base name i.1 j.1 d e f) hl (fun _ => ho)
    (forward_inductive hl (fun _ _ _ _ _ h => h)) h.inv hf.forward hcp, fun t hlink => ?_⟩,
    fun m hi hle hlink => ?_⟩
  · rcases hr with h1 | ⟨m, h1, h2⟩
    · rw [FS.link?_of_leaf h1] at hlink
      obtain ⟨m, a1, a2, a3⟩ := h.below t hlink
      exact ⟨m, hf.known m (Or.inl a1), a2, Version.le_trans a3 hf.forward.later⟩
    · exact ⟨m, hf.known m (Or.inr h1), Option.some.inj (hlink.symm.trans h2), (hf.forward.announced h1).2⟩
  · rcases hr with h1 | ⟨m', h1, h2⟩
    · exact ⟨m, hf.known m (Or.inl hi), by rw [FS.link?_of_leaf h1]; exact hlink, Version.le_refl _,
        Version.le_trans hle hf.forward.later⟩
    · exact ⟨m', hf.known m' (Or.inr h1), h2, Version.le_trans hle (hf.forward.announced h1).1,
        (hf.forward.announced h1).2⟩

theorem ForwardLifetime.linkBelow {i : Version × (Notif → Prop)} {f : FS}
    (h : ForwardLifetime age c base name i f) (hl : Layout c base name)
    (ho : CleanObjects c.rsyncIncludeHost) (he : c.rsyncEnabled = true) (hm : c.rsyncUseSymlinks = true) :
    LinkBelow age c base name i f := by
  induction h with
  | start h =>
    refine ⟨pristine_inv h.1.pristine hl ho, fun r hr => ?_⟩
    rw [FS.link?_eq, h.2 c.rsyncCurrent (Or.inl (List.prefix_append _ _))] at hr
    cases hr
  | run _ h1 h2 ih => exact (ih.run hl ho he hm h1 h2).1

theorem Later.link {i j : Version × (Notif → Prop)} {f g : FS} {m : Notif}
    (h : ForwardLifetime age c base name i f) (h' : Later age c base name i f j g) (hl : Layout c base name)
    (ho : CleanObjects c.rsyncIncludeHost) (he : c.rsyncEnabled = true) (hm : c.rsyncUseSymlinks = true)
    (hi : i.2 m) (hle : (m.version age).le i.1) (hr : f.link? c.rsyncCurrent = some m.rev.dirName) :
    ∃ m', j.2 m' ∧ g.link? c.rsyncCurrent = some m'.rev.dirName ∧ (m.version age).le (m'.version age) := by
  have key : LinkBelow age c base name j g ∧ ∃ m', j.2 m' ∧
      g.link? c.rsyncCurrent = some m'.rev.dirName ∧ (m.version age).le (m'.version age) ∧
      (m'.version age).le j.1 := by
    induction h' with
    | start hs =>
      obtain ⟨rfl, rfl⟩ := hs
      exact ⟨h.linkBelow hl ho he hm, m, hi, hr, Version.le_refl _, hle⟩
    | run _ h1 h2 ih =>
      obtain ⟨a, m', b0, b1, b2, b3⟩ := ih
      obtain ⟨a', k⟩ := a.run hl ho he hm h1 h2
      obtain ⟨m'', k1, k2, k3, k4⟩ := k m' b0 b3 b1
      exact ⟨a', m'', k1, k2, Version.le_trans b2 k3, k4⟩
  obtain ⟨_, m', a1, a2, a3, _⟩ := key
  exact ⟨m', a1, a2, a3⟩

/-- With moves: whatever is announced in a run, and whatever was served before it. -/
theorem run_moveServed {B : Notif → Prop} {depth : Nat} {fs f : FS} (hl : Layout c base name)
    (ho : CleanObjects c.rsyncIncludeHost) (he : c.rsyncEnabled = true) (hm : c.rsyncUseSymlinks = false)
    (hc : RunConds c base name env fs) (hcs : CleanSource c base env fs)
    (hB : ∀ m, Announces c base name env fs m → B m) (h0 : MoveServed c B fs)
    (hcp : f ∈ (process depth c env (World.start fs)).2.crashPoints) : MoveServed c B f := by
  have step := run_rsync_before_notif (env := env) (depth := depth) (fs := fs)
    (P := MoveServed c B) (Q := fun _ => MoveServed c B)
    hl hc he (fun f hw h => h0.of_leaf hw h) (fun _ _ _ g hs hw => g.of_leaf hw hs.1) ?_ f hcp
  · rcases step with ⟨h1, _⟩ | ⟨s, st, m, _, h2, _⟩
    · exact h1
    · exact h2
  · intro s x w m hr ha hv hh hP
    obtain ⟨hsl, hsb⟩ := hr.source hcs
    obtain ⟨k1, k2⟩ := updateRsync_moveServed (env := env) (n := m) (B := B) (x := x) (s := s) (w := w)
      ⟨hm, ho, hl.rsyncRsyncState, hr.snapshot, by rw [hr.path]; exact hsl,
        fun b hb => by rw [hr.path] at hb; rw [hsb b hb, hh], hB m ha, hP⟩
    exact ⟨k1, fun hok => (k1 hP).1⟩

theorem Later.moved {i j : Version × (Notif → Prop)} {f g : FS} {m : Notif} {b : Bytes}
    (h : ForwardLifetime age c base name i f) (h' : Later age c base name i f j g) (hl : Layout c base name)
    (ho : CleanObjects c.rsyncIncludeHost) (he : c.rsyncEnabled = true) (hm : c.rsyncUseSymlinks = false)
    (hi : i.2 m) (hle : (m.version age).le i.1) (hs : Serves c f c.rsyncCurrent m b) :
    MoveServed c (fun m' => j.2 m' ∧ (m.version age).le (m'.version age)) g := by
  have key : (m.version age).le j.1 ∧
      MoveServed c (fun m' => j.2 m' ∧ (m.version age).le (m'.version age)) g := by
    induction h' with
    | start hst =>
      obtain ⟨rfl, rfl⟩ := hst
      have := (h.moveAhead hl ho he hm).ahead
      exact ⟨hle, this.wf, this.state, this.revs, this.current, Or.inr ⟨m, b, ⟨hi, Version.le_refl _⟩, hs⟩⟩
    | @run i' j' depth env g g' h0 h1 h2 ih =>
      have hlife : ForwardLifetime age c base name i' g := Later.lifetime h h0
      obtain ⟨A, hA⟩ := hlife.ledger
      have hc := (hlife.moveAhead hl ho he hm).inv.conds hl (fun _ => ho) h1.forward.source
      refine ⟨Version.le_trans ih.1 h1.forward.later, run_moveServed hl ho he hm hc
        ((hA.booked hl (fun _ => ho)).clean h1.sound) (fun m' ha => ?_) (ih.2.mono fun m' hm' => ?_) h2⟩
      · exact ⟨h1.known m' (Or.inr ha), Version.le_trans ih.1 (h1.forward.announced ha).1⟩
      · exact ⟨h1.known m' (Or.inl hm'.1), hm'.2⟩
  exact key.2

end KSync
