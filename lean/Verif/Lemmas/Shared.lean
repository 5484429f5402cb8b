import Verif.Lemmas.Options
import Verif.Props.Atomic
import Verif.Spec.Shared

/-! # Several installations on one disk (C81) -/

set_option linter.unusedSectionVars false
set_option linter.unusedVariables false

namespace KSync

variable [Ext] {env : Env} {a b c c' : Config} {base name : Str} {f f' : FS}

theorem SameInstallation.roots (h : SameInstallation c c') : c'.roots = c.roots := by
  obtain ⟨h1, h2, h3, h4⟩ := h
  cases c; cases c'
  dsimp only at h1 h2 h3 h4
  subst h1 h2 h3 h4
  rfl

theorem Separate.apart (h : Separate a b) {x y q : Path} (hx : x ∈ a.roots) (hy : y ∈ b.roots)
    (h1 : x <+: q) (h2 : y <+: q) : False := by
  rcases prefix_total h1 h2 with h3 | h3
  · exact (h x hx y hy).1 h3
  · exact (h x hx y hy).2 h3

/-- A run leaves alone what the other installation owns. -/
theorem run_leaves {depth : Nat} (hl : Layout a base name) (hc : RunConds a base name env f)
    (hs : Separate a b) (hf : f' ∈ (process depth a env (World.start f)).2.crashPoints) {q : Path}
    (hb : b.Owns q) : f'.get q = f.get q := by
  have m1 : a.rrdpDir ∈ a.roots := by simp [Config.roots]
  have m2 : a.rsyncDir ∈ a.roots := by simp [Config.roots]
  have m3 : a.stagingDir ∈ a.roots := by simp [Config.roots]
  have m4 : a.rrdpStatePath ∈ a.roots := by simp [Config.roots]
  have m5 : a.rsyncStatePath ∈ a.roots := by simp [Config.roots]
  have key := C36_directories depth a env f base name hl hc f' hf
  obtain ⟨y, hy, hyq⟩ := hb
  have out : ∀ {x}, x ∈ a.roots → ¬ x <+: q := fun hx h => hs.apart hx hy h hyq
  have up : ∀ {x}, x ∈ a.roots → ¬ q <+: x := fun hx h => (hs _ hx y hy).2 (hyq.trans h)
  rcases key q (out m1) (fun h => out m2 h.2) (Or.inr ⟨out m3, fun h => out m4 (h ▸ List.prefix_refl _),
    fun h => out m5 (h ▸ List.prefix_refl _)⟩) with h | ⟨_, _, h | h | ⟨_, h⟩⟩ | ⟨_, _, h, _⟩
  · exact h
  · exact (up m1 h).elim
  · exact (up m3 h).elim
  · exact (up m2 h).elim
  · exact (up m1 h).elim

/-- For the other installation a run is something that happens elsewhere. -/
theorem run_meanwhile {depth : Nat} (hl : Layout a base name) (hc : RunConds a base name env f)
    (hs : Separate a b) (hf : f' ∈ (process depth a env (World.start f)).2.crashPoints) :
    BetweenRuns b f f' := by
  have m1 : a.rrdpDir ∈ a.roots := by simp [Config.roots]
  have m2 : a.rsyncDir ∈ a.roots := by simp [Config.roots]
  have m3 : a.stagingDir ∈ a.roots := by simp [Config.roots]
  have m4 : a.rrdpStatePath ∈ a.roots := by simp [Config.roots]
  have m5 : a.rsyncStatePath ∈ a.roots := by simp [Config.roots]
  have key := C36_directories depth a env f base name hl hc f' hf
  refine ⟨((process_within hc).crash_frame hc.wf f' hf).1, fun q => ?_⟩
  by_cases hb : b.Owns q
  · exact Or.inl (run_leaves hl hc hs hf hb)
  · by_cases ha : a.Owns q
    · obtain ⟨x, hx, hxq⟩ := ha
      exact Or.inr (Or.inr ⟨hb, fun r hr hqr => ((hs x hx r hr).1 (hxq.trans hqr)).elim⟩)
    · have out : ∀ {x}, x ∈ a.roots → ¬ x <+: q := fun hx h => ha ⟨_, hx, h⟩
      rcases key q (out m1) (fun h => out m2 h.2) (Or.inr ⟨out m3, fun h => out m4 (h ▸ List.prefix_refl _),
        fun h => out m5 (h ▸ List.prefix_refl _)⟩) with h | ⟨_, h, _⟩ | ⟨_, h, _⟩
      · exact Or.inl h
      · exact Or.inr (Or.inr ⟨hb, fun _ _ _ => Or.inr h⟩)
      · exact Or.inr (Or.inr ⟨hb, fun _ _ _ => Or.inl h⟩)

section
variable {κ ι : Type} [DecidableEq κ] {cs : κ → Config} {start : κ → ι → FS → Prop}
  {ok : κ → Config → ι → ι → Nat → Env → FS → Prop} {bases names : κ → Str}

/-- Each installation has a life of its own. -/
theorem Shared.each {i : κ → ι} {f : FS} (hl : ∀ k, Layout (cs k) (bases k) (names k))
    (hsep : ∀ k l, k ≠ l → Separate (cs k) (cs l)) (ho : ∀ host, CleanObjects host)
    (hs : ∀ k i f, start k i f → Pristine (cs k) (names k) f)
    (hok : ∀ k c i j d e f, ok k c i j d e f → GoodSource c (bases k) (names k) e f)
    (h : Shared cs start ok i f) : ∀ k, Reconfigured (cs k) (start k) (ok k) (i k) f := by
  induction h with
  | start h => exact fun k => .start (h k)
  | @run l c' i j depth env f f' _ h1 h2 h3 ih =>
    intro k
    dsimp only
    by_cases hkl : k = l
    · subst hkl
      rw [if_pos rfl]
      exact (ih k).run h1 h2 h3
    · rw [if_neg hkl]
      have hinv := Reconfigured.sane (hl l) ho ((ih l).map (fun _ => ()) (fun _ _ h => hs _ _ _ h)
        (fun _ _ _ _ _ _ h => hok _ _ _ _ _ _ _ h))
      have hc := (h1.invariant hinv).conds (h1.layout (hl l)) (fun _ => ho _) (hok _ _ _ _ _ _ _ h2)
      refine (ih k).meanwhile (run_meanwhile (h1.layout (hl l)) hc ?_ h3)
      intro x hx y hy
      rw [h1.roots] at hx
      exact hsep l k (Ne.symm hkl) x hx y hy
  | meanwhile _ h1 ih => exact fun k => (ih k).meanwhile (h1 k)

end

end KSync
