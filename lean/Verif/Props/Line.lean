import Verif.Spec.Line
import Verif.Props.Upstream

/-!
# C92: Lines of installations

Property theorems only; the vocabulary is in `Verif/Spec/Line.lean`.
-/

set_option linter.unusedVariables false

namespace KSync

/-- **C92, a version gets to the end of the line.** What an installation has in place gets to the end of any line of
installations each of which gets its files from the one before, with one run of each: the last one then has a
notification of the same session and serial in place, and all that this refers to. -/
theorem C92_handed_down [Ext] (base name : Str) (a b : Config) (x y : FS) (k : Nat) (n : Notif)
    (h : Line base name a x k b y) (hn : PublishedAs a base name x n) : PublishedAs b base name y n := by
  induction h with
  | here => exact hn
  | @down _ cp c y f σ life life' T t0 i q q' depth env _ hp hs hc ih =>
    obtain ⟨n', t, h1, h2, h3, _⟩ := ih
    have hpub : Published cp name y n' := ⟨t, by simp [FS.leaf, h1]⟩
    obtain ⟨w', e, m, t', g1, g2, g3, g4⟩ := C91_gets_there σ life life' T cp c base name t0 i q q' y f depth env n'
      hp.layout hp.objects hp.rfc hp.names hp.whole hp.mirroring hpub hs hc.layout hc.tidy hc.objects hc.symlinks
      hc.limit hc.before hc.states hc.run hc.noFaults hc.childrenFirst hc.passes
    rw [e]
    exact ⟨m, t', g1, g2.trans h2, g3.trans h3, g4⟩

/-- **C92, every run succeeds.** The runs along the line all succeed. -/
theorem C92_runs_succeed [Ext] (base name : Str) (a cp c : Config) (x y f : FS) (k : Nat) (n : Notif)
    (σ : Nat → Notif) (life life' : SourceLife) (T : SourceTree) (t0 : Time) (i : Progress × Nat) (q q' : Progress)
    (depth : Nat) (env : Env) (h : Line base name a x k cp y) (hn : PublishedAs a base name x n)
    (hp : GoodParent σ life cp base name i y) (hs : ServedBy life cp base name t0 i.1 y c env)
    (hc : GoodChild life' T c base name q q' depth env f) :
    (process depth c env (World.start f)).1 = .ok () := by
  obtain ⟨n', t, h1, _⟩ := C92_handed_down base name a cp x y k n h hn
  obtain ⟨w', e, _⟩ := C91_gets_there σ life life' T cp c base name t0 i q q' y f depth env n'
    hp.layout hp.objects hp.rfc hp.names hp.whole hp.mirroring ⟨t, by simp [FS.leaf, h1]⟩ hs hc.layout hc.tidy
    hc.objects hc.symlinks hc.limit hc.before hc.states hc.run hc.noFaults hc.childrenFirst hc.passes
  rw [e]

section

open Demo

set_option maxRecDepth 100000

namespace Demo

theorem goodParent1 : GoodParent threeVersions life conf base name (p1, 0) fs1 :=
  ⟨layout, fun _ => cleanObjects _, followsRfc3, good3, whole3, mirroring1⟩

theorem goodChild1 {x y : FS} (hx : Published conf name x notif1)
    (hm : (process 5 conf (envFrom x y) (World.start fs0)).2.copied = []) :
    GoodChild life tree conf base name p0 p1 5 (envFrom x y) fs0 :=
  ⟨layout, tree_tidy, fun _ => cleanObjects _, fun _ => rfl, by decide, History.start untouched0, statesWhole0,
    tidyRunFrom hx hm, fun _ => rfl,
    fun _ p q h hne => Nat.lt_of_le_of_ne h.length_le (fun he => hne (h.eq_of_length he)),
    passes_without_tals _ _ _ _ rfl (fun _ _ _ => Or.inl rfl)⟩

/-- The disk of the second installation, which got its files while the first had two more runs. -/
def fsLine1 : FS := after conf (envFrom fs1 fsThen3) fs0

theorem line1 : Line base name conf fs1 1 conf fsLine1 :=
  .down .here goodParent1 servedBy3 (goodChild1 published1' (by decide +kernel))

theorem publishedLine1 : Published conf name fsLine1 notif1 := ⟨3, by decide +kernel⟩

theorem goodParent2 : GoodParent threeVersions life conf base name (p1, 0) fsLine1 := by
  have hr := goodRunFrom (y := fsThen3) published1' (by decide +kernel)
  refine ⟨layout, fun _ => cleanObjects _, followsRfc3, good3, whole3,
    History.run (i := (p0, 0)) (start := fun _ => Pristine conf name) (History.start pristine0)
      (env := envFrom fs1 fsThen3) (depth := 5) ⟨hr, hr.source, Nat.le_refl _, fun _ _ h =>
        ⟨0, Nat.le_refl _, Nat.le_refl _, offersFrom published1' h⟩⟩ List.mem_cons_self⟩

theorem servedByLine : ServedBy life conf base name 0 p1 fsLine1 conf (envFrom fsLine1 fsLine1) where
  notification := ⟨uri "n", false, .direct rfl, fun _ => ⟨.absent, by decide, rfl⟩⟩
  files := fun rel h1 => by
    refine ⟨base ++ rel, false, .direct rfl, fun _ => ⟨.absent, p1, fsLine1, by decide, .start ⟨rfl, rfl⟩, ?_⟩⟩
    have hne : base ++ rel ≠ uri "n" := fun e => h1 (List.append_cancel_left e)
    show (if _ then _ else _) = _
    rw [if_neg hne, List.drop_left]

/-- The disk of the third installation. -/
def fsLine2 : FS := after conf (envFrom fsLine1 fsLine1) fs0

theorem line2 : Line base name conf fs1 2 conf fsLine2 :=
  .down line1 goodParent2 servedByLine (goodChild1 publishedLine1 (by decide +kernel))

theorem publishedAs1 : PublishedAs conf base name fs1 notif1 :=
  ⟨notif1, 0, by decide +kernel, rfl, rfl, C74_listed_files_stay_partial life conf base name p1 p1 fs1 fs1 notif1 0 0
    layout (fun _ => cleanObjects _) lifetime1 (by decide +kernel) (.start ⟨rfl, rfl⟩)⟩

end Demo

/-- Three installations in a line. -/
example : PublishedAs conf base name fsLine2 notif1 :=
  C92_handed_down base name conf conf fs1 fsLine2 2 notif1 line2 publishedAs1

example := C92_runs_succeed base name conf conf conf fs1 fsLine1 fs0 1 notif1 threeVersions life life tree 0 (p1, 0)
  p0 p1 5 (envFrom fsLine1 fsLine1) line1 publishedAs1 goodParent2 servedByLine
  (goodChild1 publishedLine1 (by decide +kernel))

end

end KSync
