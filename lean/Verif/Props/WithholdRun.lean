import Verif.Props.Withhold
import Verif.Props.Restart

/-!
# A version for which nothing speaks against it is published (properties C23, C72)

`Refusable` is defined in `Verif/Spec/Withhold.lean`, `TidyLifetime`, `Supplies` and so on in
`Verif/Spec/Restart.lean`.
-/

set_option linter.unusedVariables false

namespace KSync

/-- In the life of an installation, a recorded validator has its one fetcher stored under the URI of the
notification. -/
theorem TidyLifetime.keyed [Ext] {life : SourceLife} {T : SourceTree} {c : Config} {base name : Str}
    {p : Progress} {f : FS} (hl : Layout c base name)
    (ho : c.rsyncEnabled = true → CleanObjects c.rsyncIncludeHost)
    (h : TidyLifetime life T c base name p f) {s : RrdpState} {v : Validator} (hs : Recorded c f s)
    (hv : s.validator = some v) : v.repos.Keyed := by
  have h' : History (ι := Unit) c (fun _ => Pristine c name)
      (fun _ _ _ env fs => GoodSource c base name env fs) () f :=
    History.mono (fun _ => ()) (fun _ _ h => h.pristine) (fun _ _ _ _ _ h => h.good.source) h
  exact ((History.invariant hl ho (oneFetcher_invariant hl) h').state s hs).2.keyed hv

/-- **C23, with validation.** Take the disk at any instant in the life of an installation, after
any number of runs that completed, failed or were cut off anywhere, except while a state file was being
written.  Then a run that meets no failure, over a source that supplies what it announces, publishes the
source's current version, with all its files, unless there is one of the reasons to refuse it; scripts
have to agree, or to be possible to start if their verdict does not count.

Partial: conditions as for `C23_restart_partial`. -/
theorem C23_restart_with_tals_partial [Ext] (life : SourceLife) (T : SourceTree) (c : Config) (base name : Str)
    (p p' : Progress) (f : FS) (depth : Nat) (env : Env) (n : Notif)
    (hl : Layout c base name) (hT : T.Tidy name)
    (ho : c.rsyncEnabled = true → CleanObjects c.rsyncIncludeHost)
    (hsym : c.rsyncEnabled = true → c.rsyncUseSymlinks = true) (hmax : c.rrdpMaxDeltas ≠ some 0)
    (h : TidyLifetime life T c base name p f) (hst : StatesWhole c f)
    (hr : TidyRun life T c base name p p' depth env f) (hf : NoFaults env) (hcf : ChildrenFirst env)
    (hsup : Supplies c base env f n)
    (hno : ∀ s0 w1 st w2, loadState c env (World.start f) = (.ok s0, w1) →
      s0.updateStaged c env w1 = (.ok (some st), w2) → ¬ Refusable depth c base env f w2.cur)
    (hs : ∀ tick, ∀ q ∈ c.scripts, env.script tick q = some true ∨
      (c.talRejectInvalid = false ∧ env.script tick q ≠ none)) :
    ∃ w', process depth c env (World.start f) = (.ok (), w') ∧ PublishedAs c base name w'.cur n := by
  by_cases ht : c.talFiles = []
  · exact C23_restart_without_tals_partial life T c base name p p' f depth env n hl hT ho hsym hmax h hst hr
      hf hcf hsup ht hs
  have hk := h.steady hT hl ho hsym
  refine C23_restart_partial life T c base name p p' f depth env n hl hT ho hsym hmax h hst hr hf hcf hsup ?_
  intro s0 w1 st w2 h1 h2
  have hc : RunConds c base name env f :=
    ⟨hl.uri, hk.kept.wf, fun s hs => (hk.kept.state s hs).sane, hr.good.source, ho⟩
  match h4 : s0.preValidate depth c env w2 with
  | (.error e, w3) =>
    exact absurd (preValidate_refused hc (fun etag n hn => (hr.good.lists etag n hn).oneHash) hr.good.no304
      hk.kept.links hf (fun s v hs hv => h.keyed hl ho hs hv) h1 h2 h4).2 (hno s0 w1 st w2 h1 h2)
  | (.ok s', w3) =>
    refine ⟨s', w3, (scriptGate c env w3).2, rfl, ?_⟩
    match h5 : scriptGate c env w3 with
    | (r, w4) =>
      rcases scriptGate_cases h5 with ⟨_, _, ⟨rfl, _⟩ | ⟨_, hrej, i, q, h6, h7⟩⟩ | ⟨e, i, q, _, h6, h7, _⟩
      · rfl
      · rcases hs _ q (List.mem_of_getElem? h6) with h8 | ⟨h8, _⟩
        · rw [h8] at h7; cases h7
        · rw [h8] at hrej; cases hrej
      · rcases hs _ q (List.mem_of_getElem? h6) with h8 | ⟨_, h8⟩
        · rw [h8] at h7; cases h7
        · exact absurd h7 h8

/-! ## The hypotheses can be met -/

section
open Demo
set_option maxRecDepth 100000

namespace Demo

def lackRoles : List (Path × FileRole) := [(["qs".toList], ⟨true, 5, 1, lackSnap⟩)]

def lackLife : SourceLife where
  role := fun p => (lackRoles.lookup p).getD ⟨true, 0, 0, []⟩
  age := BitVec.toNat
  distinct := fun _ _ h => BitVec.eq_of_toNat_eq h

def lackPaths : List Path := lackObjects.map (fun e => comps (objectRel false e.1))

def lackTree : SourceTree where
  files := fun p => p = ["qs".toList]
  objects := fun _ p => p ∈ lackPaths

theorem layoutU : Layout confU base nameT :=
  ⟨runCondsU.uri, apart_of (by decide), apart_of (by decide), apart_of (by decide), apart_of (by decide),
    apart_of (by decide), apart_of (by decide), apart_of (by decide)⟩

theorem lackTidy : lackTree.Tidy nameT where
  files := by
    have := prefixFree_of_check (l := [["qs".toList], [nameT], [nameT ++ ".tmp".toList]]) (by decide)
    intro p q hp hq
    refine this p q ?_ ?_
    · rcases hp with rfl | rfl | rfl <;> simp
    · rcases hq with rfl | rfl | rfl <;> simp
  objects := fun r => prefixFree_of_check (by decide +kernel)
  named := fun r h => absurd h (by show ¬ [] ∈ lackPaths; decide +kernel)

theorem lackHas : lackTree.Has confU base lackNotif where
  files := by
    intro r hr rel hrel
    have hr : r = (uri "qs", lackSnap) := List.mem_singleton.1 hr
    subst hr
    have h : "qs".toList = rel := List.append_cancel_left (as := base) hrel
    rw [← h]
    show comps "qs".toList = ["qs".toList]
    decide
  objects := by
    intro b hb e he
    have hb : b = lackSnap := hb
    subst hb
    have hall : (Ext.streamSnapshot lackSnap).1.all (fun e =>
      decide (comps (objectRel false e.1) ∈ lackPaths)) = true := by decide +kernel
    have := of_decide_eq_true (List.all_eq_true.1 hall e he)
    exact this
  names := by
    intro r hr
    have hr : r = (uri "qs", lackSnap) := List.mem_singleton.1 hr
    subst hr
    exact EndsInName.of_ends (by decide)
  objectNames := by
    intro b hb e he
    have hb : b = lackSnap := hb
    subst hb
    have hall : (Ext.streamSnapshot lackSnap).1.all (fun e => endsInName e.1.path) = true := by decide +kernel
    exact EndsInName.of_ends (List.all_eq_true.1 hall e he)

theorem lackUntouched : Untouched confU fsT where
  wf := FS.wf_of_check (by decide +kernel)
  empty := by
    intro p hp q hq
    have hne : ∀ p ∈ confU.places, p ≠ [] ∧ ¬ p <+: ["tal".toList] := by decide
    unfold FS.get
    by_cases h : q = []
    · subst h; exact absurd (List.prefix_nil.1 hq) (hne p hp).1
    · rw [if_neg h]
      have : q ≠ ["tal".toList] := fun h => (hne p hp).2 (h ▸ hq)
      show List.lookup q [(["tal".toList], _)] = none
      rw [List.lookup_cons, beq_eq_false_iff_ne.2 this]
      rfl
  above := by
    intro p hp q hq hne
    have hall : ∀ p ∈ confU.places, p.take 1 ≠ ["tal".toList] := by decide
    cases q with
    | nil => exact Or.inr rfl
    | cons a q =>
      left
      have : a :: q ≠ ["tal".toList] := by
        rintro h
        obtain ⟨r, rfl⟩ := hq
        rw [h] at hp
        exact hall _ hp rfl
      show List.lookup (a :: q) [(["tal".toList], _)] = none
      rw [List.lookup_cons, beq_eq_false_iff_ne.2 this]
      rfl

theorem lackRun : TidyRun lackLife lackTree confU base nameT p0 ⟨5, 1, 1⟩ 5 lackEnv fsT where
  good := {
    source := runCondsU.source
    later := Or.inl (by decide)
    lists := fun _ _ h => by
      rw [lackOffers rfl rfl h]
      refine ⟨fun rel hrel => ?_, fun d hd => by cases hd⟩
      have h : "qs".toList = rel := List.append_cancel_left (as := base) hrel
      rw [← h]
      decide +kernel
    notBefore := fun _ _ h => by rw [lackOffers rfl rfl h]; exact Or.inl (by decide)
    notAfter := by
      intro _ _ h
      rw [lackOffers rfl rfl h]
      exact Or.inr ⟨by decide, by decide, fun k hk =>
        Nat.lt_of_not_le (fun hle => hk (Or.inr ⟨rfl, hle⟩))⟩
    no304 := lack304
    limit := nofun
    brisk := fun i j => (by decide : (50 : Int) < 50 + 10)
    moves := Or.inl (by decide +kernel) }
  has := fun _ _ h => by rw [lackOffers rfl rfl h]; exact lackHas

theorem lackSupplies : Supplies confU base lackEnv fsT lackNotif where
  notification := ⟨.uri (uri "q") false, resolve_locates.1 rfl, fun _ _ _ =>
    ⟨.absent, _, rfl, (by decide), Ext.parse_write lackNotif⟩⟩
  files := by
    intro r hr
    have hr : r = (uri "qs", lackSnap) := List.mem_singleton.1 hr
    subst hr
    exact ⟨⟨"qs".toList, rfl⟩, .uri (uri "qs") false, resolve_locates.1 rfl,
      fun _ _ _ => ⟨.absent, lackSnap, rfl, (by decide), rfl⟩⟩
  deltas := ⟨_, List.Perm.refl _, fun i h => absurd h (Nat.not_lt_zero _)⟩
  whole := by
    intro b hb
    have hb : b = lackSnap := hb
    subst hb
    decide +kernel

end Demo

/-- The version lacking a ROA, without `--tal-reject-invalid`. -/
example : ∃ w', process 5 confU lackEnv (World.start fsT) = (.ok (), w') ∧
    PublishedAs confU base nameT w'.cur lackNotif :=
  C23_restart_with_tals_partial lackLife lackTree confU base nameT p0 ⟨5, 1, 1⟩ fsT 5 lackEnv lackNotif layoutU
    lackTidy (fun _ => cleanObjects _) (fun _ => rfl) (by decide) (History.start lackUntouched)
    ⟨Or.inl (by decide +kernel), _, Or.inr ⟨by decide +kernel, rfl⟩⟩ lackRun (fun _ => rfl)
    (fun _ p q h hne => Nat.lt_of_le_of_ne h.length_le (fun he => hne (h.eq_of_length he))) lackSupplies
    (fun s0 w1 st w2 h1 h2 => by
      have h3 : loadState confU lackEnv (World.start fsT) =
          (.ok (freshState confU base nameT), (loadState confU lackEnv (World.start fsT)).2) :=
        Prod.ext (by decide +kernel) rfl
      obtain ⟨st', h4⟩ := lackStages
      have h5 : w2 = lackW confU := by
        rw [h1] at h3 h4
        have := congrArg Prod.fst h3
        injection this with this
        subst this
        rw [h2] at h4
        exact congrArg Prod.snd h4
      rw [h5]
      exact not_refusable_without_reject rfl lackTalsOf lackServed lackIsSnapshot lackRanks)
    (fun _ _ h => by cases h)

end

end KSync
