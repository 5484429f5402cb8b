import Verif.Lemmas.Once
import Verif.Props.Order

/-!
# C61: how often a repository is asked for in a validation
-/

namespace KSync

/-- **C61, as far as it holds.** If the repository's server answers and nothing fails locally, its
notification file is asked for at most once in a validation, however many CAs are in it and however
the validation ends. -/
theorem C61_once_partial [Ext] {v : Validator} {u a : Str} {depth : Nat} {offline : Bool} {env : Env}
    {w : World} (h : Address env w.cur v u a) (hn : NoFaults env)
    (hr : (v.repos.fetcherOf u).Reliable env w.cur) :
    asked a (v.validate depth offline env w).2.reqs ≤ asked a w.reqs + 1 :=
  validate_once h hn hr

/-- **C61, fresh data.** If there are data for the repository that have been updated already, or
less than an hour ago, its notification file is not asked for at all, whatever fails. -/
theorem C61_fresh [Ext] {v : Validator} {u a : Str} {depth : Nat} {offline : Bool} {env : Env}
    {w : World} (h : Address env w.cur v u a) (hf : v.Fresh env u) :
    asked a (v.validate depth offline env w).2.reqs = asked a w.reqs :=
  validate_rests h hf

/-- **C61, at worst.** Whatever the server does and whatever fails, a validation that ends with a
report has asked for the notification file at most once for each CA in it that names the
repository. -/
theorem C61_at_worst [Ext] {v v' : Validator} {u a : Str} {depth : Nat} {offline : Bool} {env : Env}
    {w w' : World} {rep : Report} (h : Address env w.cur v u a)
    (hv : v.validate depth offline env w = (.ok (rep, v'), w')) :
    asked a w'.reqs ≤ asked a w.reqs + (rep.casOf u).length :=
  validate_pays h hv

section
open Demo
set_option maxRecDepth 100000

theorem Demo.direct (x : Str) : validator.repos.fetcherOf x = ⟨x, none, true⟩ := rfl

theorem Demo.direct_loc {x y : Str} {src : FetchSource}
    (h : (⟨x, none, true⟩ : Fetcher).Locates y src) : src = .uri y true := by
  cases h with
  | direct _ => rfl
  | mappedUri _ _ _ _ h _ => cases h
  | mappedDir _ _ _ h _ => cases h

/-- Only the notification file is at `q`. -/
theorem Demo.address_tree : Address treeEnv fs0 validator (uri "q") (uri "q") where
  anchors := by
    intro t ht m
    have : t = tal := by simpa [validator, Validator.new] using ht
    subst this
    intro h
    injection h with h _
    exact absurd h (by decide +kernel)
  repos := by
    intro x hx m h
    rw [direct] at h
    have := direct_loc h
    injection this with h1 _
    exact hx h1.symm
  files := by
    rintro x n ⟨src, etag, b, e, hl, hb, hp⟩ y hy m h
    rw [direct] at h hl
    have e1 := direct_loc h
    have e2 := direct_loc hl
    subst e2
    injection e1 with e1 _
    obtain ⟨k, hdr, h1, _⟩ := hb
    dsimp only [treeEnv] at h1
    by_cases c1 : x = uri "q"
    · rw [if_pos c1] at h1
      injection h1 with _ h1
      injection h1 with h1
      subst h1
      have h2 : Ext.parseNotif (Inst.toBytes treeNotif) = some treeNotif := by decide +kernel
      rw [h2] at hp
      cases hp
      have h3 : ∀ z ∈ treeNotif.refs, z.1 ≠ uri "q" := by decide +kernel
      exact h3 y hy e1.symm
    · rw [if_neg c1] at h1
      by_cases c2 : x = uri "qs"
      · rw [if_pos c2] at h1
        injection h1 with _ h1
        injection h1 with h1
        subst h1
        have h2 : Ext.parseNotif treeSnap = none := by decide +kernel
        rw [h2] at hp
        cases hp
      · rw [if_neg c2] at h1
        by_cases c3 : x = uri "ta"
        · rw [if_pos c3] at h1
          injection h1 with _ h1
          injection h1 with h1
          subst h1
          have h2 : Ext.parseNotif (Inst.toBytes taCert) = none := by decide +kernel
          rw [h2] at hp
          cases hp
        · rw [if_neg c3] at h1
          cases h1

/-- The hypotheses can be met: the tree of `Verif/Examples/Tree.lean` has two CAs in one repository;
its notification file is asked for exactly once. -/
example : Address treeEnv fs0 validator (uri "q") (uri "q") ∧ NoFaults treeEnv ∧
    (validator.repos.fetcherOf (uri "q")).Reliable treeEnv fs0 ∧
    asked (uri "q") treeRun.2.reqs = 1 ∧
    (match treeRun with
      | (.ok (rep, _), _) => decide ((rep.casOf (uri "q")).length = 2)
      | _ => false) = true := by
  refine ⟨address_tree, fun _ => rfl, ⟨.uri (uri "q") true, .direct rfl, ?_⟩, by decide +kernel,
    by decide +kernel⟩
  refine fun etag k => ⟨.absent, Inst.toBytes treeNotif, ?_, by simp, treeNotif,
    by decide +kernel, .uri (uri "qs") true, .direct rfl, fun k => ⟨.absent, treeSnap, ?_, by simp,
    by decide +kernel, treeObjects, by decide +kernel⟩⟩
  · show treeServe _ = _
    unfold treeServe treeEnv
    dsimp only
    rw [if_pos rfl]
  · show treeServe _ = _
    decide +kernel

/-- Data from 49 seconds ago, as `C61_fresh` has it; then the file is not asked for. -/
example :
    let d : RepoData := ⟨none, 1, false, 5, 1, treeObjects.map (fun x => (x.1.toStr, x.2))⟩
    let v : Validator := { validator with repos := { validator.repos with data := [(uri "q", d)] } }
    Address treeEnv fs0 v (uri "q") (uri "q") ∧ v.Fresh treeEnv (uri "q") ∧
    (match v.validate 5 false treeEnv (World.start fs0) with
      | (.ok (rep, _), w) => decide ((rep.casOf (uri "q")).length = 2 ∧ asked (uri "q") w.reqs = 0)
      | _ => false) = true :=
  ⟨⟨address_tree.anchors, address_tree.repos, address_tree.files⟩,
    ⟨_, rfl, .inr (fun _ => by show (1 : Int) > 50 - 3600; decide)⟩, by decide +kernel⟩

/-- **C61, refuted.** In general a repository is asked for more than once.  When there are no data
for a repository and its server does not answer, nothing is kept of that: it is asked again for each
further CA in it. -/
theorem C61_refuted_when_down : ∃ (v : Validator) (u : Str) (env : Env) (fs : FS),
    NoFaults env ∧ (∀ f, (u, f) ∉ v.repos.fetchers) ∧ (∀ t ∈ v.tals, ∀ m, t.source ≠ .uri u m) ∧
    (∀ k r, r.uri = u → env.http k r = .other 503) ∧
    (∃ x, (v.validate 5 false env (World.start fs)).1 = .ok x) ∧
    asked u (v.validate 5 false env (World.start fs)).2.reqs = 2 := by
  refine ⟨validator, uri "p", downEnv "t/a.cer", fs0, fun _ => rfl, ?_, ?_, ?_, ?_, by decide +kernel⟩
  · intro f h; cases h
  · intro t ht m
    have : t = tal := by simpa [validator, Validator.new] using ht
    subst this
    intro h
    injection h with h _
    exact absurd h (by decide +kernel)
  · intro k r hr
    show downServe r = _
    unfold downServe
    rw [hr, if_neg (by decide +kernel), if_neg (by decide +kernel), if_neg (by decide +kernel)]
  · have : ((validator.validate 5 false (downEnv "t/a.cer") (World.start fs0)).1.toOption).isSome = true := by
      decide +kernel
    revert this
    cases (validator.validate 5 false (downEnv "t/a.cer") (World.start fs0)).1 with
    | error e => intro h; cases h
    | ok x => exact fun _ => ⟨x, rfl⟩

end

end KSync
