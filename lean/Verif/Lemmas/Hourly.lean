import Verif.Lemmas.RunAsked
import Verif.Lemmas.Gates
import Verif.Lemmas.Versions
import Verif.Spec.Hourly

/-! # The validator's data over histories -/

set_option linter.unusedSectionVars false
set_option linter.unusedVariables false

namespace KSync

variable [Ext]

theorem ReachesSerial.limited {c : Config} {n n1 : Notif} (h : ReachesSerial n)
    (hl : Limited c n n1) : ReachesSerial n1 := by
  obtain ⟨ds, h1, rfl⟩ := hl
  obtain ⟨older, h2, h3⟩ := h1.split
  have hm : ∀ x ∈ ds, x ∈ n.deltas := fun x hx => h2.mem_iff.1 (List.mem_append.2 (Or.inr hx))
  refine ⟨fun x hx => h.1 x (hm x hx), fun hne => ?_⟩
  obtain ⟨y, hy⟩ := List.exists_mem_of_ne_nil _ hne
  obtain ⟨x, hx, hs⟩ := h.2 (fun h0 => by have := hm y hy; rw [h0] at this; cases this)
  rcases List.mem_append.1 (h2.mem_iff.2 hx) with h4 | h4
  · have h5 := h3 x h4 y hy
    have h6 := h.1 y (hm y hy)
    exact ⟨y, hy, show y.serial = n.serial by omega⟩
  · exact ⟨x, h4, hs⟩

theorem Truthful.limited {c : Config} {n n1 : Notif} {content : Uuid → Nat → Objects}
    (h : Truthful content n) (hl : Limited c n n1) : Truthful content n1 := by
  obtain ⟨ds, h1, rfl⟩ := hl
  obtain ⟨older, h2, h3⟩ := h1.split
  exact ⟨fun d hd => h.range d (h2.mem_iff.1 (List.mem_append.2 (Or.inr hd))), h.snapshot, fun d hd => h.deltas d (h2.mem_iff.1 (List.mem_append.2 (Or.inr hd)))⟩

theorem RrdpState.persisted_persisted (s : RrdpState) : s.persisted.persisted = s.persisted := by
  unfold RrdpState.persisted
  cases s.validator with
  | none => rfl
  | some v =>
    dsimp only [Option.map]
    rw [List.map_map]
    rfl

/-- States found on disk have been written by a run. -/
theorem History.recorded_persisted {ι : Type} {c : Config} {base name : Str}
    {ok : ι → ι → Nat → Env → FS → Prop} {Q : ι → RrdpState → Prop}
    {N : ι → Notif → Prop} {i : ι} {f : FS} (hl : Layout c base name)
    (ho : c.rsyncEnabled = true → CleanObjects c.rsyncIncludeHost)
    (hi : Inductive c base name ok Q N) (h : History c (fun _ => Pristine c name) ok i f) :
    ∀ s, Recorded c f s → s.persisted = s := by
  induction h with
  | start h =>
    intro s hs
    obtain ⟨b, h1, _⟩ := hs
    unfold FS.read FS.resolve at h1
    rw [h.noState] at h1
    cases h1
  | @run i j depth env f0 f h0 hok hf ih =>
    have hinv := History.invariant hl ho hi h0
    obtain ⟨_, g2⟩ := run_records hl (hinv.conds hl ho (hi.source _ _ _ _ _ hok)) f hf
    have old : f.leaf c.rrdpStatePath = f0.leaf c.rrdpStatePath →
        ∀ s, Recorded c f s → s.persisted = s :=
      fun he s hs => ih s ((Recorded.of_leaf hinv.noLink he).1 hs)
    rcases g2 with ⟨g2, _⟩ | ⟨s, st, w, n, t, _, _, g3 | ⟨s2, k, t', _, g3⟩⟩
    · exact old g2
    · exact old g3
    · intro s' hs'
      rw [recorded_take g3 hs']
      exact s2.persisted_persisted

/-- The data kept for the repository being synchronised are those of a version that the source has had,
and were fetched in the past. -/
def KeptData (content : Uuid → Nat → Objects) (age : Uuid → Nat) (c : Config) (base : Str)
    (p : Time × Version) (s : RrdpState) : Prop :=
  OneFetcher c base s ∧ ∀ v d, s.validator = some v → mapGet v.repos.data c.notificationUri = some d →
    d.Genuine content ∧ d.lastFetch ≤ p.1 ∧ Version.le (age d.session, d.serial) p.2

theorem OneFetcher.keyed {c : Config} {base : Str} {s : RrdpState} (h : OneFetcher c base s)
    {v : Validator} (hv : s.validator = some v) : v.repos.Keyed := by
  unfold Visited.Keyed
  rw [h v hv]
  refine ⟨by simp, fun e he => ?_⟩
  rw [List.mem_singleton] at he
  subst he
  rfl

theorem KeptData.persisted {content : Uuid → Nat → Objects} {age : Uuid → Nat} {c : Config} {base : Str}
    {p : Time × Version} {s : RrdpState} (h : KeptData content age c base p s) :
    KeptData content age c base p s.persisted := by
  refine ⟨h.1.persisted, fun v d hv hd => ?_⟩
  unfold RrdpState.persisted at hv
  match hs : s.validator with
  | none => rw [hs] at hv; cases hv
  | some v0 =>
    rw [hs] at hv
    cases hv
    dsimp only at hd
    rw [mapGet_map] at hd
    match hd0 : mapGet v0.repos.data c.notificationUri with
    | none => rw [hd0] at hd; cases hd
    | some d0 =>
      rw [hd0] at hd
      cases hd
      exact h.2 v0 d0 hs hd0

theorem fetched_of_persisted {s : RrdpState} (h : s.persisted = s) {v : Validator} {u : Str}
    {d : RepoData} (hv : s.validator = some v) (hd : mapGet v.repos.data u = some d) :
    d.fetched = false := by
  rw [← h] at hv
  unfold RrdpState.persisted at hv
  match hs : s.validator with
  | none => rw [hs] at hv; cases hv
  | some v0 =>
    rw [hs] at hv
    cases hv
    dsimp only at hd
    rw [mapGet_map] at hd
    match hd0 : mapGet v0.repos.data u with
    | none => rw [hd0] at hd; cases hd
    | some d0 => rw [hd0] at hd; cases hd; rfl

theorem HourlyRun.le {content : Uuid → Nat → Objects} {age : Uuid → Nat} {c : Config}
    {base name : Str} {p p' : Time × Version} {depth : Nat} {env : Env} {f : FS}
    (h : HourlyRun content age c base name p p' depth env f) : p.1 ≤ p'.1 :=
  Int.le_trans (Int.le_add_of_nonneg_right (by decide)) (Int.le_trans (h.spaced 0).1 (h.spaced 0).2)

theorem hourly_invariant {content : Uuid → Nat → Objects} {age : Uuid → Nat} {c : Config}
    {base name : Str} (hl : Layout c base name) (ht : c.talFiles ≠ [])
    (ho : c.rsyncEnabled = true → CleanObjects c.rsyncIncludeHost) {p : Time × Version} {f : FS}
    (h : History c (fun _ => Pristine c name) (HourlyRun content age c base name) p f) :
    Invariant c base name (KeptData content age c base) (fun _ _ => True) p f ∧
      ∀ s, Recorded c f s → s.persisted = s := by
  have triv : Inductive c base name (HourlyRun content age c base name) (fun _ _ => True)
      (fun _ _ => True) :=
    ⟨fun _ _ _ _ _ h => h.forward.source, fun _ => trivial, fun _ _ _ => trivial,
      fun _ _ _ _ _ _ _ _ => trivial, fun _ _ _ _ _ _ _ _ => trivial,
      fun _ _ _ _ _ _ _ _ _ _ _ _ _ _ _ _ _ _ _ => trivial,
      fun _ _ _ _ _ _ _ _ _ _ _ _ _ _ _ _ _ _ _ _ _ => trivial⟩
  have hp := History.recorded_persisted hl ho triv h
  refine ⟨?_, hp⟩
  -- the run starts with a state as it is read from disk
  have h' : History c (fun _ => Pristine c name) (fun p p' depth env fs =>
      HourlyRun content age c base name p p' depth env fs ∧ RunConds c base name env fs ∧
        ∀ s, Recorded c fs s → s.persisted = s) p f := by
    clear hp
    induction h with
    | start h => exact .start h
    | run h0 hok hf ih =>
      exact .run ih ⟨hok, (History.invariant hl ho triv h0).conds hl ho hok.forward.source,
        History.recorded_persisted hl ho triv h0⟩ hf
  refine History.invariant hl ho ?_ h'
  refine ⟨fun _ _ _ _ _ h => h.1.forward.source, fun _ => ⟨fun v hv => (by cases hv), fun v d hv => by cases hv⟩,
    fun _ _ h => h.persisted, ?_, fun _ _ _ _ _ _ _ _ => trivial,
    fun _ _ _ _ _ _ _ _ _ _ _ _ _ _ _ _ _ _ _ => trivial, ?_⟩
  · rintro p p' depth env f s ⟨hr, _⟩ ⟨h1, h2⟩
    refine ⟨h1, fun v d hv hd => ?_⟩
    obtain ⟨a1, a2, a3⟩ := h2 v d hv hd
    exact ⟨a1, Int.le_trans a2 hr.le, Version.le_trans a3 hr.forward.later⟩
  · rintro p p' depth env f s0 s s2 st w n n0 ⟨hr, hc, hper⟩ hq hi hv hoff hlim hasc ha hn
    -- one fetcher
    have hone : OneFetcher c base s := by
      obtain ⟨s00, w1, w2, w3, h1, h2, h3, h4⟩ := prepare_parts ha.prep
      have h5 : s00 = s0 := (loadState_inUse hl.uri h1).unique hi
      subst h5
      exact preValidate_one hl.uri hq.1 h3
    obtain ⟨n1, s1, v, v1, g, k, rep, k1, k2, k3, k4, k5⟩ := prepare_validated' hc ht ha.prep
    have h5 : s1 = s0 := k2.unique hi
    subst h5
    obtain ⟨etag, n2, k6, k7⟩ := k1.offered
    obtain ⟨t1, t2⟩ := hr.truthful _ _ k6
    have hver : n1.session = n2.session ∧ n1.serial = n2.serial := by
      obtain ⟨ds, _, rfl⟩ := k7
      exact ⟨rfl, rfl⟩
    have hrec : ∀ v, s1.validator = some v → Recorded c f s1 := by
      intro v hv
      rcases hi with hi | ⟨_, rfl⟩
      · exact hi
      · cases hv
    obtain ⟨e1, e2⟩ := t2.limited k7
    obtain ⟨d, d1, d2, d3, d4, d5, d6⟩ := k4.kept hl.uri (fun v hv => hq.1.keyed hv)
      (fun v0 d0 hv hd => by
        obtain ⟨q1, q2, q3⟩ := hq.2 v0 d0 hv hd
        refine ⟨fetched_of_persisted (hper _ (hrec v0 hv)) hv hd, fun k => ?_, fun hse => ?_⟩
        · exact Int.le_trans (Int.add_le_add_right q2 3600) (hr.spaced k).1
        · have := Version.le_trans q3 (hr.forward.notBefore _ _ k6)
          unfold Version.le Notif.version at this
          rw [hse, hver.1] at this
          rw [hver.2]
          rcases this with this | ⟨_, this⟩
          · exact absurd this (Nat.lt_irrefl _)
          · exact this) e1 (fun x hx => ((t1.limited k7).range x hx).2) e2
    have hval := hn.validator
    refine ⟨fun v' hv' => hone v' (by rw [← hval]; exact hv'), fun v' d' hv' hd' => ?_⟩
    have := k5 v' (by rw [← hval]; exact hv') _ d d1 d2
    rw [this] at hd'
    cases hd'
    refine ⟨d6 content (t1.limited k7) (fun v0 d0 hv hd => (hq.2 v0 d0 hv hd).1), ?_, ?_⟩
    · rcases d5 with ⟨i, d5⟩ | ⟨v0, d0, hv0, hd0, d5⟩
      · rw [d5]; exact (hr.spaced i).2
      · rw [d5]
        exact Int.le_trans (hq.2 v0 d0 hv0 hd0).2.1 hr.le
    · rw [d3, d4, hver.1, hver.2]
      exact hr.forward.notAfter _ _ k6

end KSync
