import Verif.Spec.UpToDate
import Verif.Lemmas.Validate
import Verif.Lemmas.Tags

/-! # The version of the validator's data -/

set_option linter.unusedSectionVars false
set_option linter.unusedVariables false

namespace KSync

variable [Ext] {env : Env} {fs : FS} {time : Time} {v0 v v' : Visited} {u : Str} {w w' : World}

/-- During a validation that started with `v0`. -/
structure DataInv (env : Env) (fs : FS) (time : Time) (v0 : Visited) (u : Str) (w : World) (v : Visited) :
    Prop where
  cur : w.cur = fs
  fetchers : v.fetchers = v0.fetchers
  data : ∀ d, mapGet v.data u = some d →
    (∃ d0, mapGet v0.data u = some d0 ∧ d.KeptFrom d0) ∨
    d.fetched = true ∧ ∃ n, (v0.fetcherOf u).Finds env fs n ∧ d.BroughtTo n time
  genuine : ∀ content, (∀ n, (v0.fetcherOf u).Finds env fs n → Truthful content n) →
    (∀ d, mapGet v0.data u = some d → d.Genuine content) →
    ∀ d, mapGet v.data u = some d → d.Genuine content

theorem DataInv.move (h : DataInv env fs time v0 u w v) (hs : Same w w') :
    DataInv env fs time v0 u w' v := ⟨hs.1.trans h.cur, h.fetchers, h.data, h.genuine⟩

theorem DataInv.fetcherOf (h : DataInv env fs time v0 u w v) (x : Str) :
    v.fetcherOf x = v0.fetcherOf x := by
  unfold Visited.fetcherOf; rw [h.fetchers]

theorem KeptFrom.marked {d d0 : RepoData} (h : d.KeptFrom d0) :
    ({ d with fetched := true } : RepoData).KeptFrom d0 := by
  rcases h with rfl | rfl
  · exact Or.inr rfl
  · exact Or.inr rfl

theorem DataInv.latest {uri : Str} {offline : Bool} {r : Except Err RepoData}
    (hj : DataInv env fs time v0 u w v) (hb : WellBehaved env fs v0 u)
    (h : LatestDone env v uri offline time w r v' w') : DataInv env fs time v0 u w' v' := by
  refine ⟨h.same.1.trans hj.cur, h.fetchers.trans hj.fetchers, fun d hd => ?_, fun content ht h0 d hd => ?_⟩
  case refine_2 =>
    have hg := hj.genuine content ht h0
    by_cases hu : u = uri
    case neg => exact hg d ((h.others u hu).symm.trans hd)
    subst hu
    match r, h with
    | .error e, h =>
      obtain ⟨d0, h0, rfl⟩ := h.err e rfl d hd
      exact fun x => hg d0 h0 x
    | .ok d', h =>
      obtain ⟨h1, h2⟩ := h.ok d' rfl
      rw [h1] at hd
      cases hd
      cases h2 with
      | cached d0 h0 _ hsame => subst hsame; exact fun x => hg d0 h0 x
      | current d0 h0 _ _ hsame => subst hsame; exact fun x => hg d0 h0 x
      | snapshot n hn _ hf _ =>
        rw [hj.cur, hj.fetcherOf] at hn
        exact hf.genuine (ht n hn)
      | deltas n hn _ d0 h0 _ _ _ _ _ _ _ _ _ hgen _ _ =>
        rw [hj.cur, hj.fetcherOf] at hn
        exact hgen _ (ht n hn) (hg d0 h0)
  by_cases hu : u = uri
  case neg => exact hj.data d ((h.others u hu).symm.trans hd)
  subst hu
  have mark : ∀ d0, mapGet v.data u = some d0 →
      (∃ d1, mapGet v0.data u = some d1 ∧ ({ d0 with fetched := true } : RepoData).KeptFrom d1) ∨
      ({ d0 with fetched := true } : RepoData).fetched = true ∧
        ∃ n, (v0.fetcherOf u).Finds env fs n ∧ ({ d0 with fetched := true } : RepoData).BroughtTo n time := by
    intro d0 h0
    rcases hj.data d0 h0 with ⟨d1, h1, h2⟩ | ⟨_, n, h2⟩
    · exact Or.inl ⟨d1, h1, KeptFrom.marked h2⟩
    · exact Or.inr ⟨rfl, n, h2⟩
  match r, h with
  | .error e, h =>
    obtain ⟨d0, h0, rfl⟩ := h.err e rfl d hd
    exact mark d0 h0
  | .ok d', h =>
    obtain ⟨h1, h2⟩ := h.ok d' rfl
    rw [h1] at hd
    cases hd
    cases h2 with
    | cached d0 h0 _ hsame => subst hsame; exact mark d0 h0
    | current d0 h0 _ _ hsame => subst hsame; exact mark d0 h0
    | snapshot n hn _ hf _ =>
      rw [hj.cur, hj.fetcherOf] at hn
      exact Or.inr ⟨hf.fetched, n, hn, hf.session, hf.serial, hf.time⟩
    | deltas n hn _ d0 h0 h3 h4 h5 h6 h7 h11 h8 h9 _ _ h10 _ =>
      rw [hj.cur, hj.fetcherOf] at hn
      refine Or.inr ⟨h5.2, n, hn, h4, ?_, h5.1⟩
      obtain ⟨k1, k3, k2⟩ := hb n hn
      obtain ⟨x, k4, k5⟩ := k1.2 h6
      have k7 : d0.serial ≤ n.serial := by
        rcases hj.data d0 h0 with ⟨d1, g1, g2⟩ | ⟨g1, _⟩
        · rcases g2 with rfl | rfl
          · exact k2 _ g1 h3.symm
          · cases h10
        · rw [g1] at h10; cases h10
      have k6 := h8 (by have := k3 x k4; omega) k3 x k4
      rcases h9 with h9 | ⟨y, k8, k9⟩
      · omega
      · have := k1.1 y k8
        omega

theorem validate_upToDate {a a' : Validator} {depth : Nat} {offline : Bool} {rep : Report}
    (hb : WellBehaved env w.cur a.repos u)
    (h : a.validate depth offline env w = (.ok (rep, a'), w')) :
    DataInv env w.cur (env.clock w.tick) a.repos u w' a'.repos := by
  refine (validate_walked (J := DataInv env w.cur (env.clock w.tick) a.repos u) (V := fun _ _ => True)
    (T := fun _ _ _ _ => True) (fun time ht => ?_) (fun time ht => ?_)
    (show DataInv env w.cur (env.clock w.tick) a.repos u { w with tick := w.tick + 1 } a.repos from
      ⟨rfl, rfl, fun d hd => Or.inl ⟨d, hd, Or.inl rfl⟩, fun _ _ h => h⟩) h).1
  · subst ht
    intro w1 v c i ca kids v' w2 hj h
    refine ⟨?_, trivial⟩
    cases checkCa_ok h with
    | noRrdp h1 hr hv hw => subst hv hw; exact hj
    | noData x e h1 hg hr =>
      obtain ⟨r, v1, he, hd⟩ := getLatest_done hg
      cases he
      exact hj.latest hb hd
    | data x d w1 h1 hg hw hr =>
      obtain ⟨r, v1, he, hd⟩ := getLatest_done hg
      cases he
      exact (hj.latest hb hd).move hw.same
  · subst ht
    intro w1 v t c w2 hj h
    exact ⟨hj.move (validateAt_ok h).1, trivial⟩

/-! ## Over many runs -/

section
variable {content : Str → Uuid → Nat → Objects} {said : Str → Uuid → Nat → Time → Prop}
  {p p' : Str → Uuid → Nat} {c : Config} {base name : Str}

/-- What is recorded of a repository. -/
structure Honest (content : Str → Uuid → Nat → Objects) (said : Str → Uuid → Nat → Time → Prop)
    (p : Str → Uuid → Nat) (u : Str) (d : RepoData) : Prop where
  bound : d.serial ≤ p u d.session
  said : said u d.session d.serial d.lastFetch
  genuine : d.Genuine (content u)

def HonestState (content : Str → Uuid → Nat → Objects) (said : Str → Uuid → Nat → Time → Prop)
    (c : Config) (p : Str → Uuid → Nat) (s : RrdpState) : Prop :=
  ∀ v, s.validator = some v →
    (∃ base, v.repos.fetchers = [(c.notificationUri, c.stagedFetcher base)]) ∧
    ∀ u d, u ≠ c.notificationUri → mapGet v.repos.data u = some d → Honest content said p u d

theorem Honest.mono {u : Str} {d : RepoData} (h : Honest content said p u d)
    (hp : ∀ u s, p u s ≤ p' u s) : Honest content said p' u d :=
  ⟨Nat.le_trans h.bound (hp _ _), h.said, h.genuine⟩

theorem fetcherOf_direct {v : Visited} {b : Str} {u : Str}
    (h : v.fetchers = [(c.notificationUri, c.stagedFetcher b)]) (hu : u ≠ c.notificationUri) :
    v.fetcherOf u = ⟨u, none, true⟩ := by
  rw [← Visited.getFetcher_eq]
  unfold Visited.getFetcher
  rw [h, mapGet_cons, if_neg hu]
  rfl

theorem finds_direct {u : Str} {n : Notif} (h : (⟨u, none, true⟩ : Fetcher).Finds env fs n) :
    ∃ k r hdr b, r.uri = u ∧ env.http k r = .ok hdr (some b) ∧ Ext.parseNotif b = some n := by
  obtain ⟨src, etag, b, e, h1, h2, h3⟩ := h
  have h4 : src = .uri u true := by
    have := (Fetcher.locates_iff.2 h1).symm.trans
      (Fetcher.locates_iff.2 (.direct rfl : (⟨u, none, true⟩ : Fetcher).Locates u (.uri u true)))
    cases this; rfl
  subst h4
  obtain ⟨k, hdr, h5, _⟩ := h2
  exact ⟨k, _, hdr, b, rfl, h5, h3⟩

theorem preValidate_honest (hs : Servers content said p p' env) {depth : Nat} {s s' : RrdpState}
    (h : HonestState content said c p s) (hv : s.preValidate depth c env w = (.ok s', w')) :
    HonestState content said c p' s' := by
  rcases preValidate_steps hv with ⟨e, h1, _⟩ | ⟨o, w1, h1, h2⟩
  · cases h1
  · rcases h2 with ⟨_, h2, rfl⟩ | ⟨v, rfl, h2⟩
    · cases h2
      intro v hv; cases hv
    · rcases h2 with ⟨e, h2, _⟩ | ⟨v1, w2, h2, h3⟩
      · cases h2
      · rcases h3 with ⟨e, h3, _⟩ | ⟨rep, v2, h3, h4⟩
        · cases h3
        · rcases h4 with ⟨e, h4, _⟩ | ⟨h4, _⟩
          · cases h4
          cases h4
          obtain ⟨_, ⟨_, hn⟩ | ⟨_, v', tals, b, hv', _, _, _, h6⟩⟩ := chooseValidator_ok h1
          · cases hn
          cases hv'
          have k : HonestState content said c p { s with validator := some v } := by
            rcases h6 with rfl | ⟨h6, _⟩
            · rintro _ ⟨⟩
              exact ⟨⟨b, rfl⟩, fun u d _ hd => by cases hd⟩
            · rintro _ ⟨⟩
              exact h v h6
          obtain ⟨⟨b', k1⟩, k2⟩ := k v rfl
          obtain ⟨i1, _, i2, i3, _⟩ := initStaging_ok h2
          have j1 : v1.repos.fetchers = [(c.notificationUri, c.stagedFetcher b')] := i2.trans k1
          intro v3 hv3
          cases hv3
          have fin : ∀ u, u ≠ c.notificationUri →
              DataInv env w2.cur (env.clock w2.tick) v1.repos u w' v2.repos := by
            intro u hu
            refine validate_upToDate (fun n hn => ?_) h3
            rw [fetcherOf_direct j1 hu] at hn
            obtain ⟨k, r, hdr, b, e1, e2, e3⟩ := finds_direct hn
            obtain ⟨r1, r2⟩ := hs.reaches _ _ _ _ _ e2 e3
            refine ⟨r1, r2, fun d hd hse => ?_⟩
            rw [i3 u hu] at hd
            have := (k2 u d hu hd).bound
            have f1 := (hs.forward _ _ _ _ _ e2 e3).1
            rw [e1, ← hse] at f1
            exact Nat.le_trans this f1
          refine ⟨⟨b', ?_⟩, fun u d hu hd => ?_⟩
          · have := (validate_walked (J := fun _ v => v.fetchers = v1.repos.fetchers)
              (V := fun _ _ => True) (T := fun _ _ _ _ => True) (fun time ht => ?_) (fun time ht => ?_)
              rfl h3).1
            · exact this.trans j1
            · intro w1 v c i ca kids v' w2 hj h
              refine ⟨?_, trivial⟩
              cases checkCa_ok h with
              | noRrdp h1 hr hv hw => subst hv hw; exact hj
              | noData x e h1 hg hr =>
                obtain ⟨r, v1, he, hd⟩ := getLatest_done hg
                cases he
                exact hd.fetchers.trans hj
              | data x d w1 h1 hg hw hr =>
                obtain ⟨r, v1, he, hd⟩ := getLatest_done hg
                cases he
                exact hd.fetchers.trans hj
            · intro w1 v t c w2 hj h
              exact ⟨hj, trivial⟩
          · have hd' := fin u hu
            have truth : ∀ n, (v1.repos.fetcherOf u).Finds env w2.cur n → Truthful (content u) n := by
              intro n hn
              rw [fetcherOf_direct j1 hu] at hn
              obtain ⟨k, r, hdr, b, e1, e2, e3⟩ := finds_direct hn
              have := hs.truthful _ _ _ _ _ e2 e3
              rw [e1] at this
              exact this
            have hg := hd'.genuine (content u) truth
              (fun d hd => (k2 u d hu ((i3 u hu).symm.trans hd)).genuine) d hd
            rcases hd'.data d hd with ⟨d0, e1, e2⟩ | ⟨_, n, e1, e2, e3, e4⟩
            · have hh := (k2 u d0 hu ((i3 u hu).symm.trans e1)).mono hs.later
              rcases e2 with rfl | rfl
              · exact hh
              · exact ⟨hh.bound, hh.said, hh.genuine⟩
            · rw [fetcherOf_direct j1 hu] at e1
              obtain ⟨k, r, hdr, b, f1, f2, f3⟩ := finds_direct e1
              refine ⟨?_, ?_, hg⟩
              · rw [e2, e3, ← f1]; exact (hs.forward _ _ _ _ _ f2 f3).2
              · rw [e2, e3, e4, ← f1]; exact hs.said _ _ _ _ _ f2 f3 _

theorem HonestState.persisted {s : RrdpState} (h : HonestState content said c p s) :
    HonestState content said c p s.persisted := by
  intro v hv
  unfold RrdpState.persisted at hv
  match hs : s.validator with
  | none => rw [hs] at hv; cases hv
  | some v0 =>
    rw [hs] at hv
    cases hv
    obtain ⟨h1, h2⟩ := h v0 hs
    refine ⟨h1, fun u d hu hd => ?_⟩
    dsimp only at hd
    rw [mapGet_map] at hd
    match hd0 : mapGet v0.repos.data u with
    | none => rw [hd0] at hd; cases hd
    | some d0 =>
      rw [hd0] at hd
      cases hd
      exact ⟨(h2 u d0 hu hd0).bound, (h2 u d0 hu hd0).said, (h2 u d0 hu hd0).genuine⟩

theorem honest_invariant (hl : Layout c base name) :
    Inductive c base name
      (fun p p' (_ : Nat) env fs => GoodSource c base name env fs ∧ Servers content said p p' env)
      (fun p s => HonestState content said c p s) (fun _ _ => True) := by
  refine ⟨fun _ _ _ _ _ h => h.1, fun _ => fun v hv => (by cases hv),
    fun _ _ h => h.persisted, fun _ _ _ _ _ _ h hs => fun v hv => ⟨(hs v hv).1,
      fun u d hu hd => ((hs v hv).2 u d hu hd).mono h.2.later⟩, fun _ _ _ _ _ _ _ _ => trivial,
    fun _ _ _ _ _ _ _ _ _ _ _ _ _ _ _ _ _ _ _ => trivial, ?_⟩
  intro p p' depth env f s0 s s2 st w n n0 hok hq hi hv _ _ _ ha hn
  obtain ⟨s00, w1, w2, w3, h1, h2, h3, h4⟩ := prepare_parts ha.prep
  have h5 : s00 = s0 := (loadState_inUse hl.uri h1).unique hi
  subst h5
  have h6 := preValidate_honest hok.2 hq h3
  obtain ⟨v, rfl⟩ := hv
  intro v' hv'
  refine h6 v' ?_
  rw [← hn.validator]; exact hv'

end

end KSync
