import Verif.Lemmas.Bounds
import Verif.Lemmas.Phases

/-! # Pre-validation -/

set_option linter.unusedSectionVars false
set_option linter.unusedVariables false

namespace KSync

variable [Ext] {env : Env} {w w' : World}

theorem firstHttps_some (uris : List (Bool × Str)) : ∀ {u : Str}, firstHttps uris = some u →
    FirstHttps uris u := by
  induction uris with
  | nil => intro u h; cases h
  | cons x l ih =>
    intro u h
    obtain ⟨b, v⟩ := x
    cases b with
    | true =>
      unfold firstHttps at h
      cases h
      exact ⟨[], l, rfl, fun x hx => by cases hx⟩
    | false =>
      unfold firstHttps at h
      obtain ⟨pre, post, rfl, h2⟩ := ih h
      refine ⟨(false, v) :: pre, post, rfl, fun x hx => ?_⟩
      rcases List.mem_cons.1 hx with rfl | hx
      · rfl
      · exact h2 x hx

theorem talParse_ok {name : Str} {b : Bytes} {t : Tal} (h : Tal.parse name b = .ok t) :
    TalOf b name t := by
  unfold Tal.parse at h
  match hp : Ext.parseTal b with
  | none => rw [hp] at h; cases h
  | some (uris, key) =>
    rw [hp] at h
    dsimp only at h
    match hf : firstHttps uris with
    | none => rw [hf] at h; cases h
    | some u =>
      rw [hf] at h
      cases h
      exact ⟨uris, u, hp, firstHttps_some _ hf, rfl, rfl⟩

theorem readTals_ok (files : List Str) : ∀ {w w' : World} {ts : List Tal},
    readTals files env w = (.ok ts, w') → OnlyTick w w' ∧ TalsOf w.cur files ts := by
  induction files with
  | nil =>
    intro w w' ts h
    cases h
    exact ⟨rfl, .nil⟩
  | cons f files ih =>
    intro w w' ts h
    unfold readTals at h
    obtain ⟨b, w1, h1, h2⟩ := M.bind_ok.1 h
    obtain ⟨t, w2, h3, h4⟩ := M.bind_ok.1 h2
    obtain ⟨ts', w3, h5, h6⟩ := M.bind_ok.1 h4
    rw [M.lift_ok_iff] at h3
    rw [M.pure_ok] at h6
    obtain ⟨rfl, rfl⟩ := h6
    obtain ⟨h3, rfl⟩ := h3
    obtain ⟨h7, rfl, _⟩ := readFile_ok h1
    obtain ⟨h8, h9⟩ := ih h5
    exact ⟨OnlyTick.trans (b := { w with tick := w.tick + 1 }) rfl h8,
      .cons f b t files ts' h7 (talParse_ok h3) h9⟩

/-- Which validator is used. -/
theorem chooseValidator_ok {existing : Option Validator} {c : Config} {o : Option Validator}
    (h : chooseValidator existing c env w = (.ok o, w')) :
    OnlyTick w w' ∧ ((c.talFiles = [] ∧ o = none) ∨ c.talFiles ≠ [] ∧
      ∃ v tals base, o = some v ∧ TalsOf w.cur c.talFiles tals ∧ v.tals = tals ∧
        httpsParent c.notificationUri = some base ∧
        (v = ⟨tals, [(c.notificationUri, c.stagedFetcher base)], []⟩ ∨
          existing = some v ∧ ∃ u, (u, c.stagedFetcher base) ∈ v.repos.fetchers)) := by
  unfold chooseValidator at h
  by_cases ht : c.talFiles = []
  · rw [if_pos ht, M.pure_ok] at h
    obtain ⟨rfl, rfl⟩ := h
    exact ⟨rfl, .inl ⟨ht, rfl⟩⟩
  · rw [if_neg ht] at h
    obtain ⟨fresh, w1, h1, h2⟩ := M.bind_ok.1 h
    unfold createValidator at h1
    obtain ⟨tals, w2, h3, h4⟩ := M.bind_ok.1 h1
    obtain ⟨base, w3, h5, h6⟩ := M.bind_ok.1 h4
    rw [M.pure_ok] at h6
    obtain ⟨rfl, rfl⟩ := h6
    obtain ⟨h7, h8⟩ := readTals_ok _ h3
    have h9 : httpsParent c.notificationUri = some base ∧ w3 = w2 := by
      match hp : httpsParent c.notificationUri with
      | none => rw [hp] at h5; cases h5
      | some b => rw [hp] at h5; cases h5; exact ⟨rfl, rfl⟩
    obtain ⟨h9, rfl⟩ := h9
    by_cases hn : newValidatorNeeded existing (Validator.new tals
        [⟨c.notificationUri, some ⟨base, .file c.stagingDir⟩, true⟩]) = true
    · rw [if_pos hn, M.pure_ok] at h2
      obtain ⟨rfl, rfl⟩ := h2
      exact ⟨h7, .inr ⟨ht, _, tals, base, rfl, h8, rfl, h9, .inl rfl⟩⟩
    · rw [if_neg hn, M.pure_ok] at h2
      obtain ⟨rfl, rfl⟩ := h2
      refine ⟨h7, .inr ⟨ht, ?_⟩⟩
      unfold newValidatorNeeded at hn
      match existing with
      | none => exact absurd rfl hn
      | some v =>
        dsimp only at hn
        have hn : v.equivalent (Validator.new tals
          [⟨c.notificationUri, some ⟨base, .file c.stagingDir⟩, true⟩]) = true := by
          simpa using hn
        unfold Validator.equivalent at hn
        rw [Bool.and_eq_true, decide_eq_true_eq, List.all_eq_true] at hn
        have h10 := hn.1 (c.notificationUri, c.stagedFetcher base) (by
          unfold Validator.new Config.stagedFetcher
          exact List.mem_cons_self ..)
        rw [List.any_eq_true] at h10
        obtain ⟨⟨u, f⟩, h11, h12⟩ := h10
        have h12 := of_decide_eq_true h12
        dsimp only at h12
        subst h12
        exact ⟨v, tals, base, rfl, h8, hn.2, h9, .inr ⟨rfl, u, h11⟩⟩

/-- What the pre-validation does. -/
theorem preValidate_steps {depth : Nat} {s : RrdpState} {c : Config} {x : Except Err RrdpState}
    (h : s.preValidate depth c env w = (x, w')) :
    (∃ e, x = .error e ∧ chooseValidator s.validator c env w = (.error e, w')) ∨
    ∃ o w1, chooseValidator s.validator c env w = (.ok o, w1) ∧
      ((o = none ∧ x = .ok { s with validator := none } ∧ w' = w1) ∨
      ∃ v, o = some v ∧
        ((∃ e, x = .error e ∧ v.initStaging c.notificationUri env w1 = (.error e, w')) ∨
        ∃ v1 w2, v.initStaging c.notificationUri env w1 = (.ok v1, w2) ∧
          ((∃ e, x = .error e ∧ v1.validate depth c.offlineValidation env w2 = (.error e, w')) ∨
          ∃ rep v2, v1.validate depth c.offlineValidation env w2 = (.ok (rep, v2), w') ∧
            ((∃ e, x = .error e ∧ verdict c rep = .error e) ∨
              x = .ok { s with validator := some v2 } ∧ verdict c rep = .ok ())))) := by
  unfold RrdpState.preValidate reconfigureValidator at h
  match h1 : chooseValidator s.validator c env w with
  | (.error e, w1) =>
    rw [M.bind_of_error (M.bind_of_error h1)] at h
    cases h
    exact .inl ⟨e, rfl, rfl⟩
  | (.ok o, w1) =>
    refine .inr ⟨o, w1, rfl, ?_⟩
    match o with
    | none =>
      rw [M.bind_of_ok (M.bind_of_ok h1)] at h
      cases h
      exact .inl ⟨rfl, rfl, rfl⟩
    | some v =>
      refine .inr ⟨v, rfl, ?_⟩
      match h2 : v.initStaging c.notificationUri env w1 with
      | (.error e, w2) =>
        rw [M.bind_of_error ((M.bind_of_ok h1).trans (M.bind_of_error h2))] at h
        cases h
        exact .inl ⟨e, rfl, rfl⟩
      | (.ok v1, w2) =>
        refine .inr ⟨v1, w2, rfl, ?_⟩
        rw [M.bind_of_ok ((M.bind_of_ok h1).trans ((M.bind_of_ok h2).trans rfl))] at h
        dsimp only at h
        match h3 : v1.validate depth c.offlineValidation env w2 with
        | (.error e, w3) =>
          rw [M.bind_of_error h3] at h
          cases h
          exact .inl ⟨e, rfl, rfl⟩
        | (.ok (rep, v2), w3) =>
          rw [M.bind_of_ok h3] at h
          dsimp only at h
          match h4 : verdict c rep with
          | .error e =>
            rw [h4] at h
            cases h
            exact .inr ⟨rep, v2, rfl, .inl ⟨e, rfl, h4⟩⟩
          | .ok () =>
            rw [h4] at h
            cases h
            exact .inr ⟨rep, v2, rfl, .inr ⟨rfl, h4⟩⟩

theorem initStaging_ok {v v1 : Validator} {uri : Str}
    (h : v.initStaging uri env w = (.ok v1, w')) :
    Same w w' ∧ v1.tals = v.tals ∧ v1.repos.fetchers = v.repos.fetchers ∧
    (∀ u, u ≠ uri → mapGet v1.repos.data u = mapGet v.repos.data u) ∧
    ∃ d, mapGet v1.repos.data uri = some d ∧
      Latest env w.cur v.repos uri false (env.clock w.tick) (w.tick + 1) d := by
  unfold Validator.initStaging at h
  rw [now_bind] at h
  obtain ⟨⟨r, repos⟩, w1, h1, h2⟩ := M.bind_ok.1 h
  obtain ⟨r', v', h3, h4⟩ := getLatest_done h1
  cases h3
  match r, h4 with
  | .error e, h4 => cases h2
  | .ok d, h4 =>
    cases h2
    obtain ⟨h5, h6⟩ := h4.ok d rfl
    exact ⟨h4.same, rfl, h4.fetchers, h4.others, d, h5, h6⟩

/-! ## Requests -/

theorem mapGet_of_mem {α β : Type} [DecidableEq α] {l : List (α × β)} (hn : (l.map (·.1)).Nodup)
    {k : α} {v : β} (h : (k, v) ∈ l) : mapGet l k = some v := by
  induction l with
  | nil => cases h
  | cons e l ih =>
    rw [mapGet_cons]
    have hn' := List.nodup_cons.1 (show (e.1 :: l.map (·.1)).Nodup from hn)
    rcases List.mem_cons.1 h with rfl | h
    · rw [if_pos rfl]
    · rw [if_neg, ih hn'.2 h]
      intro hk
      exact hn'.1 (hk ▸ List.mem_map.2 ⟨_, h, rfl⟩)

/-- A fetcher for a local directory makes no requests. -/
theorem staged_asks {c : Config} {base x : Str} {etag : Option Str} {r : Req} :
    ¬ (c.stagedFetcher base).Asks x etag r := by
  rintro ⟨src, h1, h2⟩
  unfold Config.stagedFetcher Fetcher.resolve FetchMap.source at h1
  dsimp only at h1
  split at h1
  · cases h1
  · cases h1; exact h2

theorem initStaging_logs {E : Eff} {v : Validator} {uri : Str}
    (h : ∀ x etag r, ¬ (v.repos.fetcherOf uri).Asks x etag r) : Rel (Logs E) (v.initStaging uri) := by
  unfold Validator.initStaging
  have h1 := now_logs (E := E)
  have h2 := fun time => getLatest_local_logs (E := E) (offline := false) (time := time) h
  rel_auto

theorem preValidate_offline_logs {E : Eff} {depth : Nat} {s : RrdpState} {c : Config}
    (ho : c.offlineValidation = true) (hk : ∀ v, s.validator = some v → v.repos.Keyed)
    (h : ∀ tals, TalsOf w.cur c.talFiles tals → ∀ t ∈ tals, ∀ r, t.source.Asks none r → E.reqs r) :
    Logs E w (s.preValidate depth c env w).2 := by
  match hx : s.preValidate depth c env w with
  | (x, w') =>
    show Logs E w w'
    have hch : Logs E w (chooseValidator s.validator c env w).2 := by
      unfold chooseValidator
      have h1 := fun e w => (createValidator_in (E := E) c e w).logs
      by_cases ht : c.talFiles = []
      · rw [if_pos ht]; exact Tr.refl _
      · rw [if_neg ht]
        have : Rel (Logs E) (createValidator c >>= fun fresh =>
          if newValidatorNeeded s.validator fresh then pure (some fresh) else pure s.validator) := by
          have h2 : Rel (Logs E) (createValidator c) := h1
          rel_auto
        exact this env w
    rcases preValidate_steps hx with ⟨e, _, h1⟩ | ⟨o, w1, h1, h2⟩
    · rw [h1] at hch; exact hch
    · rw [h1] at hch
      rcases h2 with ⟨_, _, rfl⟩ | ⟨v, rfl, h2⟩
      · exact hch
      · obtain ⟨_, ⟨_, hn⟩ | ⟨_, v', tals, base, hv, h3, h4, h5, h6⟩⟩ := chooseValidator_ok h1
        · cases hn
        · cases hv
          have hg : v.repos.fetcherOf c.notificationUri = c.stagedFetcher base := by
            rw [← Visited.getFetcher_eq]
            unfold Visited.getFetcher
            rcases h6 with rfl | ⟨h6, u, h7⟩
            · dsimp only
              rw [mapGet_cons, if_pos rfl]
            · obtain ⟨k1, k2⟩ := hk v h6
              have hu : c.notificationUri = u := k2 _ h7
              rw [hu, mapGet_of_mem k1 h7]
          have hi : Logs E w1 (v.initStaging c.notificationUri env w1).2 :=
            initStaging_logs (fun x etag r => by rw [hg]; exact staged_asks) env w1
          rcases h2 with ⟨e, _, h2⟩ | ⟨v1, w2, h2, h7⟩
          · rw [h2] at hi; exact Tr.trans hch hi
          · rw [h2] at hi
            obtain ⟨_, h8, _⟩ := initStaging_ok h2
            have hv := validate_offline_logs (E := E) depth v1
              (fun t ht r hr => h tals h3 t (by rw [← h4, ← h8]; exact ht) r hr) env w2
            rw [ho] at h7
            rcases h7 with ⟨e, _, h7⟩ | ⟨rep, v2, h7, _⟩
            · rw [h7] at hv; exact Tr.trans (Tr.trans hch hi) hv
            · rw [h7] at hv; exact Tr.trans (Tr.trans hch hi) hv

end KSync
