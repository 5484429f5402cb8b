import Verif.Lemmas.Asked
import Verif.Lemmas.Order
import Verif.Spec.Once

/-! # How often a repository is asked for -/

set_option linter.unusedSectionVars false
set_option linter.unusedVariables false

namespace KSync

variable [Ext] {env : Env} {w w' : World}

/-- Anything but a request for `u`. -/
def notFor (u : Str) : Eff :=
  ⟨fun _ => True, fun r => r.uri ≠ u, fun _ => True, fun _ => True, fun _ => True, fun _ => True⟩

theorem asked_logs {u : Str} (h : Logs (notFor u) w w') : asked u w'.reqs = asked u w.reqs := by
  obtain ⟨d, hd, hp⟩ := h.reqs
  unfold asked
  rw [hd, List.countP_append]
  have : d.countP (fun r => decide (r.uri = u)) = 0 := by
    rw [List.countP_eq_zero]
    intro r hr
    have := hp r hr
    simpa [notFor] using this
  omega

theorem asked_bind {u : Str} {m : M α} {g : α → M β} {k j : Nat}
    (h : asked u (m env w).2.reqs ≤ asked u w.reqs + k)
    (hg : ∀ a w1, m env w = (.ok a, w1) → asked u (g a env w1).2.reqs ≤ asked u w1.reqs + j) :
    asked u ((m >>= g) env w).2.reqs ≤ asked u w.reqs + (k + j) := by
  match hm : m env w with
  | (.error e, w1) =>
    rw [hm] at h
    rw [bind_of_err hm]
    dsimp only at h ⊢
    omega
  | (.ok a, w1) =>
    rw [hm] at h
    have := hg a w1 hm
    rw [M.bind_of_ok hm]
    dsimp only at h
    omega

theorem asked_tail {u : Str} {m : M α} {g : α → M β} {k : Nat}
    (h : asked u (m env w).2.reqs ≤ asked u w.reqs + k)
    (hg : ∀ a w1, m env w = (.ok a, w1) → Logs (notFor u) w1 (g a env w1).2) :
    asked u ((m >>= g) env w).2.reqs ≤ asked u w.reqs + k :=
  asked_bind (j := 0) h (fun a w1 h1 => Nat.le_of_eq (asked_logs (hg a w1 h1)))

/-- Reading a notification file takes one request at most. -/
theorem readNotification_once (u : Str) (f : Fetcher) (etag : Option Str) (env : Env) (w : World) :
    asked u (f.readNotification etag env w).2.reqs ≤ asked u w.reqs + 1 := by
  unfold Fetcher.readNotification
  rw [show (1 : Nat) = 0 + (1 + 0) from rfl]
  refine asked_bind ?_ (fun src w1 _ => asked_bind ?_ (fun resp w2 _ => ?_))
  · cases f.resolve f.notificationUri <;> exact Nat.le_refl _
  · unfold FetchSource.fetch
    rw [show (1 : Nat) = 1 + 0 from rfl]
    refine asked_bind ?_ (fun resp w2 _ => ?_)
    · cases src with
      | file p =>
        refine Nat.le_trans (Nat.le_of_eq (asked_logs (u := u) ?_)) (Nat.le_succ _)
        exact (raw_in (E := notFor u) (src := .file p) (etag := etag) (fun r h => h.elim) env w1).logs
      | uri x m =>
        unfold FetchSource.raw
        rw [show (1 : Nat) = 1 + 0 from rfl]
        refine asked_bind ?_ (fun r w2 _ => ?_)
        · show asked u (⟨x, m, etag⟩ :: w1.reqs) ≤ _
          unfold asked
          rw [List.countP_cons]
          split <;> omega
        · cases r with
          | fail => exact Nat.le_refl _
          | ok hdr body => cases hdr <;> cases body <;> exact Nat.le_refl _
          | notModified => exact Nat.le_refl _
          | other _ => exact Nat.le_refl _
    · cases resp <;> exact Nat.le_refl _
  · cases resp with
    | data b e => dsimp only; cases Ext.parseNotif b <;> exact Nat.le_refl _
    | unmodified => exact Nat.le_refl _
    | saved => exact Nat.le_refl _

/-- Looking for repository `u` itself takes one request for its notification file at most. -/
theorem getLatest_once {v : Visited} {u a : Str} {offline : Bool} {time : Time}
    (h2 : ∀ n, (v.fetcherOf u).Finds env w.cur n → ∀ x ∈ n.refs, ∀ r,
      (v.fetcherOf u).Asks x.1 none r → r.uri ≠ a) :
    asked a (v.getLatest u offline time env w).2.reqs ≤ asked a w.reqs + 1 := by
  unfold Visited.getLatest
  rw [Visited.getFetcher_eq]
  dsimp only
  match hd : mapGet v.data u with
  | none =>
    dsimp only
    by_cases ho : offline = true
    · rw [if_pos ho]; exact Nat.le_succ _
    · rw [if_neg ho]
      refine asked_tail ?_ (fun x w1 _ => ?_)
      · rw [M.attempt_run]
        unfold retrieveNew
        refine asked_tail (readNotification_once _ _ _ _ _) (fun o w1 hr => ?_)
        obtain ⟨_, src, h4, h5⟩ := readNotification_ok hr
        rcases h5 with ⟨n, e, b, rfl, hb, hp⟩ | ⟨rfl, _⟩
        · exact dataFromSnapshot_asked (E := notFor a)
            (h2 n ⟨src, _, b, e, Fetcher.locates_iff.1 h4, hb, hp⟩) env w1
        · exact Tr.refl _
      · cases x <;> exact Tr.refl _
  | some d =>
    dsimp only
    by_cases hf : d.fetched = true
    · rw [if_pos hf]; exact Nat.le_succ _
    · rw [if_neg hf]
      by_cases ho : offline = true
      · rw [if_pos ho]; exact Nat.le_succ _
      · rw [if_neg ho]
        rw [show (1 : Nat) = 0 + 1 from rfl]
        refine asked_bind (Nat.le_refl _) (fun t w0 h0 => ?_)
        have hw0 : w0.cur = w.cur := by cases h0; rfl
        by_cases ht : d.lastFetch > t - 3600
        · rw [if_pos ht]; exact Nat.le_succ _
        · rw [if_neg ht]
          refine asked_tail ?_ (fun x w1 ha => ?_)
          · rw [M.attempt_run]; exact readNotification_once _ _ _ _ _
          · rw [M.attempt_run] at ha
            match hr : (v.fetcherOf u).readNotification d.etag env w0 with
            | (.error e, w2) => rw [hr] at ha; cases ha; exact Tr.refl _
            | (.ok o, w2) =>
              rw [hr] at ha
              cases ha
              obtain ⟨_, src, h4, h5⟩ := readNotification_ok hr
              rcases h5 with ⟨n, e, b, rfl, hb, hp⟩ | ⟨rfl, _⟩
              · have hr := h2 n ⟨src, _, b, e, Fetcher.locates_iff.1 h4, hw0 ▸ hb, hp⟩
                have k1 := fun d => updateFromDeltas_asked (E := notFor a) (f := v.fetcherOf u) (n := n)
                  (etag := e) (d := d) (time := time) hr
                have k2 := dataFromSnapshot_asked (E := notFor a) (f := v.fetcherOf u) (n := n)
                  (etag := e) (time := time) hr
                dsimp only
                have : Rel (Logs (notFor a)) (if n.session = d.session ∧ n.serial = d.serial then
                    pure (({ v with data := mapInsert v.data u { d with fetched := true } } : Visited).final u)
                  else do
                    let x ← updateFromDeltas n e { d with fetched := true } (v.fetcherOf u) time
                    let v2 : Visited := { v with data := mapInsert v.data u x.2 }
                    match x.1 with
                    | .ok () => pure (v2.final u)
                    | .error _ => do
                      let s ← M.attempt (dataFromSnapshot n e (v.fetcherOf u) time)
                      match s with
                      | .ok d' =>
                        pure (({ v with data := mapInsert v2.data u d' } : Visited).final u)
                      | .error _ =>
                        pure (({ v with data := mapErase v2.data u } : Visited).final u)) := by
                  rel_auto
                exact this env _
              · exact Tr.refl _

/-- The data for `u` need not be updated. -/
def Visited.Rests (v : Visited) (env : Env) (u : Str) : Prop :=
  ∃ d, mapGet v.data u = some d ∧ (d.fetched = true ∨ ∀ k, d.lastFetch > env.clock k - 3600)

theorem getLatest_rests {v : Visited} {u : Str} {offline : Bool} {time : Time}
    (h : v.Rests env u) :
    (v.getLatest u offline time env w).2.reqs = w.reqs ∧
      ∀ r v' w', v.getLatest u offline time env w = (.ok (r, v'), w') → v'.Rests env u := by
  obtain ⟨d, hd, hf⟩ := h
  unfold Visited.getLatest
  rw [hd]
  dsimp only
  have key : ∀ r v', (({ v with data := mapInsert v.data u { d with fetched := true } } : Visited).final u)
      = (r, v') → v'.Rests env u := by
    intro r v' h
    have hg : mapGet (mapInsert v.data u { d with fetched := true }) u = some { d with fetched := true } :=
      (mapGet_insert ..).trans (if_pos rfl)
    unfold Visited.final at h
    dsimp only at h
    rw [hg] at h
    cases h
    exact ⟨_, hg, .inl rfl⟩
  by_cases h1 : d.fetched = true
  · rw [if_pos h1]
    refine ⟨rfl, fun r v' w' h => ?_⟩
    unfold Visited.final at h
    rw [hd] at h
    cases h
    exact ⟨d, hd, hf⟩
  · rw [if_neg h1]
    rcases hf with hf | hf
    · exact (h1 hf).elim
    by_cases ho : offline = true
    · rw [if_pos ho]
      refine ⟨rfl, fun r v' w' h => key r v' ?_⟩
      injection h with h _
      injection h
    · rw [if_neg ho, now_bind, if_pos (hf w.tick)]
      refine ⟨rfl, fun r v' w' h => key r v' ?_⟩
      injection h with h _
      injection h

/-! ## Walking the tree -/

variable {J : World → Visited → Prop} {A : World → Prop}

/-- If it succeeds `J` holds, and `A` holds in any case. -/
def Leaves (J : World → Visited → Prop) (A : World → Prop) (x : Except Err (α × Visited) × World) :
    Prop :=
  A x.2 ∧ ∀ r v' w', x = (.ok (r, v'), w') → J w' v'

theorem validateKids_leaves {rec : Visited → ResCert → CaInfo → M (Report × Visited)}
    (hA : ∀ w v, J w v → A w)
    (hrec : ∀ w v c i, J w v → Leaves J A (rec v c i env w)) (ks : List (ResCert × CaInfo)) :
    ∀ w v rep, J w v → Leaves J A (validateKids rec v rep ks env w) := by
  induction ks with
  | nil =>
    intro w v rep hj
    refine ⟨hA w v hj, fun rep' v' w' h => ?_⟩
    cases h; exact hj
  | cons k ks ih =>
    obtain ⟨c, i⟩ := k
    intro w v rep hj
    obtain ⟨a1, a2⟩ := hrec w v c i hj
    unfold validateKids
    rcases M.bind_cases (m := rec v c i) (f := fun x => validateKids rec x.2 (rep.addOther x.1) ks)
      (env := env) (w := w) with ⟨e, w1, h1, h2⟩ | ⟨⟨r, v1⟩, w1, h1, h2⟩
    · refine ⟨?_, fun rep' v' w' h => ?_⟩
      · rw [h1] at a1; rw [h2]; exact a1
      · rw [h2] at h; cases h
    · rw [h2]
      exact ih w1 v1 _ (a2 r v1 w1 h1)

theorem validateTree_leaves {offline : Bool} {time : Time} (hA : ∀ w v, J w v → A w)
    (hc : ∀ w v c i ca kids v' w', J w v →
      checkCa v c i offline time env w = (.ok (ca, kids, v'), w') → J w' v') (depth : Nat) :
    ∀ w v c i, J w v → Leaves J A (validateTree offline time depth v c i env w) := by
  induction depth with
  | zero => exact fun w v c i hj => ⟨hA w v hj, fun _ _ _ h => (by cases h)⟩
  | succ depth ih =>
    intro w v c i hj
    obtain ⟨ca, kids, v1, w1, h1⟩ := checkCa_total v c i offline time env w
    unfold validateTree
    rw [M.bind_of_ok h1]
    exact validateKids_leaves hA ih kids w1 v1 _ (hc w v c i ca kids v1 w1 hj h1)

theorem validateTals_leaves {offline : Bool} {time : Time} (hA : ∀ w v, J w v → A w)
    (hc : ∀ w v c i ca kids v' w', J w v →
      checkCa v c i offline time env w = (.ok (ca, kids, v'), w') → J w' v') (depth : Nat)
    (ts : List Tal)
    (ht : ∀ t ∈ ts, ∀ w v, J w v → A (Tal.validateAt t time env w).2 ∧
      ∀ c w', Tal.validateAt t time env w = (.ok c, w') → J w' v) :
    ∀ w v rep, J w v → Leaves J A (validateTals depth v rep offline time ts env w) := by
  induction ts with
  | nil =>
    intro w v rep hj
    refine ⟨hA w v hj, fun rep' v' w' h => ?_⟩
    cases h; exact hj
  | cons t ts ih =>
    intro w v rep hj
    unfold validateTals
    have key : Leaves J A (validateTa depth v t offline time env w) := by
      unfold validateTa
      obtain ⟨a1, a2⟩ := ht t (List.mem_cons_self ..) w v hj
      match h1 : Tal.validateAt t time env w with
      | (.error e, w1) =>
        rw [bind_of_err h1]
        rw [h1] at a1
        exact ⟨a1, fun _ _ _ h => by cases h⟩
      | (.ok c, w1) =>
        rw [M.bind_of_ok h1]
        have hj1 := a2 c w1 h1
        match hi : CaInfo.ofCert c with
        | none => exact ⟨hA _ _ hj1, fun _ _ _ h => by cases h⟩
        | some i => exact validateTree_leaves hA hc depth w1 v c i hj1
    rcases M.bind_cases (m := validateTa depth v t offline time)
      (f := fun x => validateTals depth x.2 (rep.addOther x.1) offline time ts)
      (env := env) (w := w) with ⟨e, w1, h1, h2⟩ | ⟨⟨r, v1⟩, w1, h1, h2⟩
    · rw [h2]
      refine ⟨?_, fun rep' v' w' h => by cases h⟩
      have := key.1; rw [h1] at this; exact this
    · rw [h2]
      exact ih (fun t h => ht t (List.mem_cons_of_mem _ h)) w1 v1 _ (key.2 r v1 w1 h1)

/-! ## Counting with the CAs in the report -/

/-- The requests for `u` made on the way to a report are no more than the CAs in it that name
`u`. -/
def Pays (u a : Str) (J : World → Visited → Prop) (w : World) (rep0 : Report)
    (x : Except Err (Report × Visited) × World) : Prop :=
  ∀ rep v' w', x = (.ok (rep, v'), w') → J w' v' ∧
    asked a w'.reqs + (rep0.casOf u).length ≤ asked a w.reqs + (rep.casOf u).length

theorem casOf_addOther (u : Str) (a b : Report) :
    ((a.addOther b).casOf u).length = (a.casOf u).length + (b.casOf u).length := by
  show (List.filter _ (a.certs ++ b.certs)).length = _
  rw [List.filter_append, List.length_append]; rfl

theorem validateKids_pays {u a : Str} {rec : Visited → ResCert → CaInfo → M (Report × Visited)}
    (hrec : ∀ w v c i, J w v → Pays u a J w Report.zero (rec v c i env w))
    (ks : List (ResCert × CaInfo)) :
    ∀ w v rep, J w v → Pays u a J w rep (validateKids rec v rep ks env w) := by
  induction ks with
  | nil =>
    intro w v rep hj rep' v' w' h
    cases h; exact ⟨hj, Nat.le_refl _⟩
  | cons k ks ih =>
    obtain ⟨c, i⟩ := k
    intro w v rep hj rep' v' w' h
    unfold validateKids at h
    obtain ⟨⟨r, v1⟩, w1, h1, h2⟩ := M.bind_ok.1 h
    obtain ⟨a1, a2⟩ := hrec w v c i hj r v1 w1 h1
    obtain ⟨b1, b2⟩ := ih w1 v1 _ a1 _ _ _ h2
    rw [casOf_addOther] at b2
    have : (Report.zero.casOf u).length = 0 := rfl
    exact ⟨b1, by omega⟩

theorem validateTree_pays {u a : Str} {offline : Bool} {time : Time}
    (hc : ∀ w v c i ca kids v' w', J w v →
      checkCa v c i offline time env w = (.ok (ca, kids, v'), w') → J w' v' ∧
        asked a w'.reqs ≤ asked a w.reqs + ((Report.zero.addCert ca).casOf u).length) (depth : Nat) :
    ∀ w v c i, J w v → Pays u a J w Report.zero (validateTree offline time depth v c i env w) := by
  induction depth with
  | zero => exact fun w v c i hj _ _ _ h => (by cases h)
  | succ depth ih =>
    intro w v c i hj rep v' w' h
    unfold validateTree at h
    obtain ⟨⟨ca, kids, v1⟩, w1, h1, h2⟩ := M.bind_ok.1 h
    obtain ⟨a1, a2⟩ := hc w v c i ca kids v1 w1 hj h1
    obtain ⟨b1, b2⟩ := validateKids_pays ih kids w1 v1 _ a1 _ _ _ h2
    have : (Report.zero.casOf u).length = 0 := rfl
    exact ⟨b1, by omega⟩

theorem validateTals_pays {u a : Str} {offline : Bool} {time : Time}
    (hc : ∀ w v c i ca kids v' w', J w v →
      checkCa v c i offline time env w = (.ok (ca, kids, v'), w') → J w' v' ∧
        asked a w'.reqs ≤ asked a w.reqs + ((Report.zero.addCert ca).casOf u).length) (depth : Nat)
    (ts : List Tal)
    (ht : ∀ t ∈ ts, ∀ w v c w', J w v → Tal.validateAt t time env w = (.ok c, w') →
      J w' v ∧ asked a w'.reqs = asked a w.reqs) :
    ∀ w v rep, J w v → Pays u a J w rep (validateTals depth v rep offline time ts env w) := by
  induction ts with
  | nil =>
    intro w v rep hj rep' v' w' h
    cases h; exact ⟨hj, Nat.le_refl _⟩
  | cons t ts ih =>
    intro w v rep hj rep' v' w' h
    unfold validateTals at h
    obtain ⟨⟨r, v1⟩, w1, h1, h2⟩ := M.bind_ok.1 h
    unfold validateTa at h1
    obtain ⟨c, w2, h3, h4⟩ := M.bind_ok.1 h1
    obtain ⟨a1, a2⟩ := ht t (List.mem_cons_self ..) w v c w2 hj h3
    have key : Pays u a J w2 Report.zero (.ok (r, v1), w1) := by
      match hi : CaInfo.ofCert c with
      | none => rw [hi] at h4; cases h4
      | some i =>
        rw [hi] at h4
        have := validateTree_pays hc depth w2 v c i a1
        dsimp only at h4
        rw [h4] at this
        exact this
    obtain ⟨b1, b2⟩ := key r v1 w1 rfl
    obtain ⟨c1, c2⟩ := ih (fun t h => ht t (List.mem_cons_of_mem _ h)) w1 v1 _ b1 _ _ _ h2
    rw [casOf_addOther] at c2
    have : (Report.zero.casOf u).length = 0 := rfl
    exact ⟨c1, by omega⟩

/-! ## One CA -/

theorem Address.files' {fs : FS} {v : Validator} {u x a : Str} (h : Address env fs v u a) {n : Notif}
    (hn : (v.repos.fetcherOf x).Finds env fs n) :
    ∀ y ∈ n.refs, ∀ r, (v.repos.fetcherOf x).Asks y.1 none r → r.uri ≠ a := by
  rintro y hy r ⟨src, hs, hr⟩ rfl
  cases src with
  | file p => exact hr
  | uri b m =>
    have : r = ⟨b, m, none⟩ := hr
    subst this
    exact h.files x n hn y hy m (Fetcher.locates_iff.1 hs)

/-- What one CA costs. -/
theorem checkCa_cost {fs : FS} {v : Validator} {u a : Str} (h : Address env fs v u a) {v1 v' : Visited}
    {c : ResCert} {i : CaInfo} {offline : Bool} {time : Time} {ca : ValidatedCa}
    {kids : List (ResCert × CaInfo)} (hc : w.cur = fs) (hf : v1.fetchers = v.repos.fetchers)
    (hk : checkCa v1 c i offline time env w = (.ok (ca, kids, v'), w')) :
    ca.info = i ∧ ((i.siaRrdp ≠ some u ∧ asked a w'.reqs = asked a w.reqs ∧
        mapGet v'.data u = mapGet v1.data u) ∨
      (i.siaRrdp = some u ∧ ∃ r w1, v1.getLatest u offline time env w = (.ok (r, v'), w1) ∧
        w'.reqs = w1.reqs)) := by
  have hff : ∀ x, v1.fetcherOf x = v.repos.fetcherOf x := by
    intro x; unfold Visited.fetcherOf; rw [hf]
  have other : ∀ x, x ≠ u → ∀ r w1, v1.getLatest x offline time env w = (.ok (r, v'), w1) →
      asked a w1.reqs = asked a w.reqs ∧ mapGet v'.data u = mapGet v1.data u := by
    intro x hx r w1 hg
    refine ⟨?_, ?_⟩
    · have hl := getLatest_asked (E := notFor a) (env := env) (w := w) (v := v1) (uri := x)
        (offline := offline) (time := time) ?_ ?_
      · rw [hg] at hl; exact asked_logs hl
      · rintro - etag r ⟨src, hs, hr⟩ rfl
        rw [hff x] at hs
        cases src with
        | file p => exact hr
        | uri b m =>
          have : r = ⟨b, m, etag⟩ := hr
          subst this
          exact h.repos x hx m (Fetcher.locates_iff.1 hs)
      · intro _ n hn
        rw [hff x] at hn ⊢
        exact h.files' (hc ▸ hn)
    · obtain ⟨r', v2, he, hd⟩ := getLatest_done hg
      cases he
      exact hd.others u (fun e => hx e.symm)
  cases checkCa_ok hk with
  | noRrdp h1 hr hv hw =>
    subst hv hw
    exact ⟨hr.sameInfo, .inl ⟨by rw [h1]; simp, rfl, rfl⟩⟩
  | noData x e h1 hg hr =>
    refine ⟨hr.sameInfo, ?_⟩
    by_cases hx : x = u
    · subst hx; exact .inr ⟨h1, _, _, hg, rfl⟩
    · obtain ⟨p, q⟩ := other x hx _ _ hg
      exact .inl ⟨by rw [h1]; simpa using hx, p, q⟩
  | data x d w1 h1 hg hw hr =>
    have hi : ca.info = i := by
      rcases hr with ⟨hr, _⟩ | ⟨_, _, _, he⟩
      · exact hr.sameInfo
      · exact he.sameInfo
    have hw' : w'.reqs = w1.reqs := by rw [hw]
    refine ⟨hi, ?_⟩
    by_cases hx : x = u
    · subst hx; exact .inr ⟨h1, _, _, hg, hw'⟩
    · obtain ⟨p, q⟩ := other x hx _ _ hg
      exact .inl ⟨by rw [h1]; simpa using hx, by rw [hw']; exact p, q⟩

theorem checkCa_moves {v1 v' : Visited} {c : ResCert} {i : CaInfo} {offline : Bool} {time : Time}
    {ca : ValidatedCa} {kids : List (ResCert × CaInfo)}
    (hk : checkCa v1 c i offline time env w = (.ok (ca, kids, v'), w')) :
    w'.cur = w.cur ∧ v'.fetchers = v1.fetchers := by
  obtain ⟨hj, _⟩ := stepOk_judged w.cur v1 offline time w v1 c i ca kids v' w' (.start _ _ _ rfl) hk
  exact ⟨hj.cur, hj.fetchers⟩

theorem tal_silent {t : Tal} {a : Str} {time : Time} (h : ∀ m, t.source ≠ .uri a m) :
    asked a (Tal.validateAt t time env w).2.reqs = asked a w.reqs := by
  refine asked_logs (validateAt_logs (E := notFor a) ?_ env w)
  intro r hr e
  match hs : t.source with
  | .file p => rw [hs] at hr; exact hr
  | .uri b m =>
    rw [hs] at hr
    have : r = ⟨b, m, none⟩ := hr
    subst this
    exact h m (by rw [hs]; exact congrArg (FetchSource.uri · m) e)

/-! ## Whole validations -/

/-- A repository that can be fetched is asked for once. -/
theorem validate_once {v : Validator} {u a : Str} {depth : Nat} {offline : Bool}
    (h : Address env w.cur v u a) (hn : NoFaults env)
    (hr : (v.repos.fetcherOf u).Reliable env w.cur) :
    asked a (v.validate depth offline env w).2.reqs ≤ asked a w.reqs + 1 := by
  classical
  let φ : Visited → Nat := fun v => if ∃ d, mapGet v.data u = some d ∧ d.fetched = true then 0 else 1
  have hφ : ∀ v, φ v ≤ 1 := fun v => by dsimp only [φ]; split <;> omega
  let J : World → Visited → Prop := fun w1 v1 => w1.cur = w.cur ∧ v1.fetchers = v.repos.fetchers ∧
    asked a w1.reqs + φ v1 ≤ asked a w.reqs + 1
  unfold Validator.validate
  rw [now_bind]
  have key := validateTals_leaves (env := env) (J := J) (A := fun w1 => asked a w1.reqs ≤ asked a w.reqs + 1)
    (offline := offline) (time := env.clock w.tick)
    (fun w1 v1 hj => by have := hj.2.2; omega) ?_ depth v.tals ?_
    { w with tick := w.tick + 1 } v.repos Report.zero ⟨rfl, rfl, Nat.add_le_add_left (hφ _) _⟩
  · rcases M.bind_cases (validateTals depth v.repos Report.zero offline (env.clock w.tick) v.tals)
      (fun x => (pure (x.1, { v with repos := x.2 }) : M (Report × Validator))) env
      { w with tick := w.tick + 1 } with ⟨e, w1, h1, h2⟩ | ⟨⟨r, v1⟩, w1, h1, h2⟩
    · refine Nat.le_trans (Nat.le_of_eq ?_) key.1
      exact (congrArg (fun x => asked a x.2.reqs) h2).trans (congrArg (fun x => asked a x.2.reqs) h1).symm
    · refine Nat.le_trans (Nat.le_of_eq ?_) key.1
      exact (congrArg (fun x => asked a x.2.reqs) h2).trans (congrArg (fun x => asked a x.2.reqs) h1).symm
  · intro w1 v1 c i ca kids v' w' hj hk
    obtain ⟨j1, j2, j3⟩ := hj
    obtain ⟨m1, m2⟩ := checkCa_moves hk
    refine ⟨m1.trans j1, m2.trans j2, ?_⟩
    obtain ⟨_, ⟨_, c2, c3⟩ | ⟨_, r, w2, c2, c3⟩⟩ := checkCa_cost h j1 j2 hk
    · have : φ v' = φ v1 := by dsimp only [φ]; rw [c3]
      omega
    · rw [c3]
      have hff : v1.fetcherOf u = v.repos.fetcherOf u := by unfold Visited.fetcherOf; rw [j2]
      by_cases hq : ∃ d, mapGet v1.data u = some d ∧ d.fetched = true
      · obtain ⟨d, d1, d2⟩ := hq
        obtain ⟨e1, e2⟩ := getLatest_rests (env := env) (w := w1) (v := v1) (u := u) (offline := offline)
          (time := env.clock w.tick) ⟨d, d1, .inl d2⟩
        rw [c2] at e1
        have h0 : φ v1 = 0 := if_pos ⟨d, d1, d2⟩
        have h1 : φ v' = 0 := by
          unfold Visited.getLatest at c2
          rw [d1] at c2
          dsimp only at c2
          rw [if_pos d2] at c2
          unfold Visited.final at c2
          rw [d1] at c2
          cases c2
          exact h0
        dsimp only at e1
        rw [e1]
        omega
      · have h1 : φ v1 = 1 := if_neg hq
        have hle := getLatest_once (env := env) (w := w1) (v := v1) (u := u) (a := a) (offline := offline)
          (time := env.clock w.tick) (fun n hn => by
            rw [hff] at hn ⊢
            exact h.files' (j1 ▸ hn))
        rw [c2] at hle
        dsimp only at hle
        match r with
        | .error e =>
          by_cases ho : offline = true
          · have := getLatest_fails c2
            subst ho
            have hz : mapGet v1.data u = none := by simpa using this.2
            unfold Visited.getLatest at c2
            rw [hz] at c2
            dsimp only at c2
            rw [if_pos rfl] at c2
            injection c2 with _ c2
            rw [← c2]
            have := hφ v'
            omega
          · have := (getLatest_fails c2).2
            rw [if_neg ho, hff, j1] at this
            exact (this ⟨hn, hr⟩).elim
        | .ok d =>
          have hd : d.fetched = true ∧ mapGet v'.data u = some d := by
            obtain ⟨w3, ⟨e, f1, f2⟩ | ⟨p, q, f1, f2, f3, f4⟩⟩ := getLatest_entry v1 u offline
              (env.clock w.tick) env w1
            · rw [c2] at f2; cases f2
            · rw [c2] at f2
              cases f2
              rcases entry_settles _ _ _ _ env w1 p _ f1 with ⟨d', g1, g2⟩ | ⟨e, g1, _⟩
              · subst g1
                cases f3
                exact ⟨g2, f4.here⟩
              · rw [g1] at f3; cases f3
          have h2 : φ v' = 0 := if_pos ⟨d, hd.2, hd.1⟩
          omega
  · intro t ht w1 v1 hj
    obtain ⟨j1, j2, j3⟩ := hj
    have hs := tal_silent (env := env) (w := w1) (time := env.clock w.tick) (h.anchors t ht)
    refine ⟨by rw [hs]; omega, fun c w' hw => ?_⟩
    rw [hw] at hs
    dsimp only at hs
    obtain ⟨k1, k2⟩ := validateAt_ok hw
    exact ⟨k1.1.trans j1, j2, by rw [hs]; exact j3⟩

/-- A repository whose data are fresh is not asked for. -/
theorem validate_rests {v : Validator} {u a : Str} {depth : Nat} {offline : Bool}
    (h : Address env w.cur v u a) (hr : v.Fresh env u) :
    asked a (v.validate depth offline env w).2.reqs = asked a w.reqs := by
  let J : World → Visited → Prop := fun w1 v1 => w1.cur = w.cur ∧ v1.fetchers = v.repos.fetchers ∧
    v1.Rests env u ∧ asked a w1.reqs = asked a w.reqs
  unfold Validator.validate
  rw [now_bind]
  have key := validateTals_leaves (env := env) (J := J) (A := fun w1 => asked a w1.reqs = asked a w.reqs)
    (offline := offline) (time := env.clock w.tick)
    (fun w1 v1 hj => hj.2.2.2) ?_ depth v.tals ?_
    { w with tick := w.tick + 1 } v.repos Report.zero ⟨rfl, rfl, hr, rfl⟩
  · rcases M.bind_cases (validateTals depth v.repos Report.zero offline (env.clock w.tick) v.tals)
      (fun x => (pure (x.1, { v with repos := x.2 }) : M (Report × Validator))) env
      { w with tick := w.tick + 1 } with ⟨e, w1, h1, h2⟩ | ⟨⟨r, v1⟩, w1, h1, h2⟩
    · refine Eq.trans ?_ key.1
      exact (congrArg (fun x => asked a x.2.reqs) h2).trans (congrArg (fun x => asked a x.2.reqs) h1).symm
    · refine Eq.trans ?_ key.1
      exact (congrArg (fun x => asked a x.2.reqs) h2).trans (congrArg (fun x => asked a x.2.reqs) h1).symm
  · intro w1 v1 c i ca kids v' w' hj hk
    obtain ⟨j1, j2, j3, j4⟩ := hj
    obtain ⟨m1, m2⟩ := checkCa_moves hk
    refine ⟨m1.trans j1, m2.trans j2, ?_⟩
    obtain ⟨_, ⟨_, c2, c3⟩ | ⟨_, r, w2, c2, c3⟩⟩ := checkCa_cost h j1 j2 hk
    · refine ⟨?_, c2.trans j4⟩
      obtain ⟨d, d1, d2⟩ := j3
      exact ⟨d, c3.trans d1, d2⟩
    · obtain ⟨e1, e2⟩ := getLatest_rests (env := env) (w := w1) (v := v1) (u := u) (offline := offline)
        (time := env.clock w.tick) j3
      rw [c2] at e1
      refine ⟨e2 _ _ _ c2, ?_⟩
      rw [c3, show w2.reqs = w1.reqs from e1]
      exact j4
  · intro t ht w1 v1 hj
    obtain ⟨j1, j2, j3, j4⟩ := hj
    have hs := tal_silent (env := env) (w := w1) (time := env.clock w.tick) (h.anchors t ht)
    refine ⟨by rw [hs]; exact j4, fun c w' hw => ?_⟩
    rw [hw] at hs
    obtain ⟨k1, k2⟩ := validateAt_ok hw
    exact ⟨k1.1.trans j1, j2, j3, hs.trans j4⟩

/-- No repository is asked for more often than there are CAs in it. -/
theorem validate_pays {v v' : Validator} {u a : Str} {depth : Nat} {offline : Bool} {rep : Report}
    (h : Address env w.cur v u a) (hv : v.validate depth offline env w = (.ok (rep, v'), w')) :
    asked a w'.reqs ≤ asked a w.reqs + (rep.casOf u).length := by
  let J : World → Visited → Prop := fun w1 v1 => w1.cur = w.cur ∧ v1.fetchers = v.repos.fetchers
  unfold Validator.validate at hv
  rw [now_bind] at hv
  obtain ⟨⟨r, v1⟩, w1, h1, h2⟩ := M.bind_ok.1 hv
  cases h2
  have key := validateTals_pays (env := env) (J := J) (u := u) (a := a)
    (offline := offline) (time := env.clock w.tick) ?_ depth v.tals ?_
    { w with tick := w.tick + 1 } v.repos Report.zero ⟨rfl, rfl⟩ rep v1 _ h1
  · have := key.2
    have h0 : (Report.zero.casOf u).length = 0 := rfl
    rw [h0] at this
    exact this
  · intro w1 v1 c i ca kids v' w' hj hk
    obtain ⟨j1, j2⟩ := hj
    obtain ⟨m1, m2⟩ := checkCa_moves hk
    refine ⟨⟨m1.trans j1, m2.trans j2⟩, ?_⟩
    obtain ⟨hi, ⟨_, c2, c3⟩ | ⟨ci, r, w2, c2, c3⟩⟩ := checkCa_cost h j1 j2 hk
    · omega
    · have hff : v1.fetcherOf u = v.repos.fetcherOf u := by unfold Visited.fetcherOf; rw [j2]
      have hle := getLatest_once (env := env) (w := w1) (v := v1) (u := u) (a := a) (offline := offline)
          (time := env.clock w.tick) (fun n hn => by
            rw [hff] at hn ⊢
            exact h.files' (j1 ▸ hn))
      rw [c2] at hle
      have h1 : ((Report.zero.addCert ca).casOf u).length = 1 := by
        have : (Report.zero.addCert ca).certs = [ca] := rfl
        unfold Report.casOf
        rw [this, List.filter_cons, if_pos (by simpa [ValidatedCa.Names, hi] using ci)]
        rfl
      rw [h1, c3]
      exact hle
  · intro t ht w1 v1 c w' hj hw
    obtain ⟨j1, j2⟩ := hj
    have hs := tal_silent (env := env) (w := w1) (time := env.clock w.tick) (h.anchors t ht)
    rw [hw] at hs
    obtain ⟨k1, k2⟩ := validateAt_ok hw
    exact ⟨⟨k1.1.trans j1, j2⟩, hs⟩

end KSync
