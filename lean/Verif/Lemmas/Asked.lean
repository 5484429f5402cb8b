import Verif.Lemmas.Bounds
import Verif.Lemmas.Prevalidate
import Verif.Lemmas.Requests
import Verif.Lemmas.Validate

/-! # What a validation requests -/

set_option linter.unusedSectionVars false
set_option linter.unusedVariables false

namespace KSync

variable [Ext] {env : Env} {w w' : World} {E : Eff}

theorem readBytes_asked {f : Fetcher} {x : Str} {hash : Hash}
    (h : ∀ r, f.Asks x none r → E.reqs r) : Rel (Logs E) (readBytes f x hash) := by
  unfold readBytes
  refine bind_lift_in (fun src hs => Rel.bind (fun env w => (fetch_in (E := E) (target := none)
    (fun r hr => h r ⟨src, hs, hr⟩) (fun _ h => by cases h) env w).logs)
    (fun resp => ?_))
  cases resp
  · exact Rel.pure _
  · exact Rel.throw _
  · exact Rel.throw _

theorem dataFromSnapshot_asked {f : Fetcher} {n : Notif} {etag : Option Str} {time : Time}
    (h : ∀ x ∈ n.refs, ∀ r, f.Asks x.1 none r → E.reqs r) :
    Rel (Logs E) (dataFromSnapshot n etag f time) := by
  unfold dataFromSnapshot
  have := readBytes_asked (hash := n.snapHash) (h (n.snapUri, n.snapHash) (by simp [Notif.refs]))
  rel_auto

theorem applyDeltas_asked {f : Fetcher} (ds : List DeltaInfo)
    (h : ∀ d ∈ ds, ∀ r, f.Asks d.uri none r → E.reqs r) : ∀ d : RepoData,
    Rel (Logs E) (applyDeltas f d ds) := by
  induction ds with
  | nil => exact fun _ => Rel.pure _
  | cons i is ih =>
    intro d
    unfold applyDeltas
    have h1 := readBytes_asked (hash := i.hash) (h i (List.mem_cons_self ..))
    have h2 := ih (fun d hd => h d (List.mem_cons_of_mem _ hd))
    rel_auto

theorem updateFromDeltas_asked {f : Fetcher} {n : Notif} {etag : Option Str} {d : RepoData} {time : Time}
    (h : ∀ x ∈ n.refs, ∀ r, f.Asks x.1 none r → E.reqs r) :
    Rel (Logs E) (updateFromDeltas n etag d f time) := by
  unfold updateFromDeltas
  by_cases hs : n.session ≠ d.session
  · rw [if_pos hs]; exact Rel.pure _
  · rw [if_neg hs]
    match hv : sortVerify none n.deltas with
    | .error e => exact Rel.pure _
    | .ok ds =>
      dsimp only
      have h1 := applyDeltas_asked (E := E) (f := f) ds (fun x hx => h (x.uri, x.hash)
        (List.mem_cons_of_mem _ (List.mem_map.2 ⟨x, limit_refs hv x hx, rfl⟩)))
      rel_auto

/-- Requests of `get_latest`: for the notification, and for what is named in a notification. -/
theorem getLatest_asked {v : Visited} {uri : Str} {offline : Bool} {time : Time}
    (h1 : offline = false → ∀ etag r,
      (v.fetcherOf uri).Asks (v.fetcherOf uri).notificationUri etag r → E.reqs r)
    (h2 : offline = false → ∀ n, (v.fetcherOf uri).Finds env w.cur n → ∀ x ∈ n.refs, ∀ r,
      (v.fetcherOf uri).Asks x.1 none r → E.reqs r) :
    Logs E w (v.getLatest uri offline time env w).2 := by
  have hn : offline = false → ∀ etag, Rel (Logs E) ((v.fetcherOf uri).readNotification etag) :=
    fun ho etag env w => (readNotification_in (E := E) (fun r hr => h1 ho etag r hr) env w).logs
  unfold Visited.getLatest
  rw [Visited.getFetcher_eq]
  dsimp only
  match hd : mapGet v.data uri with
  | none =>
    dsimp only
    by_cases ho : offline = true
    · rw [if_pos ho]; exact Tr.refl _
    · rw [if_neg ho]
      rw [Bool.not_eq_true] at ho
      refine Tr.bindAt ?_ (fun a w1 _ => ?_)
      · rw [M.attempt_run]
        unfold retrieveNew
        refine Tr.bindAt (hn ho none env w) (fun o w1 hr => ?_)
        obtain ⟨_, src, h4, h5⟩ := readNotification_ok hr
        rcases h5 with ⟨n, e, b, rfl, hb, hp⟩ | ⟨rfl, _⟩
        · exact dataFromSnapshot_asked (h2 ho n ⟨src, _, b, e, Fetcher.locates_iff.1 h4, hb, hp⟩) env w1
        · exact Tr.refl _
      · cases a <;> exact Tr.refl _
  | some d =>
    dsimp only
    by_cases hf : d.fetched = true
    · rw [if_pos hf]; exact Tr.refl _
    · rw [if_neg hf]
      by_cases ho : offline = true
      · rw [if_pos ho]; exact Tr.refl _
      · rw [if_neg ho]
        rw [Bool.not_eq_true] at ho
        refine Tr.bindAt (now_logs env w) (fun t w0 h0 => ?_)
        have hw0 : w0.cur = w.cur := by cases h0; rfl
        by_cases ht : d.lastFetch > t - 3600
        · rw [if_pos ht]; exact Tr.refl _
        · rw [if_neg ht]
          refine Tr.bindAt ?_ (fun a w1 ha => ?_)
          · rw [M.attempt_run]; exact hn ho d.etag env w0
          · rw [M.attempt_run] at ha
            match hr : (v.fetcherOf uri).readNotification d.etag env w0 with
            | (.error e, w2) => rw [hr] at ha; cases ha; exact Tr.refl _
            | (.ok o, w2) =>
              rw [hr] at ha
              cases ha
              obtain ⟨_, src, h4, h5⟩ := readNotification_ok hr
              rcases h5 with ⟨n, e, b, rfl, hb, hp⟩ | ⟨rfl, _⟩
              · have hr := h2 ho n ⟨src, _, b, e, Fetcher.locates_iff.1 h4, hw0 ▸ hb, hp⟩
                have k1 := fun d => updateFromDeltas_asked (E := E) (f := v.fetcherOf uri) (n := n)
                  (etag := e) (d := d) (time := time) hr
                have k2 := dataFromSnapshot_asked (E := E) (f := v.fetcherOf uri) (n := n)
                  (etag := e) (time := time) hr
                dsimp only
                have : Rel (Logs E) (if n.session = d.session ∧ n.serial = d.serial then
                    pure (({ v with data := mapInsert v.data uri { d with fetched := true } } : Visited).final uri)
                  else do
                    let u ← updateFromDeltas n e { d with fetched := true } (v.fetcherOf uri) time
                    let v2 : Visited := { v with data := mapInsert v.data uri u.2 }
                    match u.1 with
                    | .ok () => pure (v2.final uri)
                    | .error _ => do
                      let s ← M.attempt (dataFromSnapshot n e (v.fetcherOf uri) time)
                      match s with
                      | .ok d' =>
                        pure (({ v with data := mapInsert v2.data uri d' } : Visited).final uri)
                      | .error _ =>
                        pure (({ v with data := mapErase v2.data uri } : Visited).final uri)) := by
                  rel_auto
                exact this env _
              · exact Tr.refl _

theorem checkCa_asked {v : Visited} {c : ResCert} {i : CaInfo} {offline : Bool} {time : Time}
    (h : ∀ u, i.siaRrdp = some u → Logs E w (v.getLatest u offline time env w).2) :
    Logs E w (checkCa v c i offline time env w).2 := by
  unfold checkCa
  dsimp only
  match hu : i.siaRrdp with
  | none => exact Tr.refl _
  | some u =>
    refine Tr.bindAt (h u hu) (fun x w1 _ => ?_)
    obtain ⟨r, v'⟩ := x
    dsimp only
    match r with
    | .error _ => exact Tr.refl _
    | .ok data =>
      dsimp only
      match openCa data.objects c i time with
      | .error (_, _) => exact Tr.refl _
      | .ok (crl, entries) =>
        refine Tr.bindAt (tick_logs env w1) (fun n w2 _ => Tr.bindAt (Rel.askEnv env w2) (fun env' w3 _ =>
          Tr.bindAt (checkEntries_logs _ _ _ _ _ _ env w3) (fun acc w4 _ => Tr.refl _)))

variable {J : World → Visited → Prop} {Q : ResCert → CaInfo → Prop}
  {T : ResCert → CaInfo → ValidatedCa → List (ResCert × CaInfo) → Prop}

theorem validateKids_asked {rec : Visited → ResCert → CaInfo → M (Report × Visited)}
    (hrec : ∀ w v c i, J w v → Q c i → Logs E w (rec v c i env w).2 ∧
      ∀ rep v' w', rec v c i env w = (.ok (rep, v'), w') → J w' v') (ks : List (ResCert × CaInfo)) :
    ∀ w v rep, J w v → (∀ k ∈ ks, Q k.1 k.2) →
      Logs E w (validateKids rec v rep ks env w).2 ∧
      ∀ rep' v' w', validateKids rec v rep ks env w = (.ok (rep', v'), w') → J w' v' := by
  induction ks with
  | nil =>
    intro w v rep hj _
    refine ⟨Tr.refl _, fun rep' v' w' h => ?_⟩
    cases h; exact hj
  | cons k ks ih =>
    obtain ⟨c, i⟩ := k
    intro w v rep hj hq
    obtain ⟨a1, a2⟩ := hrec w v c i hj (hq _ (List.mem_cons_self ..))
    unfold validateKids
    have hq' := fun k hk => hq k (List.mem_cons_of_mem _ hk)
    refine ⟨Tr.bindAt a1 (fun x w1 h1 => ?_), fun rep' v' w' h => ?_⟩
    · obtain ⟨r, v1⟩ := x
      exact (ih w1 v1 _ (a2 r v1 w1 h1) hq').1
    · obtain ⟨⟨r, v1⟩, w1, h1, h2⟩ := M.bind_ok.1 h
      exact (ih w1 v1 _ (a2 r v1 w1 h1) hq').2 _ _ _ h2

theorem validateTree_asked {offline : Bool} {time : Time} (hs : StepOk J offline time env T)
    (hq : ∀ c i ca kids, Q c i → T c i ca kids → ∀ k ∈ kids, Q k.1 k.2)
    (hl : ∀ w v c i, J w v → Q c i → Logs E w (checkCa v c i offline time env w).2) (depth : Nat) :
    ∀ w v c i, J w v → Q c i → Logs E w (validateTree offline time depth v c i env w).2 ∧
      ∀ rep v' w', validateTree offline time depth v c i env w = (.ok (rep, v'), w') → J w' v' := by
  induction depth with
  | zero => exact fun w v c i _ _ => ⟨Tr.refl _, fun _ _ _ h => (by cases h)⟩
  | succ depth ih =>
    intro w v c i hj hc
    unfold validateTree
    refine ⟨Tr.bindAt (hl w v c i hj hc) (fun x w1 h1 => ?_), fun rep v' w' h => ?_⟩
    · obtain ⟨ca, kids, v1⟩ := x
      obtain ⟨b1, b2⟩ := hs w v c i ca kids v1 w1 hj h1
      exact (validateKids_asked ih kids w1 v1 _ b1 (hq c i ca kids hc b2)).1
    · obtain ⟨⟨ca, kids, v1⟩, w1, h1, h2⟩ := M.bind_ok.1 h
      obtain ⟨b1, b2⟩ := hs w v c i ca kids v1 w1 hj h1
      exact (validateKids_asked ih kids w1 v1 _ b1 (hq c i ca kids hc b2)).2 _ _ _ h2

theorem validateTals_asked {V : Tal → ResCert → Prop} {offline : Bool} {time : Time}
    (hs : StepOk J offline time env T) (hv : TaOk J time env V)
    (hq : ∀ c i ca kids, Q c i → T c i ca kids → ∀ k ∈ kids, Q k.1 k.2)
    (hl : ∀ w v c i, J w v → Q c i → Logs E w (checkCa v c i offline time env w).2) (depth : Nat)
    (ts : List Tal) (h0 : ∀ t ∈ ts, ∀ r, t.source.Asks none r → E.reqs r)
    (h1 : ∀ t ∈ ts, ∀ c i, V t c → CaInfo.Of i c → Q c i) : ∀ w v rep, J w v →
      Logs E w (validateTals depth v rep offline time ts env w).2 := by
  induction ts with
  | nil => exact fun w v rep _ => Tr.refl _
  | cons t ts ih =>
    intro w v rep hj
    unfold validateTals
    have hi := ih (fun t ht => h0 t (List.mem_cons_of_mem _ ht)) (fun t ht => h1 t (List.mem_cons_of_mem _ ht))
    have key : Logs E w (validateTa depth v t offline time env w).2 ∧
        ∀ r v' w', validateTa depth v t offline time env w = (.ok (r, v'), w') → J w' v' := by
      unfold validateTa
      have hta : Logs E w (t.validateAt time env w).2 := validateAt_logs (h0 t (List.mem_cons_self ..)) env w
      refine ⟨Tr.bindAt hta (fun c w1 h2 => ?_), fun r v' w' h => ?_⟩
      · obtain ⟨j1, j2⟩ := hv w v t c w1 hj h2
        match hi : CaInfo.ofCert c with
        | none => exact Tr.refl _
        | some i =>
          exact (validateTree_asked hs hq hl depth w1 v c i j1 (h1 t (List.mem_cons_self ..) c i j2 (caInfo_of.1 hi))).1
      · obtain ⟨c, w1, h2, h3⟩ := M.bind_ok.1 h
        obtain ⟨j1, j2⟩ := hv w v t c w1 hj h2
        match hi : CaInfo.ofCert c with
        | none => rw [hi] at h3; cases h3
        | some i =>
          rw [hi] at h3
          exact (validateTree_asked hs hq hl depth w1 v c i j1 (h1 t (List.mem_cons_self ..) c i j2 (caInfo_of.1 hi))).2
            _ _ _ h3
    refine Tr.bindAt key.1 (fun x w1 h2 => ?_)
    obtain ⟨r, v1⟩ := x
    exact hi w1 v1 _ (key.2 r v1 w1 h2)

/-- Requests of a validation. -/
theorem validate_asked {v : Validator} {depth : Nat} {offline : Bool}
    (h0 : ∀ t ∈ v.tals, ∀ r, t.source.Asks none r → E.reqs r)
    (h1 : offline = false → ∀ issuer i u, Trusted env w.cur (env.clock w.tick) v issuer → CaInfo.Of i issuer →
      i.siaRrdp = some u → ∀ etag r,
      (v.repos.fetcherOf u).Asks (v.repos.fetcherOf u).notificationUri etag r → E.reqs r)
    (h2 : offline = false → ∀ issuer i u, Trusted env w.cur (env.clock w.tick) v issuer → CaInfo.Of i issuer →
      i.siaRrdp = some u → ∀ n, (v.repos.fetcherOf u).Finds env w.cur n → ∀ x ∈ n.refs, ∀ r,
      (v.repos.fetcherOf u).Asks x.1 none r → E.reqs r) :
    Logs E w (v.validate depth offline env w).2 := by
  unfold Validator.validate
  refine Tr.bindAt (now_logs env w) (fun time w1 ht => ?_)
  rw [show now env w = (.ok (env.clock w.tick), { w with tick := w.tick + 1 }) from rfl] at ht
  cases ht
  refine Tr.bindAt ?_ (fun x w1 _ => Tr.refl _)
  refine validateTals_asked (J := ValInv env w.cur v.repos offline)
    (Q := fun c i => Trusted env w.cur (env.clock w.tick) v c ∧ CaInfo.Of i c)
    (stepOk_judged w.cur v.repos offline (env.clock w.tick))
    (taOk_anchor w.cur v.repos offline (env.clock w.tick)) ?_ ?_ depth v.tals h0
    (fun t ht c i hc hi => ⟨.ta t c ht hc, hi⟩) _ _ _ (.start _ _ _ rfl)
  · intro c i ca kids hc ht k hk
    obtain ⟨u, objs, x, obj, cert, h1, h2, h3, h4, h5, h6, h7⟩ := ht.kids hk
    exact ⟨.issued c i u x obj cert k.1 hc.1 hc.2 h1 (h2.available x obj h3) h4 h5 h6, h7⟩
  · intro w1 v1 c i hj hc
    refine checkCa_asked (fun u hu => ?_)
    have hf : v1.fetcherOf u = v.repos.fetcherOf u := by
      unfold Visited.fetcherOf; rw [hj.fetchers]
    refine getLatest_asked ?_ ?_
    · rw [hf]; exact fun ho => h1 ho c i u hc.1 hc.2 hu
    · rw [hf, hj.cur]; exact fun ho => h2 ho c i u hc.1 hc.2 hu

end KSync
