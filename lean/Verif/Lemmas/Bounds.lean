import Verif.Lemmas.Validate
import Verif.Lemmas.Effects2

/-! # Depth of the recursion and requests of a validation -/

set_option linter.unusedSectionVars false
set_option linter.unusedVariables false

namespace KSync

variable [Ext] {env : Env} {w w' : World}

/-! ## Depth -/

/-- The computation does not run out of stack. -/
def Shallow (m : M α) : Prop := ∀ env w, (m env w).1 ≠ .error .overflow

theorem raw_shallow (src : FetchSource) (etag : Option Str) : Shallow (src.raw etag) := by
  intro env w h
  unfold FetchSource.raw at h
  cases src with
  | file p =>
    dsimp only at h
    rcases M.bind_cases (readFile p) (fun b => pure (FetchResponse.data b none)) env w with
      ⟨e, w1, h1, h2⟩ | ⟨r, w1, h1, h2⟩
    · rw [h2] at h
      cases h
      unfold readFile at h1
      rw [io_bind] at h1
      by_cases hf : env.fault w.tick = true
      · rw [if_pos hf] at h1; cases h1
      · rw [if_neg hf, getFs_bind] at h1
        split at h1 <;> cases h1
    · rw [h2] at h; cases h
  | uri u m =>
    dsimp only at h
    rw [M.bind_of_ok (httpGet_run _)] at h
    split at h
    · cases h
    · split at h
      · cases h
      · split at h <;> cases h
      · split at h <;> cases h
    · cases h
    · cases h

theorem fetch_shallow (src : FetchSource) : Shallow (src.fetch none none none) := by
  intro env w h
  unfold FetchSource.fetch at h
  rcases M.bind_cases (src.raw none) _ env w with ⟨e, w1, h1, h2⟩ | ⟨r, w1, h1, h2⟩
  · rw [h2] at h
    cases h
    exact raw_shallow src none env w (by rw [h1])
  · rw [h2] at h
    cases r <;> cases h

theorem validateAt_shallow (t : Tal) (time : Time) : Shallow (t.validateAt time) := by
  intro env w h
  unfold Tal.validateAt at h
  rcases M.bind_cases (t.source.fetch none none none) _ env w with ⟨e, w1, h1, h2⟩ | ⟨r, w1, h1, h2⟩
  · rw [h2] at h
    cases h
    exact fetch_shallow t.source env w (by rw [h1])
  · rw [h2] at h
    cases r with
    | saved => cases h
    | unmodified => cases h
    | data b e =>
      change ((match Ext.validateTa b time with
        | none => M.throw .tal
        | some cert => if cert.key ≠ t.key then M.throw .tal else pure cert : M ResCert) env w1).1 = _ at h
      split at h
      · cases h
      · split at h <;> cases h

/-- Checking one CA always comes to a result. -/
theorem checkCa_total (v : Visited) (issuer : ResCert) (info : CaInfo) (offline : Bool)
    (time : Time) (env : Env) (w : World) :
    ∃ ca kids v' w', checkCa v issuer info offline time env w = (.ok (ca, kids, v'), w') := by
  unfold checkCa
  dsimp only
  match hr : info.siaRrdp with
  | none => exact ⟨_, _, _, _, rfl⟩
  | some u =>
    dsimp only
    match hg : v.getLatest u offline time env w with
    | (x, w1) =>
      obtain ⟨r, v1, rfl, _⟩ := getLatest_done hg
      rw [M.bind_of_ok hg]
      match r with
      | .error e => exact ⟨_, _, _, _, rfl⟩
      | .ok d =>
        dsimp only
        match ho : openCa d.objects issuer info time with
        | .error (uri, k) => exact ⟨_, _, _, _, rfl⟩
        | .ok (crl, entries) =>
          dsimp only
          obtain ⟨fs, w2, c1, _⟩ := checkEntries_spec d.objects issuer crl time env
            (sortBy (fun e => env.prio w1.tick [e.1]) entries) ⟨.empty info, []⟩
            { w1 with tick := w1.tick + 1 }
          refine ⟨((⟨.empty info, []⟩ : CaAcc).addAll fs).ca, ((⟨.empty info, []⟩ : CaAcc).addAll fs).kids,
            v1, w2, ?_⟩
          show (checkEntries d.objects issuer crl time ⟨.empty info, []⟩
            (sortBy (fun e => env.prio w1.tick [e.1]) entries) >>= fun acc =>
              (pure (acc.ca, acc.kids, v1) : M _)) env { w1 with tick := w1.tick + 1 } = _
          rw [M.bind_of_ok c1]
          rfl

theorem validateKids_shallow {J : World → Visited → Prop}
    {rec : Visited → ResCert → CaInfo → M (Report × Visited)} (ks : List (ResCert × CaInfo))
    (hrec : ∀ k ∈ ks, ∀ w v, J w v → (rec v k.1 k.2 env w).1 ≠ .error .overflow ∧
      ∀ rep v' w', rec v k.1 k.2 env w = (.ok (rep, v'), w') → J w' v') :
    ∀ (w : World) (v : Visited) (rep0 : Report), J w v →
      (validateKids rec v rep0 ks env w).1 ≠ .error .overflow := by
  induction ks with
  | nil => exact fun w v rep0 _ h => by cases h
  | cons k ks ih =>
    obtain ⟨c, i⟩ := k
    intro w v rep0 hj h
    unfold validateKids at h
    obtain ⟨h1, h2⟩ := hrec (c, i) (List.mem_cons_self ..) w v hj
    rcases M.bind_cases (rec v c i) _ env w with ⟨e, w1, h3, h4⟩ | ⟨⟨r, v1⟩, w1, h3, h4⟩
    · rw [h4] at h; cases h; rw [h3] at h1; exact h1 rfl
    · rw [h4] at h
      exact ih (fun k hk => hrec k (List.mem_cons_of_mem _ hk)) w1 v1 _ (h2 _ _ _ h3) h

/-- If certificates are issued downwards only, the depth is bounded by the rank. -/
theorem validateTree_shallow (fs : FS) (v0 : Visited) {offline : Bool} {time : Time}
    (rank : ResCert → Nat) (S : ResCert → Prop)
    (hr : ∀ issuer i u x obj cert rc, S issuer → CaInfo.Of i issuer →
      i.siaRrdp = some u → Available env fs v0 u x obj → Ext.decodeCert obj = some cert →
      cert.isCa = true → Ext.validateCa cert issuer time = some rc → S rc ∧ rank rc < rank issuer) (depth : Nat) :
    ∀ (w : World) (v : Visited) (c : ResCert) (i : CaInfo), ValInv env fs v0 offline w v → S c →
      CaInfo.Of i c → rank c < depth →
      (validateTree offline time depth v c i env w).1 ≠ .error .overflow := by
  induction depth with
  | zero => exact fun w v c i _ _ _ h => absurd h (Nat.not_lt_zero _)
  | succ depth ih =>
    intro w v c i hj hsc hi hd h
    unfold validateTree at h
    obtain ⟨ca, kids, v', w', hc⟩ := checkCa_total v c i offline time env w
    rw [M.bind_of_ok hc] at h
    obtain ⟨hj', hjud⟩ := stepOk_judged fs v0 offline time w v c i ca kids v' w' hj hc
    refine validateKids_shallow (J := ValInv env fs v0 offline) kids (fun k hk w1 v1 hj1 => ?_) w' v' _ hj' h
    obtain ⟨u, objs, x, obj, cert, a1, a2, a3, a4, a5, a6, a7⟩ := Judged.kids hjud hk
    have := hr c i u x obj cert k.1 hsc hi a1 (a2.available x obj a3) a4 a5 a6
    refine ⟨ih w1 v1 k.1 k.2 hj1 this.1 a7 (by omega), fun rep v2 w2 h3 => ?_⟩
    exact (validateTree_walked (stepOk_judged fs v0 offline time) depth w1 v1 k.1 k.2 rep v2 w2 hj1
      h3).1

theorem validateTals_shallow (fs : FS) (v0 : Visited) {offline : Bool} {time : Time} {depth : Nat}
    (rank : ResCert → Nat) (S : ResCert → Prop)
    (hr : ∀ issuer i u x obj cert rc, S issuer → CaInfo.Of i issuer →
      i.siaRrdp = some u → Available env fs v0 u x obj → Ext.decodeCert obj = some cert →
      cert.isCa = true → Ext.validateCa cert issuer time = some rc → S rc ∧ rank rc < rank issuer) (ts : List Tal)
    (hd : ∀ t ∈ ts, ∀ c, TrustAnchor env fs time t c → S c ∧ rank c < depth) :
    ∀ (w : World) (v : Visited) (rep0 : Report), ValInv env fs v0 offline w v →
      (validateTals depth v rep0 offline time ts env w).1 ≠ .error .overflow := by
  induction ts with
  | nil => exact fun w v rep0 _ h => by cases h
  | cons t ts ih =>
    intro w v rep0 hj h
    unfold validateTals at h
    have key : (validateTa depth v t offline time env w).1 ≠ .error .overflow ∧
        ∀ rep v' w', validateTa depth v t offline time env w = (.ok (rep, v'), w') →
          ValInv env fs v0 offline w' v' := by
      unfold validateTa
      rcases M.bind_cases (t.validateAt time) (fun cert => match CaInfo.ofCert cert with
        | none => M.throw .tal
        | some info => validateTree offline time depth v cert info) env w with
        ⟨e, w1, h3, h4⟩ | ⟨c, w1, h3, h4⟩
      · refine ⟨fun hh => ?_, fun rep v' w' hh => ?_⟩
        · erw [h4] at hh
          cases hh
          exact validateAt_shallow t time env w (by rw [h3])
        · erw [h4] at hh; cases hh
      · obtain ⟨hj1, hta⟩ := taOk_anchor fs v0 offline time w v t c w1 hj h3
        erw [h4]
        match hi : CaInfo.ofCert c with
        | none => exact ⟨fun hh => (by cases hh), fun _ _ _ hh => (by cases hh)⟩
        | some i =>
          exact ⟨validateTree_shallow fs v0 rank S hr depth w1 v c i hj1
            (hd t (List.mem_cons_self ..) c hta).1 (caInfo_of.1 hi) (hd t (List.mem_cons_self ..) c hta).2, fun rep v' w' hh =>
            (validateTree_walked (stepOk_judged fs v0 offline time) depth w1 v c i rep v' w' hj1 hh).1⟩
    rcases M.bind_cases (validateTa depth v t offline time) _ env w with
      ⟨e, w1, h3, h4⟩ | ⟨⟨r, v1⟩, w1, h3, h4⟩
    · rw [h4] at h; cases h; exact key.1 (by rw [h3])
    · rw [h4] at h
      exact ih (fun t ht => hd t (List.mem_cons_of_mem _ ht)) w1 v1 _ (key.2 _ _ _ h3) h

theorem validate_shallow {v : Validator} {offline : Bool} {depth : Nat} (rank : ResCert → Nat)
    (hr : ∀ issuer i u x obj cert rc, Trusted env w.cur (env.clock w.tick) v issuer →
      CaInfo.Of i issuer → i.siaRrdp = some u → Available env w.cur v.repos u x obj →
      Ext.decodeCert obj = some cert → cert.isCa = true →
      Ext.validateCa cert issuer (env.clock w.tick) = some rc → rank rc < rank issuer)
    (hd : ∀ t ∈ v.tals, ∀ c, TrustAnchor env w.cur (env.clock w.tick) t c → rank c < depth) :
    (v.validate depth offline env w).1 ≠ .error .overflow := by
  intro h
  unfold Validator.validate at h
  rw [now_bind] at h
  rcases M.bind_cases (validateTals depth v.repos Report.zero offline (env.clock w.tick) v.tals) _ env
    { w with tick := w.tick + 1 } with ⟨e, w1, h3, h4⟩ | ⟨⟨r, v1⟩, w1, h3, h4⟩
  · rw [h4] at h
    cases h
    exact validateTals_shallow (env := env) w.cur v.repos rank
      (Trusted env w.cur (env.clock w.tick) v)
      (fun issuer i u x obj cert rc a1 a2 a3 a4 a5 a6 a7 =>
        ⟨.issued issuer i u x obj cert rc a1 a2 a3 a4 a5 a6 a7,
          hr issuer i u x obj cert rc a1 a2 a3 a4 a5 a6 a7⟩) v.tals
      (fun t ht c hc => ⟨.ta t c ht hc, hd t ht c hc⟩)
      { w with tick := w.tick + 1 } v.repos Report.zero (.start _ _ _ rfl) (by rw [h3])
  · rw [h4] at h; cases h

/-- A CA that is its own only child exhausts any stack. -/
theorem validateTree_loop {J : World → Visited → Prop} {c : ResCert} {i : CaInfo} {offline : Bool}
    {time : Time} (hs : ∀ w v, J w v → ∃ ca v' w',
      checkCa v c i offline time env w = (.ok (ca, [(c, i)], v'), w') ∧ J w' v') (depth : Nat) :
    ∀ w v, J w v → (validateTree offline time depth v c i env w).1 = .error .overflow := by
  induction depth with
  | zero => exact fun _ _ _ => rfl
  | succ depth ih =>
    intro w v hj
    obtain ⟨ca, v', w', h1, h2⟩ := hs w v hj
    unfold validateTree
    rw [M.bind_of_ok h1]
    show (validateKids (validateTree offline time depth) v' (Report.zero.addCert ca) [(c, i)] env w').1 = _
    unfold validateKids
    match hr : validateTree offline time depth v' c i env w' with
    | (x, w2) =>
      have := ih w' v' h2
      rw [hr] at this
      change x = _ at this
      subst this
      rw [M.bind_of_error hr]

/-- A CA with data at hand and a manifest listing one child and nothing else besides the CRL. -/
theorem checkCa_only_child {v : Visited} {issuer rc : ResCert} {info i : CaInfo} {offline : Bool}
    {time : Time} {u uri : Str} {d : RepoData} {crl : CrlObj} {h : Hash} {obj : Bytes} {cert : CertObj}
    (hu : info.siaRrdp = some u) (hd : mapGet v.data u = some d) (hf : d.fetched = true)
    (ho : openCa d.objects issuer info time = .ok (crl, [(uri, h)]))
    (hobj : mapGet d.objects uri = some obj) (hh : Ext.mftHashOk h obj = true)
    (hext : extension uri = "cer".toList) (hc : Ext.decodeCert obj = some cert)
    (hca : cert.isCa = true) (hr : cert.serial ∉ crl.revoked)
    (hv : Ext.validateCa cert issuer time = some rc) (hi : CaInfo.Of i rc) (w : World) :
    ∃ ca w', checkCa v issuer info offline time env w = (.ok (ca, [(rc, i)], v), w') := by
  have hl : v.getLatest u offline time env w = (.ok (.ok d, v), w) := by
    unfold Visited.getLatest
    rw [Visited.getFetcher_eq]
    rw [hd]
    dsimp only
    rw [if_pos hf]
    unfold Visited.final
    rw [hd]
    rfl
  unfold checkCa
  rw [hu]
  dsimp only
  rw [M.bind_of_ok hl]
  dsimp only
  rw [ho]
  dsimp only
  have hce : ∀ (acc : CaAcc) (w : World), checkEntry d.objects issuer crl time acc (uri, h) env w =
      (.ok { ca := { acc.ca with children := acc.ca.children ++ [(uri, i)] },
             kids := acc.kids ++ [(rc, i)] }, w) := by
    intro acc w
    unfold checkEntry
    dsimp only
    rw [hobj]
    dsimp only
    rw [if_neg (by rw [hh]; decide), if_neg (by rw [hext]; decide), if_pos hext, hc]
    dsimp only
    rw [if_pos hca, if_neg hr, hv]
    dsimp only
    rw [caInfo_of.2 hi]
    rfl
  have hes : ∀ (acc : CaAcc) (w : World), checkEntries d.objects issuer crl time acc [(uri, h)] env w =
      (.ok { ca := { acc.ca with children := acc.ca.children ++ [(uri, i)] },
             kids := acc.kids ++ [(rc, i)] }, w) := by
    intro acc w
    unfold checkEntries
    rw [M.bind_of_ok (hce acc w)]
    rfl
  refine ⟨{ ValidatedCa.empty info with children := (ValidatedCa.empty info).children ++ [(uri, i)] },
    { w with tick := w.tick + 1 }, ?_⟩
  rw [M.bind_of_ok (show tick env w = (.ok w.tick, { w with tick := w.tick + 1 }) from rfl)]
  rw [M.bind_of_ok (show askEnv env { w with tick := w.tick + 1 } =
    (.ok env, { w with tick := w.tick + 1 }) from rfl)]
  have hsort : sortBy (fun e : Str × Hash => env.prio w.tick [e.1]) [(uri, h)] = [(uri, h)] := rfl
  rw [hsort, M.bind_of_ok (hes _ _)]
  rfl

/-! ## Requests -/

variable {E : Eff}

theorem validateAt_logs {t : Tal} {time : Time} (h : ∀ r, t.source.Asks none r → E.reqs r) :
    Rel (Logs E) (t.validateAt time) := by
  have h1 : Rel (Logs E) (t.source.fetch none none none) := fun env w =>
    (fetch_in (E := E) (target := none) h (fun _ h => by cases h) env w).logs
  unfold Tal.validateAt
  refine Rel.bind h1 (fun resp => Rel.bind ?_ (fun b => ?_))
  · cases resp
    · exact Rel.pure _
    · exact Rel.throw _
    · exact Rel.throw _
  · rel_auto

theorem getLatest_offline_logs (v : Visited) (uri : Str) (time : Time) :
    Rel (Logs E) (v.getLatest uri true time) := by
  unfold Visited.getLatest
  rw [Visited.getFetcher_eq]
  dsimp only
  split
  · exact Rel.pure _
  · split
    · exact Rel.pure _
    · exact Rel.pure _

theorem checkEntry_logs (objs : List (Str × Bytes)) (issuer : ResCert) (crl : CrlObj) (time : Time)
    (acc : CaAcc) (e : Str × Hash) : Rel (Logs E) (checkEntry objs issuer crl time acc e) := by
  unfold checkEntry
  have h1 := now_logs (E := E)
  dsimp only
  rel_auto

theorem checkEntries_logs (objs : List (Str × Bytes)) (issuer : ResCert) (crl : CrlObj)
    (time : Time) (es : List (Str × Hash)) : ∀ acc : CaAcc,
    Rel (Logs E) (checkEntries objs issuer crl time acc es) := by
  induction es with
  | nil => exact fun acc => Rel.pure _
  | cons e es ih =>
    intro acc
    unfold checkEntries
    exact Rel.bind (checkEntry_logs _ _ _ _ _ _) ih

theorem checkCa_offline_logs (v : Visited) (issuer : ResCert) (info : CaInfo) (time : Time) :
    Rel (Logs E) (checkCa v issuer info true time) := by
  unfold checkCa
  dsimp only
  split
  · exact Rel.pure _
  · refine Rel.bind (getLatest_offline_logs _ _ _) (fun x => ?_)
    obtain ⟨r, v'⟩ := x
    dsimp only
    split
    · exact Rel.pure _
    · split
      · exact Rel.pure _
      · refine Rel.bind tick_logs (fun n => Rel.bind Rel.askEnv (fun env => Rel.bind
          (checkEntries_logs _ _ _ _ _ _) (fun acc => Rel.pure _)))

theorem validateKids_logs {rec : Visited → ResCert → CaInfo → M (Report × Visited)}
    (hrec : ∀ v c i, Rel (Logs E) (rec v c i)) (ks : List (ResCert × CaInfo)) :
    ∀ v rep, Rel (Logs E) (validateKids rec v rep ks) := by
  induction ks with
  | nil => exact fun _ _ => Rel.pure _
  | cons k ks ih =>
    obtain ⟨c, i⟩ := k
    intro v rep
    unfold validateKids
    exact Rel.bind (hrec v c i) (fun x => ih _ _)

theorem validateTree_offline_logs (time : Time) (depth : Nat) : ∀ v c i,
    Rel (Logs E) (validateTree true time depth v c i) := by
  induction depth with
  | zero => exact fun _ _ _ => Rel.throw _
  | succ depth ih =>
    intro v c i
    unfold validateTree
    exact Rel.bind (checkCa_offline_logs _ _ _ _) (fun x => validateKids_logs ih _ _ _)

theorem validateTals_offline_logs (depth : Nat) (time : Time) (ts : List Tal)
    (h : ∀ t ∈ ts, ∀ r, t.source.Asks none r → E.reqs r) : ∀ v rep,
    Rel (Logs E) (validateTals depth v rep true time ts) := by
  induction ts with
  | nil => exact fun _ _ => Rel.pure _
  | cons t ts ih =>
    intro v rep
    unfold validateTals validateTa
    refine Rel.bind (Rel.bind (validateAt_logs (h t (List.mem_cons_self ..))) (fun c => ?_))
      (fun x => ih (fun t ht => h t (List.mem_cons_of_mem _ ht)) _ _)
    split
    · exact Rel.throw _
    · exact validateTree_offline_logs _ _ _ _ _

theorem validate_offline_logs (depth : Nat) (v : Validator)
    (h : ∀ t ∈ v.tals, ∀ r, t.source.Asks none r → E.reqs r) :
    Rel (Logs E) (v.validate depth true) := by
  unfold Validator.validate
  exact Rel.bind now_logs (fun time => Rel.bind (validateTals_offline_logs depth time v.tals h _ _)
    (fun x => Rel.pure _))

/-- The only conditional request is that for the notification file, with the tag of data not
brought up to date yet. -/
theorem getLatest_logs {v : Visited} {uri : Str} {offline : Bool} {time : Time}
    (h : ∀ x r, (v.fetcherOf uri).Asks x none r → E.reqs r)
    (h' : ∀ d r, mapGet v.data uri = some d → d.fetched = false →
      (v.fetcherOf uri).Asks (v.fetcherOf uri).notificationUri d.etag r → E.reqs r) :
    Rel (Logs E) (v.getLatest uri offline time) := by
  have hb : ∀ x hash, Rel (Logs E) (readBytes (v.fetcherOf uri) x hash) := by
    intro x hash
    unfold readBytes
    refine bind_lift_in (fun src hs => Rel.bind (fun env w => (fetch_in (E := E) (target := none)
      (fun r hr => h x r ⟨src, hs, hr⟩) (fun _ h => by cases h) env w).logs)
      (fun resp => ?_))
    cases resp
    · exact Rel.pure _
    · exact Rel.throw _
    · exact Rel.throw _
  have hn : Rel (Logs E) ((v.fetcherOf uri).readNotification none) := fun env w =>
    (readNotification_in (E := E) (fun r hr => h _ r hr) env w).logs
  have hn' : ∀ d, mapGet v.data uri = some d → d.fetched = false →
      Rel (Logs E) ((v.fetcherOf uri).readNotification d.etag) := fun d hd hf env w =>
    (readNotification_in (E := E) (fun r hr => h' d r hd hf hr) env w).logs
  have hsn : ∀ n etag, Rel (Logs E) (dataFromSnapshot n etag (v.fetcherOf uri) time) := by
    intro n etag
    unfold dataFromSnapshot
    have := hb n.snapUri n.snapHash
    rel_auto
  have hnew : Rel (Logs E) (retrieveNew (v.fetcherOf uri) time) := by
    unfold retrieveNew
    rel_auto
  have hds : ∀ (ds : List DeltaInfo) (d : RepoData),
      Rel (Logs E) (applyDeltas (v.fetcherOf uri) d ds) := by
    intro ds
    induction ds with
    | nil => exact fun _ => Rel.pure _
    | cons i is ih =>
      intro d
      unfold applyDeltas
      have := hb i.uri i.hash
      rel_auto
  have hu : ∀ n etag d, Rel (Logs E) (updateFromDeltas n etag d (v.fetcherOf uri) time) := by
    intro n etag d
    unfold updateFromDeltas
    rel_auto
  have hnow := now_logs (E := E)
  unfold Visited.getLatest
  rw [Visited.getFetcher_eq]
  dsimp only
  match hd : mapGet v.data uri with
  | none => dsimp only; rel_auto
  | some d =>
    dsimp only
    by_cases hf : d.fetched = true
    · rw [if_pos hf]; exact Rel.pure _
    · rw [if_neg hf]
      have := hn' d hd (by simpa using hf)
      rel_auto

/-- Data from a local copy are obtained without any request. -/
theorem getLatest_local_logs {v : Visited} {uri : Str} {offline : Bool} {time : Time}
    (h : ∀ x etag r, ¬ (v.fetcherOf uri).Asks x etag r) :
    Rel (Logs E) (v.getLatest uri offline time) :=
  getLatest_logs (fun x r hr => absurd hr (h x _ r)) (fun _ r _ _ hr => absurd hr (h _ _ r))

end KSync
