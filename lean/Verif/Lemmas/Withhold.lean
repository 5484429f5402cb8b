import Verif.Spec.Withhold
import Verif.Lemmas.Gates
import Verif.Lemmas.Staged
import Verif.Lemmas.Progress
import Verif.Lemmas.Quiet

/-! # What the pre-validation refuses -/

set_option linter.unusedSectionVars false
set_option linter.unusedVariables false

namespace KSync

variable [Ext] {env : Env} {w w' : World}

theorem firstHttps_of {uris : List (Bool × Str)} {u : Str} (h : FirstHttps uris u) :
    firstHttps uris = some u := by
  obtain ⟨pre, post, rfl, h⟩ := h
  induction pre with
  | nil => rfl
  | cons x pre ih =>
    obtain ⟨b, y⟩ := x
    have hb : b = false := h (b, y) (List.mem_cons_self ..)
    subst hb
    exact ih (fun x hx => h x (List.mem_cons_of_mem _ hx))

theorem talParse_of {name : Str} {b : Bytes} {t : Tal} (h : TalOf b name t) :
    Tal.parse name b = .ok t := by
  obtain ⟨uris, u, h1, h2, h3, h4⟩ := h
  unfold Tal.parse
  rw [h1]
  dsimp only
  rw [firstHttps_of h2]
  obtain ⟨n, s, k⟩ := t
  dsimp only at h3 h4 ⊢
  rw [h3, h4]

theorem TalOf.unique {b : Bytes} {name : Str} {t t' : Tal} (h : TalOf b name t) (h' : TalOf b name t') :
    t = t' := by
  have := talParse_of h
  rw [talParse_of h'] at this
  cases this
  rfl

theorem TalsOf.unique {fs : FS} {files : List Str} {ts : List Tal} (h : TalsOf fs files ts) :
    ∀ {ts'}, TalsOf fs files ts' → ts = ts' := by
  induction h with
  | nil => intro ts' h; cases h; rfl
  | cons f b t files ts h1 h2 _ ih =>
    intro ts' h
    cases h with
    | cons _ b' t' _ ts' k1 k2 k3 =>
      rw [h1] at k1
      cases k1
      rw [h2.unique k2, ih k3]

theorem readTals_goes (hf : NoFaults env) {files : List Str} {tals : List Tal} {fs : FS}
    (h : TalsOf fs files tals) : ∀ w : World, w.cur = fs → Goes (readTals files) env w := by
  induction h with
  | nil => exact fun w _ => Goes.pure
  | cons f b t files ts h1 h2 _ ih =>
    intro w hw
    unfold readTals
    refine Goes.bind (readFile_goes hf (by rw [hw]; exact h1)) (fun b' w1 e1 => ?_)
    obtain ⟨e2, rfl, _⟩ := readFile_ok e1
    rw [hw, h1] at e2
    cases e2
    refine Goes.bind (Goes.lift (talParse_of h2)) (fun t' w2 e3 => ?_)
    rw [M.lift_ok_iff] at e3
    obtain ⟨_, rfl⟩ := e3
    exact Goes.bind (ih _ hw) (fun _ _ _ => Goes.pure)

/-- The validator can be had unless there is something wrong with a TAL file. -/
theorem chooseValidator_fails (hf : NoFaults env) {existing : Option Validator} {c : Config} {e : Err}
    {base : Str} (hb : httpsParent c.notificationUri = some base)
    (h : chooseValidator existing c env w = (.error e, w')) :
    ∀ tals, ¬ TalsOf w.cur c.talFiles tals := by
  intro tals ht
  unfold chooseValidator at h
  by_cases h0 : c.talFiles = []
  · rw [if_pos h0] at h; cases h
  · rw [if_neg h0] at h
    have g : Goes (createValidator c) env w := by
      unfold createValidator
      refine Goes.bind (readTals_goes hf ht w rfl) (fun ts w1 _ => ?_)
      rw [hb]
      exact Goes.bind (m := M.orThrow .noParent (some base)) ⟨_, _, rfl⟩ (fun _ _ _ => Goes.pure)
    obtain ⟨v, w1, h1⟩ := g
    rw [M.bind_of_ok h1] at h
    split at h <;> cases h

theorem initStaging_fails {v : Validator} {uri : Str} {e : Err}
    (h : v.initStaging uri env w = (.error e, w')) : Unavailable env w.cur v.repos false uri := by
  unfold Validator.initStaging at h
  rw [now_bind] at h
  match h1 : v.repos.getLatest uri false (env.clock w.tick) env { w with tick := w.tick + 1 } with
  | (x, w1) =>
    obtain ⟨r, v', rfl, _⟩ := getLatest_done h1
    rw [M.bind_of_ok h1] at h
    match r with
    | .ok d => cases h
    | .error e' => exact getLatest_fails (w := { w with tick := w.tick + 1 }) h1

/-! ## Trust anchors -/

theorem validateKids_fails {rec : Visited → ResCert → CaInfo → M (Report × Visited)}
    (hrec : ∀ v c i w e w', rec v c i env w = (.error e, w') → e = .overflow)
    (ks : List (ResCert × CaInfo)) : ∀ (v : Visited) (rep : Report) (w w' : World) (e : Err),
    validateKids rec v rep ks env w = (.error e, w') → e = .overflow := by
  induction ks with
  | nil => intro v rep w w' e h; cases h
  | cons k ks ih =>
    obtain ⟨c, i⟩ := k
    intro v rep w w' e h
    unfold validateKids at h
    match h1 : rec v c i env w with
    | (.error e', w1) =>
      rw [M.bind_of_error h1] at h
      cases h
      exact hrec _ _ _ _ _ _ h1
    | (.ok (r, v1), w1) =>
      rw [M.bind_of_ok h1] at h
      exact ih _ _ _ _ _ h

theorem validateTree_fails {offline : Bool} {time : Time} (depth : Nat) :
    ∀ (v : Visited) (c : ResCert) (i : CaInfo) (w : World) (e : Err) (w' : World),
    validateTree offline time depth v c i env w = (.error e, w') → e = .overflow := by
  induction depth with
  | zero => intro v c i w e w' h; cases h; rfl
  | succ depth ih =>
    intro v c i w e w' h
    unfold validateTree at h
    obtain ⟨ca, kids, v', w1, h1⟩ := checkCa_total v c i offline time env w
    rw [M.bind_of_ok h1] at h
    exact validateKids_fails ih _ _ _ _ _ _ h

theorem validateAt_served (hf : NoFaults env) {t : Tal} {time : Time} (h : t.Served env w.cur time) :
    ∃ c i w1, t.validateAt time env w = (.ok c, w1) ∧ CaInfo.ofCert c = some i := by
  obtain ⟨b, e, w1, h1, c, h2, h3, h4, h5⟩ := raw_goes hf h
  have hfetch : t.source.fetch none none none env w = (.ok (.data b e), w1) := by
    unfold FetchSource.fetch
    rw [M.bind_of_ok h1]
    rfl
  refine ⟨c, ?_⟩
  have hi : ∃ i, CaInfo.ofCert c = some i := by
    unfold CaInfo.ofCert
    match ha : c.siaCa, hm : c.siaMft with
    | none, _ => exact absurd ha h4
    | some _, none => exact absurd hm h5
    | some _, some _ => exact ⟨_, rfl⟩
  obtain ⟨i, hi⟩ := hi
  refine ⟨i, w1, ?_, hi⟩
  unfold Tal.validateAt
  rw [M.bind_of_ok hfetch]
  show (match Ext.validateTa b time with
    | none => M.throw .tal
    | some cert => if cert.key ≠ t.key then M.throw .tal else pure cert : M ResCert) env w1 = _
  rw [h2]
  dsimp only
  rw [if_neg (by rw [h3]; exact fun h => h rfl)]
  rfl

theorem validateTals_fails (hf : NoFaults env) {offline : Bool} {depth : Nat} {time : Time} {fs : FS}
    (tals : List Tal) (hs : ∀ t ∈ tals, t.Served env fs time) : ∀ (v : Visited) (rep : Report)
    (w w' : World) (e : Err), w.cur = fs →
    validateTals depth v rep offline time tals env w = (.error e, w') → e = .overflow := by
  induction tals with
  | nil => intro v rep w w' e _ h; cases h
  | cons t tals ih =>
    intro v rep w w' e hw h
    unfold validateTals at h
    obtain ⟨c, i, w1, h1, h2⟩ := validateAt_served hf (hw ▸ hs t (List.mem_cons_self ..))
    have h3 : validateTa depth v t offline time env w = validateTree offline time depth v c i env w1 := by
      unfold validateTa
      rw [M.bind_of_ok h1, h2]
    match h4 : validateTa depth v t offline time env w with
    | (.error e', w2) =>
      rw [M.bind_of_error h4] at h
      cases h
      rw [h3] at h4
      exact validateTree_fails _ _ _ _ _ _ _ h4
    | (.ok (r, v'), w2) =>
      rw [M.bind_of_ok h4] at h
      have hc : w2.cur = w.cur := by
        have := validateTa_same depth v t offline time env w
        rw [h4] at this
        exact this.cur
      exact ih (fun t ht => hs t (List.mem_cons_of_mem _ ht)) _ _ _ _ _ (hc.trans hw) h

theorem validate_fails (hf : NoFaults env) {v : Validator} {offline : Bool} {depth : Nat} {e : Err}
    (h : v.validate depth offline env w = (.error e, w')) :
    (∃ t ∈ v.tals, ¬ t.Served env w.cur (env.clock w.tick)) ∨ e = .overflow := by
  by_cases hs : ∀ t ∈ v.tals, t.Served env w.cur (env.clock w.tick)
  · right
    unfold Validator.validate at h
    rw [now_bind] at h
    match h1 : validateTals depth v.repos Report.zero offline (env.clock w.tick) v.tals env
        { w with tick := w.tick + 1 } with
    | (.error e', w1) =>
      rw [M.bind_of_error h1] at h
      cases h
      exact validateTals_fails hf v.tals hs _ _ { w with tick := w.tick + 1 } _ _ rfl h1
    | (.ok (r, v'), w1) =>
      rw [M.bind_of_ok h1] at h
      cases h
  · left
    exact Classical.byContradiction (fun hn => hs (fun t ht =>
      Classical.byContradiction (fun h' => hn ⟨t, ht, h'⟩)))

/-! ## The results -/

theorem verdict_fails {c : Config} {rep : Report} {e : Err} (ha : rep.Adds)
    (h : verdict c rep = .error e) : ¬ Cleared c rep.certs := by
  intro hc
  unfold verdict at h
  match hm : mapGet rep.repos c.notificationUri with
  | none =>
    rw [hm] at h
    dsimp only at h
    by_cases hr : c.talRejectInvalid = true
    · obtain ⟨⟨ca, h1, h2⟩, _⟩ := hc hr
      have := (ha.seen _).1 hm
      have h3 : ca ∈ rep.casOf c.notificationUri := List.mem_filter.2 ⟨h1, decide_eq_true h2⟩
      rw [this] at h3
      cases h3
    · rw [if_neg hr] at h; cases h
  | some r =>
    rw [hm] at h
    dsimp only at h
    by_cases hi : r.issues = []
    · rw [if_pos hi] at h; cases h
    · rw [if_neg hi] at h
      by_cases hr : c.talRejectInvalid = true
      · refine hi ?_
        rw [(ha.sums _ _ hm).issues, List.flatMap_eq_nil_iff]
        intro ca hca
        obtain ⟨h1, h2⟩ := List.mem_filter.1 hca
        exact (hc hr).2 ca h1 (of_decide_eq_true h2)
      · rw [if_neg hr] at h; cases h

/-! ## The staged repository -/

theorem staged_reliable {c : Config} {base name : Str} {n : Notif} {fs : FS} {rel : Str} {b : Bytes}
    {els : List (RsyncUri × Bytes)} (hu : NotifUri c base name)
    (hn : fs.file? (c.stagingDir ++ [name]) = some (Ext.writeNotif n)) (hrel : CleanRel rel)
    (hs : n.snapUri = base ++ rel) (hr : fs.file? (c.stagingDir ++ comps rel) = some b)
    (hb : Ext.sha b = n.snapHash) (hp : Ext.parseSnapshot b = some els) :
    (c.stagedFetcher base).Reliable env fs := by
  have hres : ∀ x, (c.stagedFetcher base).Locates (base ++ x) (.file (joinPath c.stagingDir x)) := by
    intro x
    rw [← Fetcher.locates_iff]
    unfold Config.stagedFetcher Fetcher.resolve FetchMap.source
    dsimp only
    rw [stripPrefix_append]
    rfl
  refine ⟨.file (joinPath c.stagingDir name), ?_, fun etag => ⟨Ext.writeNotif n, ?_, n, Ext.parse_write n,
    .file (joinPath c.stagingDir rel), ?_, b, ?_, hb, els, hp⟩⟩
  · show (c.stagedFetcher base).Locates c.notificationUri _
    rw [hu.eq]
    exact hres name
  · rw [joinPath_plain hu.plain hu.nonempty hu.notDot hu.notDotDot]
    exact FS.read_of_file hn
  · rw [hs]; exact hres rel
  · rw [joinPath_clean hrel]
    exact FS.read_of_file hr

/-- The pre-validation refuses only for one of the reasons. -/
theorem preValidate_refused {depth : Nat} {c : Config} {base name : Str} {fs : FS} {s0 : RrdpState}
    {st : StagedChanges} {w1 w2 w3 : World} {e : Err} (hc : RunConds c base name env fs)
    (ho : ∀ etag n, Offers c env fs etag n → OneHashPerPath base n) (h0 : No304 env)
    (hl : NoLinks fs c.stagingDir) (hf : NoFaults env)
    (hk : ∀ s v, Recorded c fs s → s.validator = some v → v.repos.Keyed)
    (h1 : loadState c env (World.start fs) = (.ok s0, w1))
    (h2 : s0.updateStaged c env w1 = (.ok (some st), w2))
    (h3 : s0.preValidate depth c env w2 = (.error e, w3)) :
    Frame (c.stagingDir <+: ·) fs w2.cur ∧ Refusable depth c base env fs w2.cur := by
  have hcur : w1.cur = fs := (loadState_ok h1).1.1
  have huse := loadState_inUse hc.uri h1
  have hsane := huse.sane hc.state
  obtain ⟨n0, etag, ds, w5, h9, h10, h11, h12, h13, h14⟩ := updateStaged_some h2
  rw [hcur] at h9
  have hgood := (hc.source _ _ h9).limited h10
  have hw5 : w5.cur.WF := by rw [h13.cur, hcur]; exact hc.wf
  have hnot := stage_notif hc.uri hsane hgood hw5 h14
  have hl5 : NoLinks w5.cur c.stagingDir := by rw [h13.cur, hcur]; exact hl
  obtain ⟨_, h15⟩ := stage_staged h0 hc.uri hsane hgood ((ho _ _ h9).limited h10) hl5 h14
  have e2 := updateStaged_within hc.uri hsane (w := w1) (env := env) (hcur ▸ hc.source)
  rw [h2] at e2
  have hfr := e2.frame (hcur ▸ hc.wf)
  rw [hcur] at hfr
  refine ⟨hfr, ?_⟩
  rcases preValidate_steps h3 with ⟨e', _, k1⟩ | ⟨o, w6, k1, k2⟩
  · exact .tals (chooseValidator_fails hf hc.uri.parent k1)
  · obtain ⟨k3, ⟨_, rfl⟩ | ⟨_, v, tals, base', rfl, k4, k5, k6, k7⟩⟩ := chooseValidator_ok k1
    · rcases k2 with ⟨_, k2, _⟩ | ⟨v, k2, _⟩ <;> cases k2
    · rw [hc.uri.parent] at k6
      cases k6
      have hw6 : w6.cur = w2.cur := by rw [k3]
      subst k5
      have hkey : v.repos.fetcherOf c.notificationUri = c.stagedFetcher base := by
        rw [← Visited.getFetcher_eq]
        unfold Visited.getFetcher
        rcases k7 with k7 | ⟨k7, u, k8⟩
        · rw [k7]
          dsimp only
          rw [mapGet_cons, if_pos rfl]
        · have hrec : Recorded c fs s0 := by
            rcases huse with h | ⟨_, rfl⟩
            · exact h
            · cases k7
          obtain ⟨q1, q2⟩ := hk s0 v hrec k7
          have hu : c.notificationUri = u := q2 _ k8
          rw [hu, mapGet_of_mem q1 k8]
      rcases k2 with ⟨k2, _⟩ | ⟨v', k2, ⟨e', _, k8⟩ | ⟨v1, w7, k8, k9⟩⟩
      · cases k2
      · cases k2
        have hun := (initStaging_fails k8).2
        rw [if_neg (by decide), hw6, hkey] at hun
        obtain ⟨b, hb1, hb2⟩ := h15 _ (List.mem_cons_self ..)
        have hsu := h12.snapUri
        rw [hsane.mappings] at hsu
        have hg := hgood (n0.snapUri, n0.snapHash) (List.mem_cons_self ..) st.snapshot.relPath hsu
        have hh : st.snapshot.hash = n0.snapHash := h12.snapHash
        dsimp only at hb1 hb2
        rw [hh] at hb2
        match hp : Ext.parseSnapshot b with
        | none => exact .snapshot _ n0 b h9 hb2 hp
        | some els =>
          exact absurd ⟨hf, staged_reliable hc.uri hnot hg.clean hsu hb1 hb2 hp⟩ hun
      · cases k2
        obtain ⟨k10, k11, k12, k13, d, k14, k15⟩ := initStaging_ok k8
        have hw7 : w7.cur = w2.cur := k10.cur.trans hw6
        rw [hw6] at k15
        have hrun : RunValidator c base env fs w2.cur v1 := by
          refine ⟨hfr, by rw [k11]; exact k4, v.repos, k12, ?_, k13, d, _, _, k14, k15⟩
          rcases k7 with k7 | ⟨k7, k8⟩
          · rw [k7]; exact .inl rfl
          · refine .inr ⟨s0, v, ?_, k7, rfl, k11.symm, k8⟩
            rcases huse with h | ⟨_, rfl⟩
            · exact h
            · cases k7
        rcases k9 with ⟨e', _, k9⟩ | ⟨rep, v2, k9, ⟨e', _, k16⟩ | ⟨k16, _⟩⟩
        · rcases validate_fails hf k9 with ⟨t, q1, q2⟩ | rfl
          · rw [hw7] at q2
            exact .anchor v.tals t _ k4 (k11 ▸ q1) q2
          · refine .deep v1 w7.tick hrun (fun rank hr => ?_)
            refine Classical.byContradiction (fun hn => ?_)
            refine validate_shallow (v := v1) (offline := c.offlineValidation) (depth := depth)
              (env := env) (w := w7) rank (by rw [hw7]; exact hr) (fun t ht ta hta => ?_) (by rw [k9])
            refine Nat.lt_of_not_le (fun hle => hn ⟨t, ht, ta, ?_, hle⟩)
            rw [← hw7]; exact hta
        · obtain ⟨_, _, q1, _, q2⟩ := validate_tree k9
          rw [hw7] at q2
          exact .results v1 w7.tick rep.certs hrun q2 (verdict_fails q1.adds k16)
        · cases k16

/-- Without `--tal-reject-invalid`, there is no reason to refuse a version if the TAL files can be read,
the trust anchors answer, the snapshot is one, and the stack is deep enough. -/
theorem not_refusable_without_reject {depth : Nat} {c : Config} {base : Str} {env : Env} {fs g : FS}
    {tals : List Tal} (hr : c.talRejectInvalid = false) (htals : TalsOf g c.talFiles tals)
    (hta : ∀ t ∈ tals, ∀ k, t.Served env g (env.clock k))
    (hsnap : ∀ etag n b, Offers c env fs etag n → Ext.sha b = n.snapHash → Ext.parseSnapshot b ≠ none)
    (hdeep : ∀ v k, RunValidator c base env fs g v → ∃ rank,
      RanksDescend env g (env.clock k) v rank ∧
      ∀ t ∈ v.tals, ∀ ta, TrustAnchor env g (env.clock k) t ta → rank ta < depth) :
    ¬ Refusable depth c base env fs g := by
  intro h
  cases h with
  | tals h => exact h _ htals
  | snapshot etag n b h hb hp => exact hsnap etag n b h hb hp
  | anchor tals' t k h ht hs =>
    rw [h.unique htals] at ht
    exact hs (hta t ht k)
  | deep v k h hd =>
    obtain ⟨rank, q1, q2⟩ := hdeep v k h
    obtain ⟨t, ht, ta, q3, q4⟩ := hd rank q1
    exact absurd (q2 t ht ta q3) (Nat.not_lt.2 q4)
  | results v k certs h hv hc' => exact hc' (fun hr' => by rw [hr] at hr'; cases hr')

end KSync
