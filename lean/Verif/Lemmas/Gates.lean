import Verif.Spec.RunValidation
import Verif.Lemmas.Prevalidate
import Verif.Lemmas.Staged
import Verif.Lemmas.Accepted

/-! # What stands between staging and publication -/

set_option linter.unusedSectionVars false
set_option linter.unusedSimpArgs false
set_option linter.unusedVariables false

namespace KSync

variable [Ext] {env : Env} {w w' : World}

theorem prepare_parts {depth : Nat} {c : Config} {s : RrdpState} {st : StagedChanges}
    (h : prepare depth c env w = (.ok (some (s, st)), w')) :
    ∃ s0 w1 w2 w3, loadState c env w = (.ok s0, w1) ∧
      s0.updateStaged c env w1 = (.ok (some st), w2) ∧
      s0.preValidate depth c env w2 = (.ok s, w3) ∧ scriptGate c env w3 = (.ok (), w') := by
  unfold prepare at h
  obtain ⟨s0, w1, h1, h2⟩ := M.bind_ok.1 h
  obtain ⟨staged, w2, h3, h4⟩ := M.bind_ok.1 h2
  cases staged with
  | none => dsimp only at h4; rw [M.pure_ok] at h4; cases h4.1
  | some st' =>
    dsimp only at h4
    obtain ⟨s', w3, h5, h6⟩ := M.bind_ok.1 h4
    obtain ⟨_, w4, h7, h8⟩ := M.bind_ok.1 h6
    rw [M.pure_ok] at h8
    obtain ⟨h8, rfl⟩ := h8
    cases h8
    exact ⟨s0, w1, w2, w3, h1, h3, h5, h7⟩

/-! ## The staged notification -/

theorem stage_notif {c : Config} {base name : Str} {s : RrdpState} {n : Notif} {etag : Option Str}
    {reset : Bool} {st : StagedChanges} (hu : NotifUri c base name) (hs : Sane c base name s)
    (hg : GoodNotif base name n) (hw : w.cur.WF)
    (h : s.stage c n etag reset env w = (.ok (some st), w')) :
    w'.cur.file? (c.stagingDir ++ [name]) = some (Ext.writeNotif n) := by
  obtain ⟨st', w1, w2, h1, h2, h3, h4, h5, h6, h7⟩ := stage_ok h
  have hb : s.mappings.baseUri = base := by rw [hs.mappings]
  have hp : c.stagingPath s.source.name = c.stagingDir ++ [name] := by
    rw [hs.fileName]
    exact joinPath_plain hu.plain hu.nonempty hu.notDot hu.notDotDot
  let E : Eff := ⟨fun q => q ≠ c.stagingDir ++ [name], fun _ => True, fun _ => True,
    fun _ => True, fun _ => True, fun _ => True⟩
  have hne : ∀ r ∈ n.refs, ∀ rel, s.mappings.relative r.1 = .ok rel → E.files (c.stagingPath rel) := by
    intro r hr rel hrel
    rw [relative_ok, hb] at hrel
    have hgr := hg r hr rel hrel
    show c.stagingPath rel ≠ _
    rw [show c.stagingPath rel = c.stagingDir ++ comps rel from joinPath_clean hgr.clean]
    intro he
    have := List.append_cancel_left he
    exact hgr.notName (by rw [this]; rfl)
  have hw1 : w1.cur.WF := by
    have := (writeBuf_in (E := anyEff) trivial (Ext.writeNotif n) env w :
      Within _ w (writeBuf (c.stagingPath s.source.name) (Ext.writeNotif n) env w).2).wf hw
    rw [h5] at this
    exact this
  have e1 := snapshotStage_in (E := E) (s := s) (n := n) (f := c.fetcher) (c := c) (fun _ _ => trivial)
    (fun rel hrel => hne (n.snapUri, n.snapHash) (by simp [Notif.refs]) rel hrel) env w1
  rw [h6] at e1
  have e2 := deltasStage_in (E := E) (s := s) (f := c.fetcher) (c := c) (reset := reset) (ds := n.deltas)
    (fun _ _ _ _ => trivial) (fun d hd rel hrel => hne (d.uri, d.hash) (by
      unfold Notif.refs
      exact List.mem_cons_of_mem _ (List.mem_map.2 ⟨d, hd, rfl⟩)) rel hrel) env w2
  rw [h7] at e2
  have hf : Frame E.files w1.cur w'.cur := (Tr.trans e1 e2 : Within E w1 w').frame hw1
  have h8 := writeBuf_file h5
  rw [hp] at h8
  rw [FS.file?_of_leaf (hf (c.stagingDir ++ [name]) (fun h => h rfl))]
  exact h8

/-! ## The validation -/

theorem Judged.mono {D D' : Str → List (Str × Bytes) → Prop} {N N' : Str → Prop} {issuer : ResCert}
    {info : CaInfo} {time : Time} {ca : ValidatedCa} {kids : List (ResCert × CaInfo)}
    (h : Judged env D N issuer info time ca kids) (hD : ∀ u o, D u o → D' u o) (hN : ∀ u, N u → N' u) :
    Judged env D' N' issuer info time ca kids := by
  cases h with
  | noRrdp h hr => exact .noRrdp h hr
  | noData u h hn hr => exact .noData u h (hN u hn) hr
  | disordered u objs h hd hdis hr => exact .disordered u objs h (hD _ _ hd) hdis hr
  | examined u objs content crlUri crl h hd he => exact .examined u objs content crlUri crl h (hD _ _ hd) he

mutual
theorem Walked.mono {T T' : ResCert → CaInfo → ValidatedCa → List (ResCert × CaInfo) → Prop}
    (hT : ∀ c i ca kids, T c i ca kids → T' c i ca kids) {c : ResCert} {i : CaInfo}
    {l : List ValidatedCa} (h : Walked T c i l) : Walked T' c i l :=
  match h with
  | .node c i ca kids rest h1 h2 => .node c i ca kids rest (hT _ _ _ _ h1) (WalkedAll.mono hT h2)
theorem WalkedAll.mono {T T' : ResCert → CaInfo → ValidatedCa → List (ResCert × CaInfo) → Prop}
    (hT : ∀ c i ca kids, T c i ca kids → T' c i ca kids) {ks : List (ResCert × CaInfo)}
    {l : List ValidatedCa} (h : WalkedAll T ks l) : WalkedAll T' ks l :=
  match h with
  | .nil => .nil
  | .cons c i l l' ks h1 h2 => .cons c i l l' ks (Walked.mono hT h1) (WalkedAll.mono hT h2)
end

theorem WalkedTals.mono {V V' : Tal → ResCert → Prop}
    {T T' : ResCert → CaInfo → ValidatedCa → List (ResCert × CaInfo) → Prop}
    (hV : ∀ t c, V t c → V' t c) (hT : ∀ c i ca kids, T c i ca kids → T' c i ca kids)
    {ts : List Tal} {l : List ValidatedCa} (h : WalkedTals V T ts l) : WalkedTals V' T' ts l := by
  induction h with
  | nil => exact .nil
  | cons t c i ts l l' h1 h2 h3 _ ih => exact .cons t c i ts l l' (hV _ _ h1) h2 (h3.mono hT) ih

theorem verdict_ok {c : Config} {rep : Report} (hr : c.talRejectInvalid = true) (ha : rep.Adds)
    (h : verdict c rep = .ok ()) :
    rep.casOf c.notificationUri ≠ [] ∧ ∀ ca ∈ rep.casOf c.notificationUri, ca.issues = [] := by
  unfold verdict at h
  match hm : mapGet rep.repos c.notificationUri with
  | none => rw [hm] at h; dsimp only at h; rw [if_pos hr] at h; cases h
  | some r =>
    rw [hm] at h
    dsimp only at h
    by_cases hi : r.issues = []
    · refine ⟨fun h0 => ?_, fun ca hca => ?_⟩
      · rw [(ha.seen _).2 h0] at hm; cases hm
      · have := (ha.sums _ _ hm).issues
        rw [hi] at this
        exact List.flatMap_eq_nil_iff.1 this.symm ca hca
    · rw [if_neg hi, if_pos hr] at h; cases h

/-- Everything known about the validation when the publication starts. -/
structure ValidatedAt (c : Config) (base name : Str) (env : Env) (w : World) (s0 : RrdpState)
    (n : Notif) (v v1 : Validator) (g : World) (k : Nat) (rep : Report) : Prop where
  frame : Frame (c.stagingDir <+: ·) w.cur g.cur
  notif : g.cur.file? (c.stagingDir ++ [name]) = some (Ext.writeNotif n)
  tals : TalsOf g.cur c.talFiles v.tals
  sameTals : v1.tals = v.tals
  sameFetchers : v1.repos.fetchers = v.repos.fetchers
  chosen : v = ⟨v.tals, [(c.notificationUri, c.stagedFetcher base)], []⟩ ∨
    s0.validator = some v ∧ ∃ u, (u, c.stagedFetcher base) ∈ v.repos.fetchers
  others : ∀ u, u ≠ c.notificationUri → mapGet v1.repos.data u = mapGet v.repos.data u
  latest : ∃ d i j, mapGet v1.repos.data c.notificationUri = some d ∧
    Latest env g.cur v.repos c.notificationUri false (env.clock i) j d
  adds : rep.Adds
  walked : WalkedTals (TrustAnchor env g.cur (env.clock k))
      (fun c' i ca kids => Judged env (Usable env g.cur v1.repos)
        (Unavailable env g.cur v1.repos c.offlineValidation) c' i (env.clock k) ca kids)
      v1.tals rep.certs
  verdict : verdict c rep = .ok ()

/-- ... and the data kept: what had been brought up to date when the validation started is still there. -/
theorem prepare_validated' {depth : Nat} {c : Config} {base name : Str} {s : RrdpState}
    {st : StagedChanges} (hc : RunConds c base name env w.cur) (ht : c.talFiles ≠ [])
    (h : prepare depth c env w = (.ok (some (s, st)), w')) :
    ∃ n s0 v v1 g k rep, AtPublish depth c base name env w s st w' n ∧ InUse c base name w.cur s0 ∧
      (∃ v', s = { s0 with validator := v' }) ∧
      ValidatedAt c base name env w s0 n v v1 g k rep ∧
      ∀ v', s.validator = some v' → ∀ u d, mapGet v1.repos.data u = some d → d.fetched = true →
        mapGet v'.repos.data u = some d := by
  obtain ⟨s0, w1, w2, w3, h1, h2, h3, h4⟩ := prepare_parts h
  have hcur : w1.cur = w.cur := (loadState_ok h1).1.1
  have huse := loadState_inUse hc.uri h1
  have hsane := huse.sane hc.state
  obtain ⟨n0, etag, ds, w5, h9, h10, h11, h12, h13, h14⟩ := updateStaged_some h2
  rw [hcur] at h9
  have hw5 : w5.cur.WF := by rw [h13.cur, hcur]; exact hc.wf
  have hnot := stage_notif hc.uri hsane ((hc.source _ _ h9).limited h10) hw5 h14
  have e2 := updateStaged_within hc.uri hsane (w := w1) (env := env) (hcur ▸ hc.source)
  rw [h2] at e2
  have hfr := e2.frame (hcur ▸ hc.wf)
  rw [hcur] at hfr
  obtain ⟨v', hv'⟩ := preValidate_ok h3
  rcases preValidate_steps h3 with ⟨e, he, _⟩ | ⟨o, w6, h20, h21⟩
  · cases he
  · obtain ⟨h22, ⟨h23, _⟩ | ⟨_, v, tals, base', rfl, h24, h25, h26, h27⟩⟩ := chooseValidator_ok h20
    · exact absurd h23 ht
    · rw [hc.uri.parent] at h26
      cases h26
      rcases h21 with ⟨h21, _⟩ | ⟨vv, hvv, ⟨e, he, _⟩ | ⟨v1, w7, h28, ⟨e, he, _⟩ | ⟨rep, v2, h29, ⟨e, he, _⟩ | ⟨hres, h30⟩⟩⟩⟩
      · cases h21
      · cases he
      · cases he
      · cases he
      · cases hvv
        obtain ⟨h31, h32, h33, hoth, d, h34, h35⟩ := initStaging_ok h28
        have hw6 : w6.cur = w2.cur := by rw [h22]
        obtain ⟨_, _, h36, _, h37⟩ := validate_tree h29
        rw [h31.cur, hw6] at h37
        rw [hw6] at h35
        subst h25
        have hp : Prepared depth c base name env w w' s st { n0 with deltas := ds } :=
          ⟨⟨s0, huse, ⟨v', hv'⟩, n0, h9, ds, h10, rfl⟩, by rw [hv']; exact h11, by
            obtain ⟨q1, q2, q3, q4, q5, q6⟩ := h12
            rw [hv']
            exact ⟨q1, q2, q3, q4, q5, q6⟩⟩
        have hs := hp.sane hc.state
        have hst := hp.staged
        rw [show s.mappings.baseUri = base by rw [hs.mappings]] at hst
        obtain ⟨g1, g2⟩ := hst.good (hp.good hc.source)
        have hpw := prepare_within (depth := depth) hc.uri hc.state hc.source
        rw [h] at hpw
        exact ⟨_, s0, v, v1, w2, w7.tick, rep,
          ⟨h, hp, hs, hst, hp.good hc.source, g1, g2, hpw.wf hc.wf, hpw⟩, huse, ⟨v', hv'⟩,
          ⟨hfr, hnot, h24, h32, h33, h27, hoth, ⟨d, _, _, h34, h35⟩, h36.adds, h37, h30⟩,
          fun v'' hv'' u d' hd hf => by
            have := (validate_walked (J := ValInv env w7.cur v1.repos c.offlineValidation)
              (fun time ht => by rw [ht]; exact stepOk_judged w7.cur v1.repos _ (env.clock w7.tick))
              (fun time ht => by rw [ht]; exact taOk_anchor w7.cur v1.repos _ (env.clock w7.tick))
              (show ValInv env w7.cur v1.repos c.offlineValidation { w7 with tick := w7.tick + 1 } v1.repos
                from .start _ _ _ rfl) h29).1.fetched u d' hd hf
            cases hres
            cases hv''
            exact this⟩

theorem prepare_validated {depth : Nat} {c : Config} {base name : Str} {s : RrdpState}
    {st : StagedChanges} (hc : RunConds c base name env w.cur) (ht : c.talFiles ≠ [])
    (h : prepare depth c env w = (.ok (some (s, st)), w')) :
    ∃ n s0 v v1 g k rep, AtPublish depth c base name env w s st w' n ∧ InUse c base name w.cur s0 ∧
      (∃ v', s = { s0 with validator := v' }) ∧
      ValidatedAt c base name env w s0 n v v1 g k rep := by
  obtain ⟨n, s0, v, v1, g, k, rep, h1, h2, h3, h4, _⟩ := prepare_validated' hc ht h
  exact ⟨n, s0, v, v1, g, k, rep, h1, h2, h3, h4⟩

/-! ## What is validated -/

theorem staged_finds {c : Config} {base name : Str} {n n' : Notif} {fs : FS}
    (hu : NotifUri c base name)
    (hn : fs.file? (c.stagingDir ++ [name]) = some (Ext.writeNotif n))
    (h : (c.stagedFetcher base).Finds env fs n') : n' = n := by
  obtain ⟨src, etag, b, e, h1, h2, h3⟩ := h
  have h1 := Fetcher.locates_iff.2 h1
  unfold Config.stagedFetcher Fetcher.resolve FetchMap.source at h1
  dsimp only at h1
  rw [hu.eq, stripPrefix_append] at h1
  dsimp only at h1
  cases h1
  have h4 : fs.read (joinPath c.stagingDir name) = some b := h2.1
  rw [joinPath_plain hu.plain hu.nonempty hu.notDot hu.notDotDot, FS.read_of_file hn] at h4
  cases h4
  rw [Ext.parse_write] at h3
  cases h3
  rfl

theorem ValidatedAt.fetcher {c : Config} {base name : Str} {s0 : RrdpState} {n : Notif}
    {v v1 : Validator} {g : World} {k : Nat} {rep : Report}
    (h : ValidatedAt c base name env w s0 n v v1 g k rep)
    (hk : ∀ v, s0.validator = some v → v.repos.Keyed) :
    v.repos.fetcherOf c.notificationUri = c.stagedFetcher base := by
  rw [← Visited.getFetcher_eq]
  unfold Visited.getFetcher
  rcases h.chosen with h6 | ⟨h6, u, h7⟩
  · rw [h6]
    dsimp only
    rw [mapGet_cons, if_pos rfl]
  · obtain ⟨k1, k2⟩ := hk v h6
    have hu : c.notificationUri = u := k2 _ h7
    rw [hu, mapGet_of_mem k1 h7]

theorem ValidatedAt.runValidator {c : Config} {base name : Str} {s0 : RrdpState} {n : Notif}
    {v v1 : Validator} {g : World} {k : Nat} {rep : Report}
    (h : ValidatedAt c base name env w s0 n v v1 g k rep) (hi : InUse c base name w.cur s0) :
    RunValidator c base env w.cur g.cur v1 := by
  refine ⟨h.frame, by rw [h.sameTals]; exact h.tals, v.repos, h.sameFetchers, ?_, h.others, h.latest⟩
  rcases h.chosen with h6 | ⟨h6, h7⟩
  · rw [h6]; exact .inl rfl
  · refine .inr ⟨s0, v, ?_, h6, rfl, h.sameTals.symm, h7⟩
    rcases hi with hi | ⟨_, rfl⟩
    · exact hi
    · cases h6

theorem ValidatedAt.cleared {c : Config} {base name : Str} {s0 : RrdpState} {n : Notif}
    {v v1 : Validator} {g : World} {k : Nat} {rep : Report}
    (h : ValidatedAt c base name env w s0 n v v1 g k rep) : Cleared c rep.certs := by
  intro hr
  obtain ⟨h7, h8⟩ := verdict_ok hr h.adds h.verdict
  refine ⟨?_, ?_⟩
  · obtain ⟨ca, hca⟩ := List.exists_mem_of_ne_nil _ h7
    obtain ⟨k1, k2⟩ := List.mem_filter.1 hca
    exact ⟨ca, k1, of_decide_eq_true k2⟩
  · intro ca k1 k2
    exact h8 ca (List.mem_filter.2 ⟨k1, decide_eq_true k2⟩)

/-- The data used for the repository to be published, when those kept are of an earlier version and old
enough. -/
theorem ValidatedAt.kept {c : Config} {base name : Str} {s0 : RrdpState} {n : Notif}
    {v v1 : Validator} {g : World} {k : Nat} {rep : Report} (hu : NotifUri c base name)
    (h : ValidatedAt c base name env w s0 n v v1 g k rep)
    (hk : ∀ v, s0.validator = some v → v.repos.Keyed)
    (hold : ∀ v0 d0, s0.validator = some v0 → mapGet v0.repos.data c.notificationUri = some d0 →
      d0.fetched = false ∧ (∀ k, d0.lastFetch + 3600 ≤ env.clock k) ∧
      (d0.session = n.session → d0.serial ≤ n.serial))
    (hup : ∀ x ∈ n.deltas, x.serial ≤ n.serial) (h64 : ∀ x ∈ n.deltas, x.serial < 2 ^ 64)
    (hlast : n.deltas ≠ [] → ∃ x ∈ n.deltas, x.serial = n.serial) :
    ∃ d, mapGet v1.repos.data c.notificationUri = some d ∧ d.fetched = true ∧
      d.session = n.session ∧ d.serial = n.serial ∧
      ((∃ i, d.lastFetch = env.clock i) ∨ ∃ v0 d0, s0.validator = some v0 ∧
        mapGet v0.repos.data c.notificationUri = some d0 ∧ d.lastFetch = d0.lastFetch) ∧
      ∀ content : Uuid → Nat → Objects, Truthful content n →
        (∀ v0 d0, s0.validator = some v0 → mapGet v0.repos.data c.notificationUri = some d0 →
          d0.Genuine content) → d.Genuine content := by
  have hf := h.fetcher hk
  have hd0 : ∀ d0, mapGet v.repos.data c.notificationUri = some d0 → ∃ v0, s0.validator = some v0 ∧
      mapGet v0.repos.data c.notificationUri = some d0 := by
    intro d0 hd
    rcases h.chosen with h6 | ⟨h6, _⟩
    · rw [h6] at hd; cases hd
    · exact ⟨v, h6, hd⟩
  obtain ⟨d, i, j, h1, h2⟩ := h.latest
  refine ⟨d, h1, ?_⟩
  cases h2 with
  | cached d0 h0 why same =>
    exfalso
    obtain ⟨v0, hv0, hd⟩ := hd0 d0 h0
    obtain ⟨h3, h4, _⟩ := hold v0 d0 hv0 hd
    rcases why with h5 | h5 | h5
    · rw [h3] at h5; cases h5
    · cases h5
    · exact absurd (h4 j) (Int.not_le.2 (by
        have h5 : env.clock j - 3600 < d0.lastFetch := h5
        exact Int.lt_add_of_sub_right_lt h5))
  | current d0 h0 hoff why same =>
    subst same
    obtain ⟨v0, hv0, hd⟩ := hd0 d0 h0
    rcases why with ⟨src, u, m, t, h3, h4, _⟩ | ⟨n', h3, h4, h5⟩
    · subst h4
      rw [hf] at h3
      have h3 := Fetcher.locates_iff.2 h3
      unfold Config.stagedFetcher Fetcher.resolve FetchMap.source at h3
      dsimp only at h3
      split at h3 <;> cases h3
    · rw [hf] at h3
      have := staged_finds hu h.notif h3
      subst this
      exact ⟨rfl, h4.symm, h5.symm, Or.inr ⟨v0, d0, hv0, hd, rfl⟩, fun content ht hg => hg v0 d0 hv0 hd⟩
  | snapshot n' hn hoff from' _ =>
    rw [hf] at hn
    have := staged_finds hu h.notif hn
    subst this
    exact ⟨from'.fetched, from'.session, from'.serial, Or.inl ⟨i, from'.time⟩,
      fun content ht hg => from'.genuine ht⟩
  | deltas n' hn hoff d0 h0 session session' marked nonempty gapless differs upTo serial applied genuine _ _ =>
    rw [hf] at hn
    have := staged_finds hu h.notif hn
    subst this
    obtain ⟨v0, hv0, hd⟩ := hd0 d0 h0
    have hser : d.serial = n'.serial := by
      obtain ⟨y, hy, hy'⟩ := hlast nonempty
      have h5 := (hold v0 d0 hv0 hd).2.2 session.symm
      have h6 := upTo (by have := h64 y hy; omega) h64 y hy
      rcases serial with h7 | ⟨z, hz, h7⟩
      · have := (hold v0 d0 hv0 hd).2.2 session.symm
        omega
      · have := hup z hz
        omega
    exact ⟨marked.2, session', hser, Or.inl ⟨i, marked.1⟩,
      fun content ht hg => genuine content ht (hg v0 d0 hv0 hd)⟩

theorem ValidatedAt.content {c : Config} {base name : Str} {s0 : RrdpState} {n : Notif}
    {v v1 : Validator} {g : World} {k : Nat} {rep : Report} (hu : NotifUri c base name)
    (h : ValidatedAt c base name env w s0 n v v1 g k rep)
    (hk : ∀ v, s0.validator = some v → v.repos.Keyed)
    (hold : ∀ v0 d0, s0.validator = some v0 → mapGet v0.repos.data c.notificationUri = some d0 →
      d0.fetched = false ∧ (∀ k, d0.lastFetch + 3600 ≤ env.clock k) ∧
      (d0.session = n.session → d0.serial ≤ n.serial))
    (hup : ∀ x ∈ n.deltas, x.serial ≤ n.serial) (h64 : ∀ x ∈ n.deltas, x.serial < 2 ^ 64)
    (hlast : n.deltas ≠ [] → ∃ x ∈ n.deltas, x.serial = n.serial) :
    ∃ d, mapGet v1.repos.data c.notificationUri = some d ∧ d.fetched = true ∧
      ∀ content : Uuid → Nat → Objects, Truthful content n →
        (∀ v0 d0, s0.validator = some v0 → mapGet v0.repos.data c.notificationUri = some d0 →
          d0.Genuine content) → ∀ x, mapGet d.objects x = content n.session n.serial x := by
  obtain ⟨d, h1, h2, h3, h4, _, h5⟩ := h.kept hu hk hold hup h64 hlast
  refine ⟨d, h1, h2, fun content ht hg x => ?_⟩
  rw [h5 content ht hg x, h3, h4]

theorem ValidatedAt.objects {c : Config} {base name : Str} {s0 : RrdpState} {n : Notif}
    {v v1 : Validator} {g : World} {k : Nat} {rep : Report} {d : RepoData}
    (h : ValidatedAt c base name env w s0 n v v1 g k rep)
    (hd : mapGet v1.repos.data c.notificationUri = some d) (hf : d.fetched = true) :
    WalkedTals (TrustAnchor env g.cur (env.clock k))
      (fun c' i ca kids => Judged env
        (fun u objs => Usable env g.cur v1.repos u objs ∧ (u = c.notificationUri → objs = d.objects))
        (fun u => Unavailable env g.cur v1.repos c.offlineValidation u ∧ u ≠ c.notificationUri)
        c' i (env.clock k) ca kids)
      v1.tals rep.certs := by
  refine h.walked.mono (fun _ _ h => h) (fun c' i ca kids hj => hj.mono (fun u objs hu => ⟨hu, ?_⟩)
    (fun u hu => ⟨hu, ?_⟩))
  · rintro rfl
    exact hu.fetched d hd hf
  · rintro rfl
    have := hu.1 d hd
    rw [hf] at this
    cases this

end KSync
