import Verif.Lemmas.Requests
import Verif.Lemmas.Success
import Verif.Lemmas.Outcome
import Verif.Spec.Requests

/-! # Which requests the staging of one version makes, and how often -/

set_option linter.unusedSectionVars false
set_option linter.unusedSimpArgs false
set_option linter.unusedVariables false

namespace KSync

variable [Ext] {env : Env} {w : World}

theorem Within.reqs_eq {E : Eff} {w w' : World} (hE : ∀ r, ¬ E.reqs r) (h : Within E w w') :
    w'.reqs = w.reqs :=
  (h.logs.reqs.mono (fun r hr => hE r hr)).eq_of_false

theorem bind_reqs {m : M α} {f : α → M β} (h : ∀ a w1, (f a env w1).2.reqs = w1.reqs) :
    ((m >>= f) env w).2.reqs = (m env w).2.reqs := by
  rcases M.bind_cases m f env w with ⟨e, w1, h1, h2⟩ | ⟨a, w1, h1, h2⟩
  · rw [h2, h1]
  · rw [h2, h1, h]

theorem writeBuf_reqs (p : Path) (b : Bytes) : (writeBuf p b env w).2.reqs = w.reqs :=
  (writeBuf_in (E := reqEff (fun _ => False)) (p := p) trivial b env w).reqs_eq (fun _ h => h)

theorem createPathForFile_reqs (p : Path) : (createPathForFile p env w).2.reqs = w.reqs :=
  (createPathForFile_in (E := reqEff (fun _ => False)) (p := p) ⟨p, trivial, List.prefix_refl _⟩ env w).reqs_eq
    (fun _ h => h)

theorem fetch_log (src : FetchSource) (hash : Option Hash) (etag : Option Str)
    (t : Option Path) :
    (src.fetch hash etag t env w).2.reqs = w.reqs ∨
      ∃ r, src.Asks etag r ∧ (src.fetch hash etag t env w).2.reqs = r :: w.reqs := by
  have key : (src.fetch hash etag t env w).2.reqs = (src.raw etag env w).2.reqs := by
    unfold FetchSource.fetch
    refine bind_reqs (fun resp w1 => ?_)
    have hs : ∀ t b, ((writeBuf t b >>= fun _ => (pure .saved : M FetchResponse)) env w1).2.reqs =
        w1.reqs := fun t b => by
      rw [bind_reqs (fun _ _ => rfl), writeBuf_reqs]
    cases resp with
    | saved => rfl
    | unmodified => rfl
    | data b e =>
      cases hash with
      | none => cases t with
        | none => rfl
        | some t => exact hs t b
      | some h =>
        dsimp only
        by_cases hb : Ext.sha b ≠ h
        · rw [if_pos hb]; rfl
        · rw [if_neg hb]
          cases t with
          | none => rfl
          | some t => exact hs t b
  rw [key]
  exact raw_reqs src etag

/-- What is known of files that need not be fetched: they are there. -/
def KeptAt (K : Path → Hash → Prop) (env : Env) (f : FS) : Prop :=
  ∀ p h, K p h → NoFaults env ∧ FileHas f p h

/-- Retrieving a file makes one request at most, and none for a file which is there. -/
theorem retrieve_log {K : Path → Hash → Prop} (hK : KeptAt K env w.cur) (f : Fetcher) (uri : Str)
    (hash : Hash) (target : Path) (hs : ∀ h, K target h → h = hash ∧ endsInName uri = true) :
    KeptAt K env (f.retrieve uri hash target env w).2.cur ∧
    ((f.retrieve uri hash target env w).2.reqs = w.reqs ∨
      ∃ r, f.Asks uri none r ∧ ¬ K target hash ∧
        (f.retrieve uri hash target env w).2.reqs = r :: w.reqs) := by
  have htf := (retrieve_toFile (f := f) (uri := uri) (hash := hash) (target := target) env w).toFile
  have hhit : K target hash → (f.retrieve uri hash target env w).2.cur = w.cur ∧
      (f.retrieve uri hash target env w).2.reqs = w.reqs := by
    intro hk
    obtain ⟨hnf, b, hb, hsha⟩ := hK _ _ hk
    unfold Fetcher.retrieve Fetcher.retrieveTo
    rw [if_pos (hs _ hk).2, attempt_bind]
    rw [readFile_run_ok (FS.read_of_file hb) (hnf _)]
    dsimp only
    rw [if_neg (by simp [hsha])]
    exact ⟨rfl, rfl⟩
  constructor
  · intro p h hk
    refine ⟨(hK p h hk).1, ?_⟩
    by_cases hp : p = target
    · subst hp
      rw [(hhit ((hs h hk).1 ▸ hk)).1]
      exact (hK p h hk).2
    · exact (hK p h hk).2.of_leaf (htf.1 p hp)
  · by_cases hk : K target hash
    · exact Or.inl (hhit hk).2
    · have hd : ∀ w1, ((M.lift (f.resolve uri) >>= fun src =>
          src.fetch (some hash) none (some target) >>= fun _ => (pure () : M Unit)) env w1).2.reqs =
            w1.reqs ∨ ∃ r, f.Asks uri none r ∧ ((M.lift (f.resolve uri) >>= fun src =>
          src.fetch (some hash) none (some target) >>= fun _ => (pure () : M Unit)) env w1).2.reqs =
            r :: w1.reqs := by
        intro w1
        match hr : f.resolve uri with
        | .error e => exact Or.inl rfl
        | .ok src =>
          rw [M.bind_of_ok (a := src) (w1 := w1) rfl, bind_reqs (fun _ _ => rfl)]
          rcases fetch_log (env := env) (w := w1) src (some hash) none (some target) with h | ⟨r, h1, h2⟩
          · exact Or.inl h
          · exact Or.inr ⟨r, ⟨src, hr, h1⟩, h2⟩
      unfold Fetcher.retrieve
      by_cases hen : endsInName uri = true
      case neg =>
        rw [if_neg hen]
        unfold Fetcher.retrieveNowhere
        match hr : f.resolve uri with
        | .error e => exact Or.inl rfl
        | .ok src =>
          rw [M.bind_of_ok (a := src) (w1 := w) rfl, bind_reqs (fun a w1 => by
            cases a with
            | data b e =>
              show (((createPathForFile target >>= fun _ => M.throw .io) : M Unit) env w1).2.reqs = _
              rw [bind_reqs (fun _ _ => rfl)]
              exact createPathForFile_reqs target
            | saved => rfl
            | unmodified => rfl)]
          rcases fetch_log (env := env) (w := w) src (some hash) none none with h | ⟨r, h1, h2⟩
          · exact Or.inl h
          · exact Or.inr ⟨r, ⟨src, hr, h1⟩, hk, h2⟩
      rw [if_pos hen]
      unfold Fetcher.retrieveTo
      rw [attempt_bind]
      have hw : (readFile target env w).2.reqs = w.reqs := by rw [readFile_world]
      rw [← hw]
      generalize readFile target env w = x
      obtain ⟨r, w1⟩ := x
      dsimp only
      have hd' : _ ∨ _ := hd w1
      rcases r with e | b
      · rcases hd' with h | ⟨r, h1, h2⟩
        · exact Or.inl h
        · exact Or.inr ⟨r, h1, hk, h2⟩
      · dsimp only
        by_cases hb : Ext.sha b ≠ hash
        · rw [if_pos hb]
          rcases hd' with h | ⟨r, h1, h2⟩
          · exact Or.inl h
          · exact Or.inr ⟨r, h1, hk, h2⟩
        · rw [if_neg hb]; exact Or.inl rfl

/-- The requests for some of the deltas `ds`, in their order, none of them for a file in `K`. -/
structure DeltaReqs (K : Path → Hash → Prop) (s : RrdpState) (reset : Bool) (f : Fetcher)
    (c : Config) (ds : List DeltaInfo) (rs : List (DeltaInfo × Req)) : Prop where
  sub : (rs.map (·.1)).Sublist ds
  asks : ∀ p ∈ rs, f.Asks p.1.uri none p.2
  fresh : ∀ p ∈ rs, s.deltaIsNew reset p.1.serial = true
  missing : ∀ p ∈ rs, ∃ rel, p.1.uri = s.mappings.baseUri ++ rel ∧ ¬ K (c.stagingPath rel) p.1.hash

theorem DeltaReqs.nil {K : Path → Hash → Prop} {s : RrdpState} {reset : Bool} {f : Fetcher}
    {c : Config} {ds : List DeltaInfo} : DeltaReqs K s reset f c ds [] :=
  ⟨by simp, by simp, by simp, by simp⟩

theorem DeltaReqs.skip {K : Path → Hash → Prop} {s : RrdpState} {reset : Bool} {f : Fetcher}
    {c : Config} {d : DeltaInfo} {ds : List DeltaInfo} {rs : List (DeltaInfo × Req)}
    (h : DeltaReqs K s reset f c ds rs) : DeltaReqs K s reset f c (d :: ds) rs :=
  ⟨h.sub.cons _, h.asks, h.fresh, h.missing⟩

theorem DeltaReqs.cons {K : Path → Hash → Prop} {s : RrdpState} {reset : Bool} {f : Fetcher}
    {c : Config} {d : DeltaInfo} {ds : List DeltaInfo} {rs : List (DeltaInfo × Req)} {r : Req}
    {rel : Str} (h1 : f.Asks d.uri none r) (h2 : s.deltaIsNew reset d.serial = true)
    (h3 : d.uri = s.mappings.baseUri ++ rel) (h4 : ¬ K (c.stagingPath rel) d.hash)
    (h : DeltaReqs K s reset f c ds rs) : DeltaReqs K s reset f c (d :: ds) ((d, r) :: rs) := by
  refine ⟨by simpa using h.sub, ?_, ?_, ?_⟩
  all_goals
    intro p hp
    rcases List.mem_cons.1 hp with rfl | hp
  · exact h1
  · exact h.asks p hp
  · exact h2
  · exact h.fresh p hp
  · exact ⟨rel, h3, h4⟩
  · exact h.missing p hp

theorem deltasStage_log {K : Path → Hash → Prop} {s : RrdpState} {reset : Bool} {f : Fetcher}
    {c : Config} {ds : List DeltaInfo} : ∀ {w : World}, KeptAt K env w.cur →
    (∀ d ∈ ds, ∀ rel, d.uri = s.mappings.baseUri ++ rel →
      ∀ h, K (c.stagingPath rel) h → h = d.hash ∧ endsInName d.uri = true) →
    ∃ rs, DeltaReqs K s reset f c ds rs ∧
      (s.deltasStage reset f c ds env w).2.reqs = (rs.map (·.2)).reverse ++ w.reqs := by
  induction ds with
  | nil => intro w _ _; exact ⟨[], .nil, rfl⟩
  | cons d ds ih =>
    intro w hK hs
    have ih' : ∀ {w : World}, _ := fun {w : World} (hK : KeptAt K env w.cur) =>
      ih hK (fun d hd => hs d (by simp [hd]))
    unfold RrdpState.deltasStage
    by_cases hn : s.deltaIsNew reset d.serial = true
    · rw [if_pos hn]
      match hr : s.mappings.relative d.uri with
      | .error e => exact ⟨[], .nil, rfl⟩
      | .ok rel =>
        have hrel := relative_ok.1 hr
        rw [M.bind_of_ok (a := rel) (w1 := w) rfl]
        obtain ⟨hK1, h1⟩ := retrieve_log hK f d.uri d.hash (c.stagingPath rel)
          (hs d (by simp) rel hrel)
        rcases M.bind_cases (f.retrieve d.uri d.hash (c.stagingPath rel)) (fun _ => now >>= fun since =>
          s.deltasStage reset f c ds >>= fun rest =>
            (pure (⟨since, d.serial, d.hash, rel⟩ :: rest) : M (List DeltaState))) env w with
          ⟨e, w1, h2, h3⟩ | ⟨u, w1, h2, h3⟩
        · rw [h2] at h1
          rw [h3]
          rcases h1 with h1 | ⟨r, h1, hk, h4⟩
          · exact ⟨[], .nil, h1⟩
          · exact ⟨[(d, r)], .cons h1 hn hrel hk .nil, h4⟩
        · rw [h2] at h1 hK1
          rw [h3]
          dsimp only at h1 hK1
          obtain ⟨t, w2, h5, h6⟩ : ∃ t w2, now env w1 = (.ok t, w2) ∧ w2.reqs = w1.reqs ∧
              w2.cur = w1.cur := ⟨_, _, rfl, rfl, rfl⟩
          rw [M.bind_of_ok h5, bind_reqs (fun _ _ => rfl)]
          obtain ⟨rs, h7, h8⟩ := ih' (w := w2) (by rw [h6.2]; exact hK1)
          rw [h8, h6.1]
          rcases h1 with h1 | ⟨r, h1, hk, h4⟩
          · exact ⟨rs, h7.skip, by rw [h1]⟩
          · exact ⟨(d, r) :: rs, .cons h1 hn hrel hk h7, by rw [h4]; simp⟩
    · rw [if_neg hn]
      obtain ⟨rs, h7, h8⟩ := ih' hK
      exact ⟨rs, h7.skip, h8⟩

theorem stage_log {K : Path → Hash → Prop} {s : RrdpState} {c : Config} {n : Notif}
    {etag : Option Str} {reset : Bool} (hK : KeptAt K env w.cur)
    (hname : ∀ h, ¬ K (c.stagingPath s.source.name) h)
    (hs : ∀ x ∈ n.refs, ∀ rel, x.1 = s.mappings.baseUri ++ rel →
      ∀ h, K (c.stagingPath rel) h → h = x.2 ∧ endsInName x.1 = true) :
    ∃ first rs, DeltaReqs K s reset c.fetcher c n.deltas rs ∧
      (first = [] ∨ ∃ r rel, first = [r] ∧ c.fetcher.Asks n.snapUri none r ∧
        n.snapUri = s.mappings.baseUri ++ rel ∧ ¬ K (c.stagingPath rel) n.snapHash) ∧
      (s.stage c n etag reset env w).2.reqs = (rs.map (·.2)).reverse ++ (first ++ w.reqs) := by
  unfold RrdpState.stage
  have hw0 := writeBuf_reqs (env := env) (w := w) (c.stagingPath s.source.name) (Ext.writeNotif n)
  have hin := writeBuf_writes (c.stagingPath s.source.name) (Ext.writeNotif n) env w
  rcases M.bind_cases (writeBuf (c.stagingPath s.source.name) (Ext.writeNotif n)) _ env w with
    ⟨e, w1, h2, h3⟩ | ⟨u, w1, h2, h3⟩
  · rw [h3]; rw [h2] at hw0
    exact ⟨[], [], .nil, Or.inl rfl, hw0⟩
  · rw [h3]; rw [h2] at hw0 hin
    have hK1 : KeptAt K env w1.cur := by
      intro p h hk
      refine ⟨(hK p h hk).1, (hK p h hk).2.of_leaf (hin.ends (Frame.refl) (fun _ _ _ => Frame.trans) p ?_)⟩
      rintro rfl
      exact hname h hk
    dsimp only at hw0
    rw [← hw0]
    have hsnap : KeptAt K env (s.snapshotStage n c.fetcher c env w1).2.cur ∧
        ((s.snapshotStage n c.fetcher c env w1).2.reqs = w1.reqs ∨
        ∃ r rel, c.fetcher.Asks n.snapUri none r ∧ n.snapUri = s.mappings.baseUri ++ rel ∧
          ¬ K (c.stagingPath rel) n.snapHash ∧
          (s.snapshotStage n c.fetcher c env w1).2.reqs = r :: w1.reqs) := by
      unfold RrdpState.snapshotStage
      match hr : s.mappings.relative n.snapUri with
      | .error e => exact ⟨hK1, Or.inl rfl⟩
      | .ok rel =>
        have hrel := relative_ok.1 hr
        rw [M.bind_of_ok (a := rel) (w1 := w1) rfl]
        obtain ⟨hK2, h1⟩ := retrieve_log hK1 c.fetcher n.snapUri n.snapHash (c.stagingPath rel)
          (hs (n.snapUri, n.snapHash) (by simp [Notif.refs]) rel hrel)
        rcases M.bind_cases (c.fetcher.retrieve n.snapUri n.snapHash (c.stagingPath rel))
          (fun _ => now >>= fun since =>
            (pure ⟨n.session, n.serial, n.snapHash, rel, since⟩ : M SnapshotState)) env w1 with
          ⟨e, w2, h2, h3⟩ | ⟨u, w2, h2, h3⟩
        all_goals
          rw [h3]; rw [h2] at h1 hK2
          refine ⟨hK2, ?_⟩
          rcases h1 with h1 | ⟨r, h4, h5, h6⟩
          · exact Or.inl h1
          · exact Or.inr ⟨r, rel, h4, hrel, h5, h6⟩
    obtain ⟨hK2, h4⟩ := hsnap
    rcases M.bind_cases (s.snapshotStage n c.fetcher c) (fun snap =>
        s.deltasStage reset c.fetcher c n.deltas >>= fun deltas =>
          (pure (some ⟨etag, snap, deltas, cutoffOf n, reset⟩) : M (Option StagedChanges))) env w1 with
      ⟨e, w2, h5, h6⟩ | ⟨u, w2, h5, h6⟩
    · rw [h6]; rw [h5] at h4
      rcases h4 with h4 | ⟨r, rel, h7, h8, h9, h10⟩
      · exact ⟨[], [], .nil, Or.inl rfl, h4⟩
      · exact ⟨[r], [], .nil, Or.inr ⟨r, rel, rfl, h7, h8, h9⟩, h10⟩
    · rw [h6]; rw [h5] at h4 hK2
      rw [bind_reqs (fun _ _ => rfl)]
      obtain ⟨rs, h11, h12⟩ := deltasStage_log (s := s) (reset := reset) (f := c.fetcher) (c := c)
        (ds := n.deltas) hK2 (fun d hd rel hrel h hk => hs (d.uri, d.hash)
          (List.mem_cons_of_mem _ (List.mem_map.2 ⟨d, hd, rfl⟩)) rel hrel h hk)
      rcases h4 with h4 | ⟨r, rel, h7, h8, h9, h10⟩
      · exact ⟨[], rs, h11, Or.inl rfl, by rw [h12, h4]; rfl⟩
      · exact ⟨[r], rs, h11, Or.inr ⟨r, rel, rfl, h7, h8, h9⟩, by rw [h12, h10]; rfl⟩

theorem asks_fetches {c : Config} {uri : Str} {etag : Option Str} {r : Req}
    (h : c.fetcher.Asks uri etag r) : c.Locates uri (.uri r.uri r.insecure) ∧ r.etag = etag := by
  obtain ⟨src, h1, h2⟩ := h
  cases src with
  | file p => exact h2.elim
  | uri u m =>
    have h2 : r = ⟨u, m, etag⟩ := h2
    subst h2
    exact ⟨resolve_locates.1 h1, rfl⟩

/-- The requests made by the search for updates and by the downloads. -/
theorem updateStaged_log {K : Notif → Path → Hash → Prop} {spared : Str → Hash → Prop} {s : RrdpState}
    {c : Config} {base : Str} (hb : s.mappings.baseUri = base)
    (ho : Descending (s.held base)) (hK : ∀ n, KeptAt (K n) env w.cur)
    (hname : ∀ n, Offers c env w.cur s.source.etag n → ∀ h, ¬ K n (c.stagingPath s.source.name) h)
    (hs : ∀ n, Offers c env w.cur s.source.etag n → ∀ x ∈ n.refs, ∀ rel, x.1 = base ++ rel →
      ∀ h, K n (c.stagingPath rel) h → h = x.2 ∧ endsInName x.1 = true)
    (hsp : ∀ n, Offers c env w.cur s.source.etag n → ∀ x ∈ n.refs, ∀ rel, x.1 = base ++ rel →
      spared x.1 x.2 → K n (c.stagingPath rel) x.2) :
    ∃ l, RunRequests c env w.cur s spared l ∧
      (s.updateStaged c env w).2.reqs = l.reverse ++ w.reqs := by
  subst hb
  obtain ⟨first, hf1, hf2, hf3⟩ : ∃ first : List Req, first.length ≤ 1 ∧
      (∀ r ∈ first, c.Locates c.notificationUri (.uri r.uri r.insecure) ∧
        r.etag = s.source.etag) ∧
      (c.fetcher.readNotification s.source.etag env w).2.reqs = first.reverse ++ w.reqs := by
    rcases readNotification_reqs (env := env) (w := w) c.fetcher s.source.etag with h | ⟨r, h1, h2⟩
    · exact ⟨[], by simp, by simp, h⟩
    · refine ⟨[r], by simp, ?_, h2⟩
      intro r' hr'
      rw [List.mem_singleton] at hr'
      subst hr'
      exact asks_fetches h1
  have hnone : RunRequests c env w.cur s spared first :=
    ⟨first, [], [], by simp, hf1, hf2, Or.inl ⟨rfl, rfl⟩⟩
  have hsame := readNotification_same c.fetcher s.source.etag env w
  unfold RrdpState.updateStaged
  rcases M.bind_cases (c.fetcher.readNotification s.source.etag) _ env w with
    ⟨e, w1, h1, h2⟩ | ⟨r, w1, h1, h2⟩
  · rw [h1] at hf3
    rw [h2]
    exact ⟨first, hnone, hf3⟩
  · rw [h1] at hf3 hsame
    rw [h2]
    dsimp only at hf3 hsame
    obtain ⟨_, src, hsrc, hc⟩ := readNotification_ok h1
    have hloc := resolve_locates.1 hsrc
    rcases hc with ⟨n, e, b, rfl, hb, hp⟩ | ⟨rfl, u, m, tick, rfl, hm⟩
    · have hoff : Offers c env w.cur s.source.etag n := ⟨src, b, e, hloc, hb, hp⟩
      dsimp only
      match hv : sortVerify c.rrdpMaxDeltas n.deltas with
      | .error er => exact ⟨first, hnone, hf3⟩
      | .ok ds =>
        rw [M.bind_of_ok (a := ds) (w1 := w1) rfl]
        match hd : decideUpdate s.snapshot { n with deltas := ds } with
        | .noChange => exact ⟨first, hnone, hf3⟩
        | .before => exact ⟨first, hnone, hf3⟩
        | .proceed reset =>
          dsimp only
          have hlim : Limited c n { n with deltas := ds } := ⟨ds, sortVerify_limit hv, rfl⟩
          have hrefs : ∀ x ∈ Notif.refs { n with deltas := ds }, x ∈ n.refs := refs_limited hv
          have hdec := decide_reset hd
          obtain ⟨snap, rs, g1, g2, g3⟩ := stage_log (env := env) (w := w1) (K := K n) (s := s) (c := c)
            (n := { n with deltas := ds }) (etag := e) (reset := reset)
            (by rw [hsame.1]; exact hK n) (hname n hoff) (fun x hx => hs n hoff x (hrefs x hx))
          refine ⟨first ++ snap ++ rs.map (·.2), ⟨first, snap, rs, rfl, hf1, hf2,
            Or.inr ⟨n, _, hoff, hlim, hdec.2, ?_, ?_, ?_, ?_, ?_⟩⟩, ?_⟩
          · rcases g2 with rfl | ⟨r, _, rfl, _⟩ <;> simp
          · intro r hr
            rcases g2 with rfl | ⟨r', rel, rfl, k1, k2, k3⟩
            · simp at hr
            · rw [List.mem_singleton] at hr
              subst hr
              exact ⟨asks_fetches k1, fun h => k3 (hsp n hoff (n.snapUri, n.snapHash)
                (by simp [Notif.refs]) rel k2 h)⟩
          · intro p hp
            have hmem : p.1 ∈ ds := g1.sub.subset (List.mem_map.2 ⟨p, hp, rfl⟩)
            obtain ⟨rel, k2, k3⟩ := g1.missing p hp
            exact ⟨hmem, asks_fetches (g1.asks p hp), fun h => k3 (hsp n hoff (p.1.uri, p.1.hash)
              (List.mem_cons_of_mem _ (List.mem_map.2 ⟨p.1, limit_refs hv _ hmem, rfl⟩)) rel k2 h)⟩
          · have := (sortVerify_limit hv).ascending.sublist g1.sub
            rwa [List.pairwise_map] at this
          · intro p hp
            exact (deltaIsNew_iff hdec.1 ho).1 (g1.fresh p hp)
          · rw [g3, hf3]
            rcases g2 with rfl | ⟨r', rel, rfl, _⟩ <;> simp
    · exact ⟨first, hnone, hf3⟩

theorem comps_joined {d : Path} {rel rel' : Str} (h : CleanRel rel) (h' : CleanRel rel')
    (he : joinPath d rel = joinPath d rel') : comps rel = comps rel' := by
  rw [joinPath_clean h, joinPath_clean h'] at he
  exact List.append_cancel_left he

/-- The same, knowing which files are in the staging directory already. -/
theorem updateStaged_log_staged {s : RrdpState} {c : Config} {base name : Str}
    (hu : NotifUri c base name) (hsn : Sane c base name s)
    (ho : Descending (s.held base)) (hf : NoFaults env)
    (hg : ∀ n, Offers c env w.cur s.source.etag n → GoodNotif base name n)
    (h1 : ∀ n, Offers c env w.cur s.source.etag n → OneHashPerPath base n)
    (he : ∀ n, Offers c env w.cur s.source.etag n → ∀ r ∈ n.refs, EndsInName r.1) :
    ∃ l, RunRequests c env w.cur s (InStaging c base w.cur) l ∧
      (s.updateStaged c env w).2.reqs = l.reverse ++ w.reqs := by
  refine updateStaged_log (base := base)
    (K := fun n p h => FileHas w.cur p h ∧ ∃ x ∈ n.refs, ∃ rel, x.1 = base ++ rel ∧
      p = c.stagingPath rel ∧ h = x.2) (by rw [hsn.mappings]) ho
    (fun n p h hk => ⟨hf, hk.1⟩) ?_ ?_ ?_
  · rintro n hn h ⟨_, x, hx, rel, hrel, hp, _⟩
    have hgr := hg n hn x hx rel hrel
    have hname : CleanRel name := by
      have := comps_plain hu.plain hu.nonempty hu.notDot
      refine ⟨fun h => hu.plain (List.mem_of_mem_head? h), ?_, ?_⟩
      · rw [this]; simpa using fun h => hu.notDotDot h.symm
      · rw [this]; simp
    rw [hsn.fileName] at hp
    have := comps_joined hname hgr.clean hp
    apply hgr.notName
    rw [← this, comps_plain hu.plain hu.nonempty hu.notDot]
    rfl
  · rintro n hn x hx rel hrel h ⟨_, x', hx', rel', hrel', hp, rfl⟩
    exact ⟨h1 n hn x' hx' x hx rel' rel hrel' hrel (comps_joined (hg n hn x' hx' rel' hrel').clean
      (hg n hn x hx rel hrel).clean hp.symm), (he n hn x hx).ends⟩
  · rintro n hn x hx rel hrel ⟨rel', hrel', hh⟩
    have : rel = rel' := List.append_cancel_left (hrel.symm.trans hrel')
    subst this
    refine ⟨?_, x, hx, rel, hrel, rfl, rfl⟩
    rw [Config.stagingPath, joinPath_clean (hg n hn x hx rel hrel).clean]
    exact hh

theorem LogIn.append {P : α → Prop} {l l' : List α} (h : LogIn P l l') : ∃ d, l' = d ++ l :=
  h.imp (fun _ h => h.1)

/-- The requests of a run are those of the search for updates and of the downloads, followed by
those of pre-validation. -/
theorem process_log {depth : Nat} {c : Config} {base name : Str} {env : Env} {fs : FS}
    (hc : RunConds c base name env fs) :
    (process depth c env (World.start fs)).2.reqs = [] ∨
    ∃ s w0 v, InUse c base name fs s ∧ w0.cur = fs ∧ w0.reqs = [] ∧
      (process depth c env (World.start fs)).2.reqs = v ++ (s.updateStaged c env w0).2.reqs ∧
      (c.talFiles = [] → v = []) := by
  rcases M.bind_cases (loadState c) (fun s => s.updateStaged c >>= fun staged => match staged with
    | none => pure ()
    | some st => s.preValidate depth c >>= fun s' => scriptGate c >>= fun _ => publish c s' st) env
    (World.start fs) with ⟨e, w1, h1, h2⟩ | ⟨s, w1, h1, h2⟩
  · left
    have : process depth c env (World.start fs) = _ := h2
    rw [this]
    have := (loadState_in (E := Eff.none) c env (World.start fs)).reqs_eq (fun _ h => h)
    rw [h1] at this
    exact this
  · right
    have hp : process depth c env (World.start fs) = _ := h2
    obtain ⟨k1, k2, _⟩ := loadState_ok h1
    refine ⟨s, w1, ?_⟩
    have hin := loadState_inUse hc.uri h1
    rw [hp]
    have hc1 : w1.cur = fs := k1.1
    refine (?_ : ∃ v, _).imp (fun v h => ⟨hin, hc1, k2, h⟩)
    have hany : ∀ (c' : Config) (m : M Unit) w2, c' = c →
        Within (reqEff (fun _ => c.talFiles ≠ [])) w2 (m env w2).2 →
        ∃ v, (m env w2).2.reqs = v ++ w2.reqs ∧ (c.talFiles = [] → v = []) := by
      rintro c' m w2 rfl h
      obtain ⟨d, h1, h2⟩ := h.logs.reqs
      refine ⟨d, h1, fun ht => List.eq_nil_iff_forall_not_mem.2 (fun x hx => h2 x hx ht)⟩
    have hwf : (s.updateStaged c env w1).2.cur.WF :=
      (updateStaged_reqs (P := fun _ => True) (fun _ _ => trivial)
        (fun _ _ _ _ _ _ => trivial)).wf (by rw [hc1]; exact hc.wf)
    rcases M.bind_cases (s.updateStaged c) (fun staged => match staged with
      | none => pure ()
      | some st => s.preValidate depth c >>= fun s' => scriptGate c >>= fun _ => publish c s' st) env w1
      with ⟨e, w2, g1, g2⟩ | ⟨st, w2, g1, g2⟩
    · rw [g2, g1]
      exact ⟨[], rfl, fun _ => rfl⟩
    · rw [g2]
      rw [g1] at hwf ⊢
      cases st with
      | none => exact ⟨[], rfl, fun _ => rfl⟩
      | some st =>
        refine hany c _ w2 rfl ?_
        have hv : Within (reqEff (fun _ => c.talFiles ≠ [])) w2 (s.preValidate depth c env w2).2 := by
          by_cases ht : c.talFiles = []
          · exact preValidate_noTals ht depth s env w2
          · exact preValidate_in (fun _ => ht) depth s c env w2
        refine Within.bindAt hv (fun s' w3 e3 => ?_)
        have hs := scriptGate_in (E := reqEff (fun _ => c.talFiles ≠ [])) (c := c)
          (fun _ _ => trivial) env w3
        refine Within.bindAt hs (fun _ w4 e4 => publish_reqs ?_)
        rw [e3] at hv
        rw [e4] at hs
        exact hs.wf (hv.wf hwf)


end KSync
