import Verif.Lemmas.Latest
import Verif.Lemmas.Walk

/-! # A whole validation -/

set_option linter.unusedSectionVars false
set_option linter.unusedVariables false

namespace KSync

variable [Ext] {env : Env} {w w' : World}

theorem validateAt_ok {t : Tal} {time : Time} {c : ResCert}
    (h : t.validateAt time env w = (.ok c, w')) :
    Same w w' ∧ TrustAnchor env w.cur time t c := by
  unfold Tal.validateAt at h
  obtain ⟨resp, w1, h1, h2⟩ := M.bind_ok.1 h
  obtain ⟨b, w2, h3, h4⟩ := M.bind_ok.1 h2
  rcases fetch_ok h1 with ⟨b', e, hb, _, hc⟩ | ⟨rfl, _⟩
  · rcases hc with ⟨_, rfl, hs⟩ | ⟨t, w3, ht, _⟩
    · change (pure b' : M Bytes) env w1 = _ at h3
      rw [M.pure_ok] at h3
      obtain ⟨rfl, rfl⟩ := h3
      match hv : Ext.validateTa b' time with
      | none => rw [hv] at h4; cases h4
      | some cert =>
        rw [hv] at h4
        dsimp only at h4
        by_cases hk : cert.key ≠ t.key
        · rw [if_pos hk] at h4; cases h4
        · rw [if_neg hk, M.pure_ok] at h4
          obtain ⟨rfl, rfl⟩ := h4
          exact ⟨hs, Decidable.not_not.1 hk, b', e, hb, hv⟩
    · cases ht
  · cases h3

theorem OnlyTick.same (h : OnlyTick w w') : Same w w' := by
  unfold OnlyTick at h
  rw [h]
  exact ⟨rfl, rfl⟩

theorem Available.fetchers {fs : FS} {v v0 : Visited} (hf : v.fetchers = v0.fetchers)
    (hc : ∀ u d x obj, mapGet v.data u = some d → mapGet d.objects x = some obj →
      Available env fs v0 u x obj) {u x : Str} {obj : Bytes} (h : Available env fs v u x obj) :
    Available env fs v0 u x obj := by
  have hg : v.fetcherOf u = v0.fetcherOf u := by unfold Visited.fetcherOf; rw [hf]
  cases h with
  | cached d hd ho => exact hc u d x obj hd ho
  | snapshot a src b e els y hs hb hp ho hx => exact .snapshot a src b e els y (hg ▸ hs) hb hp ho hx
  | delta a src b e els y hs hb hp ho hx => exact .delta a src b e els y (hg ▸ hs) hb hp ho hx

/-- What is there after the elements of a delta was there before or is in the delta. -/
theorem Patch.origin {o o' : Objects} {els : List DeltaElement} (h : Patch o els o') {x : Str}
    {obj : Bytes} (hx : o' x = some obj) : o x = some obj ∨
      ∃ y : RsyncUri, y.toStr = x ∧ (.publish y obj ∈ els ∨ ∃ g, .update y g obj ∈ els) := by
  induction h with
  | nil => exact Or.inl hx
  | publish u z els o o' _ ih =>
    rcases ih hx with h | ⟨y, h1, h2⟩
    · unfold Objects.set at h
      by_cases he : x = u.toStr
      · rw [if_pos he] at h
        cases h
        exact Or.inr ⟨u, he.symm, Or.inl (List.mem_cons_self ..)⟩
      · rw [if_neg he] at h; exact Or.inl h
    · refine Or.inr ⟨y, h1, ?_⟩
      rcases h2 with h2 | ⟨g, h2⟩
      · exact Or.inl (List.mem_cons_of_mem _ h2)
      · exact Or.inr ⟨g, List.mem_cons_of_mem _ h2⟩
  | update u g z els o o' old _ _ _ ih =>
    rcases ih hx with h | ⟨y, h1, h2⟩
    · unfold Objects.set at h
      by_cases he : x = u.toStr
      · rw [if_pos he] at h
        cases h
        exact Or.inr ⟨u, he.symm, Or.inr ⟨g, List.mem_cons_self ..⟩⟩
      · rw [if_neg he] at h; exact Or.inl h
    · refine Or.inr ⟨y, h1, ?_⟩
      rcases h2 with h2 | ⟨g, h2⟩
      · exact Or.inl (List.mem_cons_of_mem _ h2)
      · exact Or.inr ⟨g, List.mem_cons_of_mem _ h2⟩
  | withdraw u g els o o' old _ _ _ ih =>
    rcases ih hx with h | ⟨y, h1, h2⟩
    · unfold Objects.set at h
      by_cases he : x = u.toStr
      · rw [if_pos he] at h; cases h
      · rw [if_neg he] at h; exact Or.inl h
    · refine Or.inr ⟨y, h1, ?_⟩
      rcases h2 with h2 | ⟨g, h2⟩
      · exact Or.inl (List.mem_cons_of_mem _ h2)
      · exact Or.inr ⟨g, List.mem_cons_of_mem _ h2⟩

theorem Patched.available {fs : FS} {v : Visited} {u : Str} {s s' : Nat} {o o' : Objects}
    {ds : List DeltaInfo} (h : Patched (v.fetcherOf u) env fs s o ds s' o')
    (h0 : ∀ x obj, o x = some obj → Available env fs v u x obj) :
    ∀ x obj, o' x = some obj → Available env fs v u x obj := by
  induction h with
  | nil => exact h0
  | other s o i is s' o' _ _ ih => exact ih h0
  | apply s o o1 i is s' o' src b e els _ h1 h2 _ h3 h4 _ ih =>
    refine ih (fun x obj hx => ?_)
    rcases h4.origin hx with h | ⟨y, h5, h6⟩
    · exact h0 x obj h
    · exact .delta i.uri src b e els y h1 h2 h3 h6 h5

theorem Latest.available {fs : FS} {v : Visited} {u : Str} {offline : Bool} {time : Time}
    {tick : Nat} {d : RepoData} (h : Latest env fs v u offline time tick d) :
    ∀ x obj, mapGet d.objects x = some obj → Available env fs v u x obj := by
  intro x obj hx
  cases h with
  | cached d0 h0 _ same => subst same; exact .cached d0 h0 hx
  | current d0 h0 _ _ same => subst same; exact .cached d0 h0 hx
  | snapshot n _ _ hf _ =>
    obtain ⟨src, b, e, els, h1, h2, _, h3, h4⟩ := hf.body
    rw [h4 x] at hx
    obtain ⟨⟨y, z⟩, h5, rfl⟩ := Option.map_eq_some_iff.1 hx
    exact .snapshot n.snapUri src b e els y h1 h2 h3
      (List.mem_reverse.1 (List.mem_of_find?_eq_some h5)) (by simpa using List.find?_some h5)
  | deltas n _ _ d0 h0 _ _ _ _ _ _ _ _ applied _ _ _ =>
    obtain ⟨ds, _, h1⟩ := applied
    exact h1.available (fun x obj h => .cached d0 h0 h) x obj hx

/-- Invariant of a validation that starts with `v0` on `fs`. -/
structure ValInv (env : Env) (fs : FS) (v0 : Visited) (offline : Bool) (w : World) (v : Visited) :
    Prop where
  cur : w.cur = fs
  fetchers : v.fetchers = v0.fetchers
  keys : offline = true → ∀ u, mapGet v.data u = none ↔ mapGet v0.data u = none
  genuine : ∀ content, v0.Sources env fs content → v0.Genuine content →
    v.Sources env fs content ∧ v.Genuine content
  available : ∀ u d x obj, mapGet v.data u = some d → mapGet d.objects x = some obj →
    Available env fs v0 u x obj
  fetched : ∀ u d, mapGet v0.data u = some d → d.fetched = true → mapGet v.data u = some d

theorem ValInv.start (fs : FS) (v : Visited) (offline : Bool) (h : w.cur = fs) :
    ValInv env fs v offline w v :=
  ⟨h, rfl, fun _ _ => Iff.rfl, fun _ hs hg => ⟨hs, hg⟩, fun _ d _ _ h1 h2 => .cached d h1 h2,
    fun _ _ h _ => h⟩

theorem ValInv.move {fs : FS} {v0 v : Visited} {offline : Bool} (h : ValInv env fs v0 offline w v)
    (hs : Same w w') : ValInv env fs v0 offline w' v :=
  ⟨hs.1.trans h.cur, h.fetchers, h.keys, h.genuine, h.available, h.fetched⟩

theorem ValInv.latest {fs : FS} {v0 v v' : Visited} {uri : Str} {offline : Bool} {time : Time}
    {r : Except Err RepoData} (hj : ValInv env fs v0 offline w v)
    (hg : v.getLatest uri offline time env w = (.ok (r, v'), w'))
    (h : LatestDone env v uri offline time w r v' w') :
    ValInv env fs v0 offline w' v' ∧ ∀ d, r = .ok d → Usable env fs v0 uri d.objects := by
  have key : ValInv env fs v0 offline w' v' := by
    refine ⟨h.same.1.trans hj.cur, h.fetchers.trans hj.fetchers, fun ho u => ?_, fun content hs hg => ?_,
      fun u d x obj hd ho => ?_, fun u d hd hf => ?_⟩
    · by_cases hu : u = uri
      · subst hu ho
        rw [getLatest_offline_keys hg]
        exact hj.keys rfl u
      · rw [h.others u hu]
        exact hj.keys ho u
    · obtain ⟨h1, h2⟩ := hj.genuine content hs hg
      rw [← hj.cur] at h1
      have h3 := h.sources h1
      rw [h.same.1, hj.cur] at h3
      exact ⟨h3, h.genuine h2 h1⟩
    · by_cases hu : u = uri
      · subst hu
        match r, h with
        | .ok d', h =>
          obtain ⟨h1, h2⟩ := h.ok d' rfl
          rw [hd] at h1
          cases h1
          rw [hj.cur] at h2
          exact (h2.available x obj ho).fetchers hj.fetchers hj.available
        | .error e, h =>
          obtain ⟨d0, h1, rfl⟩ := h.err e rfl d hd
          exact hj.available u d0 x obj h1 ho
      · rw [h.others u hu] at hd
        exact hj.available u d x obj hd ho
    · have h1 := hj.fetched u d hd hf
      by_cases hu : u = uri
      · subst hu
        rw [getLatest_fetched h1 hf] at hg
        cases hg
        exact h1
      · rw [h.others u hu]
        exact h1
  refine ⟨key, fun d hd => ⟨fun content hs hg => ?_, fun x obj ho => ?_, fun d' hd' hf => ?_⟩⟩
  · exact ⟨d.session, d.serial, (key.genuine content hs hg).2 uri d (h.ok d hd).1⟩
  · exact key.available uri d x obj (h.ok d hd).1 ho
  · have h1 := key.fetched uri d' hd' hf
    rw [(h.ok d hd).1] at h1
    cases h1
    rfl

theorem ValInv.unavailable {fs : FS} {v0 v v' : Visited} {uri : Str} {offline : Bool} {time : Time}
    {e : Err} (hj : ValInv env fs v0 offline w v)
    (hg : v.getLatest uri offline time env w = (.ok (.error e, v'), w')) :
    Unavailable env fs v0 offline uri := by
  have h1 := getLatest_fails hg
  unfold Unavailable at h1 ⊢
  refine ⟨fun d hd => ?_, ?_⟩
  · match hf : d.fetched with
    | false => rfl
    | true =>
      have := h1.1 d (hj.fetched uri d hd hf)
      rw [hf] at this
      cases this
  have h1 := h1.2
  cases offline with
  | true =>
    rw [if_pos rfl] at h1 ⊢
    exact (hj.keys rfl uri).1 h1
  | false =>
    rw [if_neg (by decide)] at h1 ⊢
    unfold Visited.fetcherOf at h1 ⊢
    rw [hj.cur, hj.fetchers] at h1
    exact h1

theorem stepOk_judged (fs : FS) (v0 : Visited) (offline : Bool) (time : Time) :
    StepOk (ValInv env fs v0 offline) offline time env
      (fun c i ca kids => Judged env (Usable env fs v0) (Unavailable env fs v0 offline) c i time
        ca kids) := by
  intro w v c i ca kids v' w' hj h
  cases checkCa_ok h with
  | noRrdp h1 hr hv hw => subst hv hw; exact ⟨hj, .noRrdp h1 hr⟩
  | noData u e h1 hg hr =>
    obtain ⟨r, v1, he, hd⟩ := getLatest_done hg
    cases he
    exact ⟨(hj.latest hg hd).1, .noData u h1 (hj.unavailable hg) hr⟩
  | data u d w1 h1 hg hw hr =>
    obtain ⟨r, v1, he, hd⟩ := getLatest_done hg
    cases he
    obtain ⟨a1, a2⟩ := hj.latest hg hd
    have hs := hw.same
    refine ⟨a1.move hs, ?_⟩
    rcases hr with ⟨hr, hn⟩ | ⟨content, crlUri, crl, he⟩
    · exact .disordered u d.objects h1 (a2 d rfl) hn hr
    · exact .examined u d.objects content crlUri crl h1 (a2 d rfl) he

theorem taOk_anchor (fs : FS) (v0 : Visited) (offline : Bool) (time : Time) :
    TaOk (ValInv env fs v0 offline) time env (TrustAnchor env fs time) := by
  intro w v t c w' hj h
  obtain ⟨h1, h2⟩ := validateAt_ok h
  rw [hj.cur] at h2
  exact ⟨hj.move h1, h2⟩

theorem Judged.sameInfo {D : Str → List (Str × Bytes) → Prop} {N : Str → Prop} {issuer : ResCert}
    {info : CaInfo} {time : Time} {ca : ValidatedCa} {kids : List (ResCert × CaInfo)}
    (h : Judged env D N issuer info time ca kids) : ca.info = info := by
  cases h with
  | noRrdp _ hr => exact hr.sameInfo
  | noData _ _ _ hr => exact hr.sameInfo
  | disordered _ _ _ _ _ hr => exact hr.sameInfo
  | examined _ _ _ _ _ _ _ he => exact he.sameInfo

theorem mem_kids {ca : ValidatedCa} {kids : List (ResCert × CaInfo)} {fs : List (Str × Finding)}
    (h : ConsistsOf ca kids fs) {k : ResCert × CaInfo} (hk : k ∈ kids) :
    ∃ u, (u, Finding.child k.1 k.2) ∈ fs := by
  rw [h.kids] at hk
  obtain ⟨⟨u, f⟩, h1, h2⟩ := List.mem_filterMap.1 hk
  cases f <;> simp at h2
  obtain ⟨rfl, rfl⟩ := h2
  exact ⟨u, h1⟩

/-- Children are certified by the CA. -/
theorem Judged.kids {D : Str → List (Str × Bytes) → Prop} {N : Str → Prop} {issuer : ResCert}
    {info : CaInfo} {time : Time} {ca : ValidatedCa} {kids : List (ResCert × CaInfo)}
    (h : Judged env D N issuer info time ca kids) {k : ResCert × CaInfo} (hk : k ∈ kids) :
    ∃ u objs x obj, ∃ cert : CertObj, info.siaRrdp = some u ∧ D u objs ∧ mapGet objs x = some obj ∧
      Ext.decodeCert obj = some cert ∧ cert.isCa = true ∧
      Ext.validateCa cert issuer time = some k.1 ∧ k.2.Of k.1 := by
  have rej : ∀ {P}, Rejected info ca kids P → False := fun hr => by
    rw [hr.nothing.2.2.2.2.2] at hk; cases hk
  cases h with
  | noRrdp _ hr => exact (rej hr).elim
  | noData _ _ _ hr => exact (rej hr).elim
  | disordered _ _ _ _ _ hr => exact (rej hr).elim
  | examined u objs content crlUri crl hu hD he =>
    obtain ⟨fs, h1, _, _, h4⟩ := he.findings
    obtain ⟨x, hx⟩ := mem_kids h1 hk
    obtain ⟨h, t, _, obj, c0, _, _, cert, c1, c2, _, c3, c4⟩ := h4 _ hx
    exact ⟨u, objs, x, obj, cert, hu, hD, c0, c1, c2, c3, c4⟩

theorem Judged.children {D : Str → List (Str × Bytes) → Prop} {N : Str → Prop} {issuer : ResCert}
    {info : CaInfo} {time : Time} {ca : ValidatedCa} {kids : List (ResCert × CaInfo)}
    (h : Judged env D N issuer info time ca kids) : ca.children.map (·.2) = kids.map (·.2) := by
  have rej : ∀ {P}, Rejected info ca kids P → ca.children.map (·.2) = kids.map (·.2) := fun hr => by
    rw [hr.nothing.1, hr.nothing.2.2.2.2.2]; rfl
  cases h with
  | noRrdp _ hr => exact rej hr
  | noData _ _ _ hr => exact rej hr
  | disordered _ _ _ _ _ hr => exact rej hr
  | examined u objs content crlUri crl _ _ he =>
    obtain ⟨fs, h1, _, _, _⟩ := he.findings
    rw [h1.children, h1.kids, List.map_filterMap, List.map_filterMap]
    congr 1
    funext x
    obtain ⟨u, f⟩ := x
    cases f <;> rfl

/-- The trees below the trust anchors. -/
theorem validate_tree {v v' : Validator} {depth : Nat} {offline : Bool} {rep : Report}
    (h : v.validate depth offline env w = (.ok (rep, v'), w')) :
    (w'.cur = w.cur) ∧ v'.tals = v.tals ∧ rep.Ok ∧
    (∀ content, v.repos.Sources env w.cur content → v.repos.Genuine content →
      v'.repos.Genuine content) ∧
    WalkedTals (TrustAnchor env w.cur (env.clock w.tick))
      (fun c i ca kids => Judged env (Usable env w.cur v.repos)
        (Unavailable env w.cur v.repos offline) c i (env.clock w.tick) ca kids)
      v.tals rep.certs := by
  obtain ⟨h1, h2, h3, h4⟩ := validate_walked (J := ValInv env w.cur v.repos offline)
    (fun time ht => by rw [ht]; exact stepOk_judged w.cur v.repos offline (env.clock w.tick))
    (fun time ht => by rw [ht]; exact taOk_anchor w.cur v.repos offline (env.clock w.tick))
    (show ValInv env w.cur v.repos offline { w with tick := w.tick + 1 } v.repos from
      .start _ _ _ rfl) h
  exact ⟨h1.cur, h4, h2, fun content hs hg => (h1.genuine content hs hg).2, h3⟩

theorem validate_chain {v v' : Validator} {depth : Nat} {offline : Bool} {rep : Report}
    (h : v.validate depth offline env w = (.ok (rep, v'), w')) :
    (∀ ca ∈ rep.certs, ∃ issuer kids, Trusted env w.cur (env.clock w.tick) v issuer ∧
      Judged env (Usable env w.cur v.repos)
        (Unavailable env w.cur v.repos offline) issuer ca.info (env.clock w.tick) ca kids ∧
      ∀ k ∈ kids, ∃ ca' ∈ rep.certs, ∃ kids', ca'.info = k.2 ∧
        Judged env (Usable env w.cur v.repos)
        (Unavailable env w.cur v.repos offline) k.1 ca'.info (env.clock w.tick) ca' kids') ∧
    ∀ t ∈ v.tals, ∃ c i, TrustAnchor env w.cur (env.clock w.tick) t c ∧ CaInfo.Of i c ∧
      ∃ ca ∈ rep.certs, ∃ kids, ca.info = i ∧
        Judged env (Usable env w.cur v.repos)
        (Unavailable env w.cur v.repos offline) c ca.info (env.clock w.tick) ca kids := by
  obtain ⟨_, _, _, _, hw⟩ := validate_tree h
  constructor
  · intro ca hca
    obtain ⟨c, i, kids, h1, h2, h3⟩ := hw.chain
      (Q := fun c i => Trusted env w.cur (env.clock w.tick) v c ∧ CaInfo.Of i c)
      (fun c i ca kids hc ht k hk => by
        obtain ⟨u, objs, x, obj, cert, h1, h2, h3, h4, h5, h6, h7⟩ := ht.kids hk
        exact ⟨.issued c i u x obj cert k.1 hc.1 hc.2 h1 (h2.available x obj h3) h4 h5 h6, h7⟩)
      (fun t ht c i hc hi => ⟨.ta t c ht hc, hi⟩) ca hca
    have h2 : Judged env (Usable env w.cur v.repos)
        (Unavailable env w.cur v.repos offline) c i (env.clock w.tick) ca kids := h2
    refine ⟨c, kids, h1.1, by rw [h2.sameInfo]; exact h2, fun k hk => ?_⟩
    obtain ⟨ca', a1, kids', a2⟩ := h3 k hk
    have a2 : Judged env (Usable env w.cur v.repos)
        (Unavailable env w.cur v.repos offline) k.1 k.2 (env.clock w.tick) ca' kids' := a2
    exact ⟨ca', a1, kids', a2.sameInfo, by rw [a2.sameInfo]; exact a2⟩
  · intro t ht
    obtain ⟨c, i, h1, h2, ca, h3, kids, h4⟩ := hw.closed.2 t ht
    have h4 : Judged env (Usable env w.cur v.repos)
        (Unavailable env w.cur v.repos offline) c i (env.clock w.tick) ca kids := h4
    exact ⟨c, i, h1, h2, ca, h3, kids, h4.sameInfo, by rw [h4.sameInfo]; exact h4⟩

end KSync
