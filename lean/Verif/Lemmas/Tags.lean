import Verif.Spec.Tags
import Verif.Lemmas.StateHistory
import Verif.Lemmas.Requests
import Verif.Lemmas.Gates

/-! # Entity tags -/

set_option linter.unusedSectionVars false
set_option linter.unusedVariables false

namespace KSync

variable [Ext] {env : Env} {tag : Str → Str → Uuid → Nat → Prop} {p p' : Seen}

/-- Data that fit their tag. -/
def Fits (tag : Str → Str → Uuid → Nat → Prop) (p : Seen) (f : Fetcher) (d : RepoData) : Prop :=
  ∀ u m, f.Locates f.notificationUri (.uri u m) →
    d.serial ≤ p u d.session ∧ ∀ e, d.etag = some e → tag u e d.session d.serial

theorem Fits.mono {f : Fetcher} {d : RepoData} (hp : ∀ u s, p u s ≤ p' u s) (h : Fits tag p f d) :
    Fits tag p' f d := fun u m hu => ⟨Nat.le_trans (h u m hu).1 (hp _ _), (h u m hu).2⟩

/-- How the data have come about since `v0`. -/
structure TagOk (tag : Str → Str → Uuid → Nat → Prop) (p p' : Seen) (v0 v : Visited) : Prop where
  fetchers : v.fetchers = v0.fetchers
  old : ∀ uri d, mapGet v.data uri = some d → d.fetched = false →
    mapGet v0.data uri = some d ∧ Fits tag p (v0.fetcherOf uri) d
  fits : ∀ uri d, mapGet v.data uri = some d → Fits tag p' (v0.fetcherOf uri) d

theorem TagOk.fetcherOf {v0 v : Visited} (h : TagOk tag p p' v0 v) (uri : Str) :
    v.fetcherOf uri = v0.fetcherOf uri := by
  unfold Visited.fetcherOf; rw [h.fetchers]

theorem FindsWith.fits (ht : TaggedSources tag p p' env) {f : Fetcher} {fs : FS} {n : Notif}
    {d : RepoData} (h : f.FindsWith env fs n d.etag) (h1 : d.session = n.session)
    (h2 : (∀ u m, f.Locates f.notificationUri (.uri u m) → ReachesSerial n → Serials64 n →
      p u n.session ≤ n.serial → d.serial = n.serial)) : Fits tag p' f d := by
  intro u m hu
  obtain ⟨src, etag, b, h3, h4, h5⟩ := h
  have h3 := (Fetcher.locates_iff.2 hu).symm.trans (Fetcher.locates_iff.2 h3)
  cases h3
  obtain ⟨k, hdr, h6, h7⟩ := h4
  obtain ⟨h8, h9⟩ := ht.forward _ _ _ _ _ h6 h5
  have h10 := ht.reaches _ _ _ _ _ h6 h5
  have h11 := h2 u m hu h10.1 h10.2 h8
  rw [h1, h11]
  refine ⟨h9, fun e he => ?_⟩
  rcases h7 with ⟨_, h7⟩ | ⟨s, rfl, h7⟩
  · rw [h7] at he; cases he
  · rw [h7] at he; cases he
    exact ht.tags _ _ _ _ _ h6 h5

theorem LatestDone.tagOk (ht : TaggedSources tag p p' env) {v0 v v' : Visited} {uri : Str}
    {offline : Bool} {time : Time} {r : Except Err RepoData} {w w' : World}
    (h : LatestDone env v uri offline time w r v' w') (hv : TagOk tag p p' v0 v) :
    TagOk tag p p' v0 v' := by
  have key : ∀ d, mapGet v'.data uri = some d →
      (d.fetched = true ∨ mapGet v.data uri = some d) ∧ Fits tag p' (v0.fetcherOf uri) d := by
    intro d hd
    match r, h with
    | .error e, h =>
      obtain ⟨d0, h0, rfl⟩ := h.err e rfl d hd
      exact ⟨.inl rfl, hv.fits uri d0 h0⟩
    | .ok d', h =>
      obtain ⟨h1, h2⟩ := h.ok d' rfl
      rw [h1] at hd
      cases hd
      rw [← hv.fetcherOf]
      cases h2 with
      | cached d0 h0 _ hsame => subst hsame; exact ⟨.inl rfl, hv.fetcherOf uri ▸ hv.fits uri d0 h0⟩
      | current d0 h0 _ _ hsame => subst hsame; exact ⟨.inl rfl, hv.fetcherOf uri ▸ hv.fits uri d0 h0⟩
      | snapshot n hn _ hf htag =>
        exact ⟨.inl hf.fetched, FindsWith.fits ht htag hf.session (fun _ _ _ _ _ _ => hf.serial)⟩
      | deltas n hn _ d0 h0 h3 h4 h5 h6 h7 h11 h8 h9 _ _ h10 htag =>
        refine ⟨.inl h5.2, FindsWith.fits ht htag h4 ?_⟩
        intro u m hu k1 k10 k2
        have k3 := ((hv.old uri d0 h0 h10).2 u m (hv.fetcherOf uri ▸ hu)).1
        obtain ⟨x, k4, k5⟩ := k1.2 h6
        rw [← h3] at k3
        have k6 := h8 (by have := k10 x k4; omega) k10 x k4
        rcases h9 with h9 | ⟨y, k8, k9⟩
        · omega
        · have := k1.1 y k8
          omega
  refine ⟨h.fetchers.trans hv.fetchers, fun u d hd hf => ?_, fun u d hd => ?_⟩
  · by_cases hu : u = uri
    · subst hu
      rcases (key d hd).1 with h1 | h1
      · rw [h1] at hf; cases hf
      · exact hv.old u d h1 hf
    · exact hv.old u d ((h.others u hu).symm.trans hd) hf
  · by_cases hu : u = uri
    · subst hu; exact (key d hd).2
    · exact hv.fits u d ((h.others u hu).symm.trans hd)

/-! ## Requests and results together -/

/-- Requests only as in `P`, and a result as in `J`. -/
def Yields (env : Env) (P : Req → Prop) {α : Type} (J : α → Prop) (m : M α) : Prop :=
  ∀ w, Logs (reqEff P) w (m env w).2 ∧ ∀ a w', m env w = (.ok a, w') → J a

section
variable {P : Req → Prop} {α β : Type} {J : α → Prop} {J' : β → Prop}

theorem Yields.pure {a : α} (h : J a) : Yields env P J (Pure.pure a : M α) := fun w =>
  ⟨Tr.refl _, fun b w' hb => by rw [M.pure_ok] at hb; exact hb.1 ▸ h⟩

theorem Yields.throw {e : Err} : Yields env P J (M.throw e : M α) := fun w =>
  ⟨Tr.refl _, fun b w' hb => by cases hb⟩

theorem Yields.bind {m : M α} {f : α → M β} (h : Yields env P J m)
    (hf : ∀ a, J a → Yields env P J' (f a)) : Yields env P J' (m >>= f) := by
  intro w
  obtain ⟨h1, h2⟩ := h w
  rcases M.bind_cases m f env w with ⟨e, w1, h3, h4⟩ | ⟨a, w1, h3, h4⟩
  · rw [h3] at h1
    rw [h4]
    exact ⟨h1, fun b w' hb => by cases hb⟩
  · rw [h3] at h1
    obtain ⟨h5, h6⟩ := hf a (h2 a w1 h3) w1
    rw [h4]
    exact ⟨Tr.trans h1 h5, h6⟩

theorem Yields.of_logs {m : M α} (h : Rel (Logs (reqEff P)) m) : Yields env P (fun _ => True) m :=
  fun w => ⟨h env w, fun _ _ _ => trivial⟩

theorem Yields.mono {K : α → Prop} {m : M α} (h : Yields env P J m) (hk : ∀ a, J a → K a) :
    Yields env P K m := fun w => ⟨(h w).1, fun a w' ha => hk a ((h w).2 a w' ha)⟩
end

/-- The requests expected: without a tag, or for the notification file of a repository, with the tag
of the data there were for it. -/
def TagReq (v0 : Visited) (r : Req) : Prop :=
  r.etag = none ∨ ∃ uri d, mapGet v0.data uri = some d ∧ d.fetched = false ∧
    (v0.fetcherOf uri).Asks (v0.fetcherOf uri).notificationUri d.etag r

theorem Fetcher.Asks.etag {f : Fetcher} {x : Str} {etag : Option Str} {r : Req}
    (h : f.Asks x etag r) : r.etag = etag := by
  obtain ⟨src, _, h2⟩ := h
  match src, h2 with
  | .uri u m, h2 => rw [show r = ⟨u, m, etag⟩ from h2]

theorem getLatest_tags (ht : TaggedSources tag p p' env) {v0 v : Visited} {uri : Str}
    {offline : Bool} {time : Time} (hv : TagOk tag p p' v0 v) :
    Yields env (TagReq v0) (fun x => TagOk tag p p' v0 x.2) (v.getLatest uri offline time) := by
  intro w
  refine ⟨?_, ?_⟩
  · refine getLatest_logs (E := reqEff (TagReq v0)) (fun x r hr => .inl hr.etag)
      (fun d r hd hf hr => ?_) env w
    refine .inr ⟨uri, d, (hv.old uri d hd hf).1, hf, ?_⟩
    rw [← hv.fetcherOf]
    exact hr
  · intro a w' ha
    obtain ⟨r, v', h1, h2⟩ := getLatest_done ha
    cases h1
    exact h2.tagOk ht hv

theorem checkCa_tags (ht : TaggedSources tag p p' env) {v0 v : Visited} {issuer : ResCert}
    {info : CaInfo} {offline : Bool} {time : Time} (hv : TagOk tag p p' v0 v) :
    Yields env (TagReq v0) (fun x => TagOk tag p p' v0 x.2.2)
      (checkCa v issuer info offline time) := by
  unfold checkCa
  dsimp only
  match info.siaRrdp with
  | none => exact Yields.pure hv
  | some rrdp =>
    refine Yields.bind (getLatest_tags ht hv) (fun x hx => ?_)
    obtain ⟨r, v'⟩ := x
    match r with
    | .error e => exact Yields.pure hx
    | .ok data =>
      dsimp only
      match openCa data.objects issuer info time with
      | .error (u, k) => exact Yields.pure hx
      | .ok (crl, entries) =>
        refine Yields.bind (Yields.of_logs tick_logs) (fun n _ => Yields.bind
          (Yields.of_logs Rel.askEnv) (fun env' _ => Yields.bind
            (Yields.of_logs (checkEntries_logs _ _ _ _ _ _)) (fun acc _ => Yields.pure hx)))

theorem validateKids_tags {v0 : Visited}
    {rec : Visited → ResCert → CaInfo → M (Report × Visited)}
    (hrec : ∀ v c i, TagOk tag p p' v0 v →
      Yields env (TagReq v0) (fun x => TagOk tag p p' v0 x.2) (rec v c i))
    (ks : List (ResCert × CaInfo)) : ∀ v rep, TagOk tag p p' v0 v →
      Yields env (TagReq v0) (fun x => TagOk tag p p' v0 x.2) (validateKids rec v rep ks) := by
  induction ks with
  | nil => exact fun v rep hv => Yields.pure hv
  | cons k ks ih =>
    obtain ⟨c, i⟩ := k
    intro v rep hv
    unfold validateKids
    exact Yields.bind (hrec v c i hv) (fun x hx => ih _ _ hx)

theorem validateTree_tags (ht : TaggedSources tag p p' env) {v0 : Visited} {offline : Bool}
    {time : Time} (depth : Nat) : ∀ v c i, TagOk tag p p' v0 v →
      Yields env (TagReq v0) (fun x => TagOk tag p p' v0 x.2)
        (validateTree offline time depth v c i) := by
  induction depth with
  | zero => exact fun _ _ _ _ => Yields.throw
  | succ depth ih =>
    intro v c i hv
    unfold validateTree
    exact Yields.bind (checkCa_tags ht hv) (fun x hx => validateKids_tags ih _ _ _ hx)

theorem FetchSource.Asks.etag {src : FetchSource} {etag : Option Str} {r : Req}
    (h : src.Asks etag r) : r.etag = etag := by
  match src, h with
  | .uri u m, h => rw [show r = ⟨u, m, etag⟩ from h]

theorem validateTals_tags (ht : TaggedSources tag p p' env) {v0 : Visited} {offline : Bool}
    {time : Time} (depth : Nat) (ts : List Tal) : ∀ v rep, TagOk tag p p' v0 v →
      Yields env (TagReq v0) (fun x => TagOk tag p p' v0 x.2)
        (validateTals depth v rep offline time ts) := by
  induction ts with
  | nil => exact fun v rep hv => Yields.pure hv
  | cons t ts ih =>
    intro v rep hv
    unfold validateTals validateTa
    refine Yields.bind (Yields.bind (Yields.of_logs (validateAt_logs (fun r hr => .inl hr.etag)))
      (fun c _ => ?_)) (fun x hx => ih _ _ hx)
    match CaInfo.ofCert c with
    | none => exact Yields.throw
    | some info => exact validateTree_tags ht _ _ _ _ hv

theorem validate_tags (ht : TaggedSources tag p p' env) {v0 : Visited} {v : Validator}
    {offline : Bool} (depth : Nat) (hv : TagOk tag p p' v0 v.repos) :
    Yields env (TagReq v0) (fun x => TagOk tag p p' v0 x.2.repos) (v.validate depth offline) := by
  unfold Validator.validate
  exact Yields.bind (Yields.of_logs now_logs) (fun time _ =>
    Yields.bind (validateTals_tags ht _ _ _ _ hv) (fun x hx => Yields.pure hx))

theorem initStaging_tags (ht : TaggedSources tag p p' env) {v0 : Visited} {v : Validator}
    {uri : Str} (hv : TagOk tag p p' v0 v.repos) :
    Yields env (TagReq v0) (fun x => TagOk tag p p' v0 x.repos) (v.initStaging uri) := by
  unfold Validator.initStaging
  refine Yields.bind (Yields.of_logs now_logs) (fun time _ =>
    Yields.bind (getLatest_tags ht hv) (fun x hx => ?_))
  obtain ⟨r, v'⟩ := x
  match r with
  | .ok d => exact Yields.pure hx
  | .error e => exact Yields.throw

theorem chooseValidator_logs {E : Eff} {existing : Option Validator} {c : Config} :
    Rel (Logs E) (chooseValidator existing c) := by
  unfold chooseValidator
  by_cases ht : c.talFiles = []
  · rw [if_pos ht]; exact Rel.pure _
  · rw [if_neg ht]
    have h2 : Rel (Logs E) (createValidator c) := fun e w => (createValidator_in (E := E) c e w).logs
    rel_auto

/-- The validator's data fit their tags; the only repository found elsewhere than at its URI is
that being synchronised. -/
def FitsTags (tag : Str → Str → Uuid → Nat → Prop) (c : Config) (p : Seen) (s : RrdpState) : Prop :=
  ∀ v, s.validator = some v →
    (∃ base, v.repos.fetchers = [(c.notificationUri, c.stagedFetcher base)]) ∧
    ∀ uri d, mapGet v.repos.data uri = some d → Fits tag p (v.repos.fetcherOf uri) d

theorem preValidate_tags (ht : TaggedSources tag p p' env) {depth : Nat} {s : RrdpState}
    {c : Config} (hs : FitsTags tag c p s) :
    Yields env (fun r => r.etag = none ∨ ∃ v, s.validator = some v ∧ TagReq v.repos r)
      (FitsTags tag c p') (s.preValidate depth c) := by
  intro w
  match hx : s.preValidate depth c env w with
  | (x, w') =>
    have hch := chooseValidator_logs
      (E := reqEff (fun r => r.etag = none ∨ ∃ v, s.validator = some v ∧ TagReq v.repos r))
      (existing := s.validator) (c := c) env w
    rcases preValidate_steps hx with ⟨e, rfl, h1⟩ | ⟨o, w1, h1, h2⟩
    · rw [h1] at hch
      exact ⟨hch, fun a w'' ha => by cases ha⟩
    · rw [h1] at hch
      rcases h2 with ⟨_, rfl, rfl⟩ | ⟨v, rfl, h2⟩
      · refine ⟨hch, fun a w'' ha => ?_⟩
        cases ha
        intro v hv
        cases hv
      · obtain ⟨_, ⟨_, hn⟩ | ⟨_, v', tals, base, hv, h3, h4, h5, h6⟩⟩ := chooseValidator_ok h1
        · cases hn
        · cases hv
          have k1 : ∃ base, v.repos.fetchers = [(c.notificationUri, c.stagedFetcher base)] := by
            rcases h6 with rfl | ⟨h6, _⟩
            · exact ⟨base, rfl⟩
            · exact (hs v h6).1
          have k2 : TagOk tag p p' v.repos v.repos := by
            rcases h6 with rfl | ⟨h6, _⟩
            · exact ⟨rfl, fun uri d hd => (by cases hd), fun uri d hd => (by cases hd)⟩
            · exact ⟨rfl, fun uri d hd _ => ⟨hd, (hs v h6).2 uri d hd⟩,
                fun uri d hd => ((hs v h6).2 uri d hd).mono ht.later⟩
          have k3 : ∀ r, TagReq v.repos r → r.etag = none ∨ ∃ v, s.validator = some v ∧
              TagReq v.repos r := by
            intro r hr
            rcases h6 with rfl | ⟨h6, _⟩
            · rcases hr with hr | ⟨_, _, hr, _⟩
              · exact .inl hr
              · cases hr
            · exact .inr ⟨v, h6, hr⟩
          have up : ∀ {a b : World}, Logs (reqEff (TagReq v.repos)) a b → Logs (reqEff
              (fun r => r.etag = none ∨ ∃ v, s.validator = some v ∧ TagReq v.repos r)) a b :=
            fun h => h.mono ⟨fun _ _ => trivial, k3, fun _ _ => trivial, fun _ _ => trivial,
              fun _ _ => trivial, fun _ _ => trivial⟩
          obtain ⟨i1, i2⟩ := initStaging_tags (uri := c.notificationUri) ht k2 w1
          rcases h2 with ⟨e, rfl, h2⟩ | ⟨v1, w2, h2, h7⟩
          · rw [h2] at i1
            exact ⟨Tr.trans hch (up i1), fun a w'' ha => by cases ha⟩
          · rw [h2] at i1
            have i3 := i2 v1 w2 h2
            obtain ⟨j1, j2⟩ := validate_tags (offline := c.offlineValidation) ht depth i3 w2
            rcases h7 with ⟨e, rfl, h7⟩ | ⟨rep, v2, h7, h8⟩
            · rw [h7] at j1
              exact ⟨Tr.trans hch (Tr.trans (up i1) (up j1)), fun a w'' ha => by cases ha⟩
            · rw [h7] at j1
              refine ⟨Tr.trans hch (Tr.trans (up i1) (up j1)), fun a w'' ha => ?_⟩
              rcases h8 with ⟨e, rfl, _⟩ | ⟨rfl, _⟩
              · cases ha
              · cases ha
                have j3 := j2 _ _ h7
                intro v' hv'
                cases hv'
                obtain ⟨b', hb'⟩ := k1
                exact ⟨⟨b', j3.fetchers.trans hb'⟩, fun uri d hd => by
                  rw [j3.fetcherOf]; exact j3.fits uri d hd⟩

theorem mapGet_map {α β γ : Type} [DecidableEq α] (g : β → γ) (l : List (α × β)) (k : α) :
    mapGet (l.map (fun e => (e.1, g e.2))) k = (mapGet l k).map g := by
  induction l with
  | nil => rfl
  | cons e l ih =>
    rw [List.map_cons, mapGet_cons, mapGet_cons, ih]
    split <;> rfl

theorem FitsTags.persisted {c : Config} {s : RrdpState} (h : FitsTags tag c p s) :
    FitsTags tag c p s.persisted := by
  intro v hv
  unfold RrdpState.persisted at hv
  match hs : s.validator with
  | none => rw [hs] at hv; cases hv
  | some v0 =>
    rw [hs] at hv
    cases hv
    obtain ⟨h1, h2⟩ := h v0 hs
    refine ⟨h1, fun uri d hd => ?_⟩
    dsimp only at hd
    rw [mapGet_map] at hd
    match hd0 : mapGet v0.repos.data uri with
    | none => rw [hd0] at hd; cases hd
    | some d0 =>
      rw [hd0] at hd
      cases hd
      exact h2 uri d0 hd0

theorem process_tags (ht : TaggedSources tag p p' env) {depth : Nat} {c : Config} {base name : Str}
    {w : World} (hw : w.cur.WF) (hu : NotifUri c base name)
    (hs : ∀ s, InUse c base name w.cur s → s.source.etag = none ∧ FitsTags tag c p s) :
    Within (reqEff (fun r => r.etag = none ∨ ∃ s v, InUse c base name w.cur s ∧
      s.validator = some v ∧ TagReq v.repos r)) w (process depth c env w).2 := by
  have hp : Within (reqEff (fun r => r.etag = none ∨ ∃ s v, InUse c base name w.cur s ∧
      s.validator = some v ∧ TagReq v.repos r)) w (prepare depth c env w).2 := by
    unfold prepare
    refine Within.bindAt (loadState_in c env w) (fun s w1 e1 => ?_)
    have hi := loadState_inUse hu e1
    obtain ⟨k1, k2⟩ := hs s hi
    refine Within.bindAt (updateStaged_reqs (fun r hr => .inl (hr.etag.trans k1))
      (fun n _ x _ r hr => .inl hr.etag)) (fun st w2 e2 => ?_)
    cases st with
    | none => exact Tr.refl _
    | some st =>
      dsimp only
      refine Within.bindAt ?_ (fun s' w3 h3 => ?_)
      · have hany := preValidate_in (E := reqEff fun _ => True) (fun _ => trivial) depth s c env w2
        refine ⟨hany.steps, ?_, hany.dirs⟩
        exact (preValidate_tags ht k2 w2).1.mono ⟨fun _ _ => trivial, fun r hr => by
          rcases hr with hr | ⟨v, h1, h2⟩
          · exact .inl hr
          · exact .inr ⟨s, v, hi, h1, h2⟩, fun _ _ => trivial, fun _ _ => trivial, fun _ _ => trivial,
            fun _ _ => trivial⟩
      · exact Within.bindAt (scriptGate_in (fun p hp => trivial) env w3)
          (fun _ w4 _ => Tr.refl _)
  refine process_tr (T := Within (reqEff _)) hp (fun s st w1 e => publish_reqs ?_)
  have := hp.wf hw
  rw [e] at this; exact this

theorem InUse.unique {c : Config} {base name : Str} {fs : FS} {s s' : RrdpState}
    (h : InUse c base name fs s) (h' : InUse c base name fs s') : s = s' := by
  have no : ∀ {s}, Recorded c fs s → fs.exists? c.rrdpStatePath = false → False := by
    rintro s ⟨b, h1, _⟩ h2
    unfold FS.exists? at h2
    unfold FS.read at h1
    match hr : fs.resolve c.rrdpStatePath with
    | none => rw [hr] at h1; cases h1
    | some n => rw [hr] at h2; cases h2
  rcases h with h | ⟨h1, rfl⟩
  · rcases h' with h' | ⟨h2, rfl⟩
    · exact h.unique h'
    · exact (no h h2).elim
  · rcases h' with h' | ⟨_, rfl⟩
    · exact (no h' h1).elim
    · rfl

theorem tags_invariant {c : Config} {base name : Str} (hl : Layout c base name) :
    Inductive c base name
      (fun p p' (_ : Nat) env fs => GoodSource c base name env fs ∧ TaggedSources tag p p' env)
      (fun p s => s.source.etag = none ∧ FitsTags tag c p s) (fun _ _ => True) := by
  refine ⟨fun _ _ _ _ _ h => h.1, fun _ => ⟨rfl, fun v hv => by cases hv⟩,
    fun _ _ h => ⟨h.1, h.2.persisted⟩, fun _ _ _ _ _ _ h hs => ⟨hs.1, fun v hv => ⟨(hs.2 v hv).1,
      fun uri d hd => ((hs.2 v hv).2 uri d hd).mono h.2.later⟩⟩, fun _ _ _ _ _ _ _ _ => trivial,
    fun _ _ _ _ _ _ _ _ _ _ _ _ _ _ _ _ _ _ _ => trivial, ?_⟩
  intro p p' depth env f s0 s s2 st w n n0 hok hq hi hv _ _ _ ha hn
  obtain ⟨s00, w1, w2, w3, h1, h2, h3, h4⟩ := prepare_parts ha.prep
  have h5 : s00 = s0 := (loadState_inUse hl.uri h1).unique hi
  subst h5
  have h6 := (preValidate_tags hok.2 hq.2 w2).2 s w3 h3
  obtain ⟨v, rfl⟩ := hv
  refine ⟨by rw [hn.source]; exact hq.1, fun v' hv' => h6 v' ?_⟩
  rw [← hn.validator]; exact hv'

end KSync
