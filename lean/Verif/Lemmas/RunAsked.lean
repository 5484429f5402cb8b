import Verif.Lemmas.Asked
import Verif.Lemmas.Tags

/-! # What a run requests -/

set_option linter.unusedSectionVars false
set_option linter.unusedVariables false

namespace KSync

variable [Ext] {env : Env} {w w' : World}

/-- The only repository found elsewhere than at its URI is that being synchronised. -/
def OneFetcher (c : Config) (base : Str) (s : RrdpState) : Prop :=
  ∀ v, s.validator = some v → v.repos.fetchers = [(c.notificationUri, c.stagedFetcher base)]

theorem OneFetcher.persisted {c : Config} {base : Str} {s : RrdpState} (h : OneFetcher c base s) :
    OneFetcher c base s.persisted := by
  intro v hv
  unfold RrdpState.persisted at hv
  match hs : s.validator with
  | none => rw [hs] at hv; cases hv
  | some v0 =>
    rw [hs] at hv
    cases hv
    exact h v0 hs

theorem validate_fetchers {v v' : Validator} {depth : Nat} {offline : Bool} {rep : Report}
    (h : v.validate depth offline env w = (.ok (rep, v'), w')) :
    v'.repos.fetchers = v.repos.fetchers :=
  (validate_walked (J := ValInv env w.cur v.repos offline)
    (fun time ht => by rw [ht]; exact stepOk_judged w.cur v.repos offline (env.clock w.tick))
    (fun time ht => by rw [ht]; exact taOk_anchor w.cur v.repos offline (env.clock w.tick))
    (show ValInv env w.cur v.repos offline { w with tick := w.tick + 1 } v.repos from
      .start _ _ _ rfl) h).1.fetchers

theorem preValidate_one {depth : Nat} {s s' : RrdpState} {c : Config} {base name : Str}
    (hu : NotifUri c base name) (hs : OneFetcher c base s)
    (h : s.preValidate depth c env w = (.ok s', w')) : OneFetcher c base s' := by
  rcases preValidate_steps h with ⟨e, he, _⟩ | ⟨o, w1, h1, h2⟩
  · cases he
  · rcases h2 with ⟨_, he, _⟩ | ⟨v, rfl, h2⟩
    · cases he
      intro v hv
      cases hv
    · obtain ⟨_, ⟨_, hn⟩ | ⟨_, v', tals, base', hv, _, _, h5, h6⟩⟩ := chooseValidator_ok h1
      · cases hn
      · cases hv
        rw [hu.parent] at h5
        cases h5
        have k1 : v.repos.fetchers = [(c.notificationUri, c.stagedFetcher base)] := by
          rcases h6 with rfl | ⟨h6, _⟩
          · rfl
          · exact hs v h6
        rcases h2 with ⟨e, he, _⟩ | ⟨v1, w2, h2, ⟨e, he, _⟩ | ⟨rep, v2, h7, ⟨e, he, _⟩ | ⟨he, _⟩⟩⟩
        · cases he
        · cases he
        · cases he
        · cases he
          intro v' hv'
          cases hv'
          exact (validate_fetchers h7).trans ((initStaging_ok h2).2.2.1.trans k1)

/-- What the validation in a run may request. -/
def ValidationReq (c : Config) (base : Str) (env : Env) (fs : FS) (r : Req) : Prop :=
  ∃ g v, RunValidator c base env fs g v ∧
    (ForAnchor v r ∨ c.offlineValidation = false ∧ ForRepository c env g v r)

theorem FetchSource.Asks.anchor {src : FetchSource} {r : Req} (h : src.Asks none r) :
    src = .uri r.uri r.insecure ∧ r.etag = none := by
  match src, h with
  | .uri u m, h => rw [show r = ⟨u, m, none⟩ from h]; exact ⟨rfl, rfl⟩

theorem preValidate_asked {depth : Nat} {s : RrdpState} {c : Config} {base name : Str} {fs : FS}
    (hu : NotifUri c base name) (hf : Frame (c.stagingDir <+: ·) fs w.cur)
    (hi : InUse c base name fs s) (hs : OneFetcher c base s) :
    Logs (reqEff (ValidationReq c base env fs)) w (s.preValidate depth c env w).2 := by
  match hx : s.preValidate depth c env w with
  | (x, w') =>
    have hch := chooseValidator_logs (E := reqEff (ValidationReq c base env fs))
      (existing := s.validator) (c := c) env w
    rcases preValidate_steps hx with ⟨e, rfl, h1⟩ | ⟨o, w1, h1, h2⟩
    · rw [h1] at hch
      exact hch
    · rw [h1] at hch
      rcases h2 with ⟨_, rfl, rfl⟩ | ⟨v, rfl, h2⟩
      · exact hch
      · obtain ⟨hw1, ⟨_, hn⟩ | ⟨_, v', tals, base', hv, h3, h4, h5, h6⟩⟩ := chooseValidator_ok h1
        · cases hn
        · cases hv
          rw [hu.parent] at h5
          cases h5
          have hw1 : w1.cur = w.cur := by rw [hw1]
          have k1 : v.repos.fetchers = [(c.notificationUri, c.stagedFetcher base)] := by
            rcases h6 with rfl | ⟨h6, _⟩
            · rfl
            · exact hs v h6
          have hg : v.repos.fetcherOf c.notificationUri = c.stagedFetcher base := by
            rw [← Visited.getFetcher_eq]
            unfold Visited.getFetcher
            rw [k1, mapGet_cons, if_pos rfl]
          have i1 : Logs (reqEff (ValidationReq c base env fs)) w1 (v.initStaging c.notificationUri env w1).2 :=
            initStaging_logs (fun x etag r => by rw [hg]; exact staged_asks) env w1
          rcases h2 with ⟨e, rfl, h2⟩ | ⟨v1, w2, h2, h7⟩
          · rw [h2] at i1
            exact Tr.trans hch i1
          · rw [h2] at i1
            obtain ⟨j0, j1, j2, j3, d, j4, j5⟩ := initStaging_ok h2
            have hw2 : w2.cur = w.cur := by rw [j0.cur, hw1]
            have hrv : RunValidator c base env fs w.cur v1 := by
              refine ⟨hf, by rw [j1, h4]; exact h3, v.repos, j2, ?_, j3, d, _, _, j4, hw1 ▸ j5⟩
              rcases h6 with h6 | ⟨h6, h7⟩
              · rw [h6]; exact .inl rfl
              · refine .inr ⟨s, v, ?_, h6, rfl, j1.symm, h7⟩
                rcases hi with hi | ⟨_, rfl⟩
                · exact hi
                · cases h6
            have hother : ∀ u, u ≠ c.notificationUri → v1.repos.fetcherOf u = ⟨u, none, true⟩ := by
              intro u hu
              rw [← Visited.getFetcher_eq]
              unfold Visited.getFetcher
              rw [j2, k1, mapGet_cons, if_neg hu]
              rfl
            have hmain : v1.repos.fetcherOf c.notificationUri = c.stagedFetcher base := by
              rw [← Visited.getFetcher_eq]
              unfold Visited.getFetcher
              rw [j2, k1, mapGet_cons, if_pos rfl]
            have key := validate_asked (E := reqEff (ValidationReq c base env fs)) (env := env) (w := w2)
              (v := v1) (depth := depth) (offline := c.offlineValidation)
              (fun t ht r hr => ⟨w.cur, v1, hrv, .inl ⟨t, ht, hr.anchor⟩⟩)
              (fun ho issuer i u ht hc hru etag r hr => by
                by_cases hun : u = c.notificationUri
                · rw [hun, hmain] at hr; exact (staged_asks hr).elim
                · rw [hother u hun] at hr
                  obtain ⟨src, h9, h10⟩ := hr
                  cases h9
                  have h10 : r = ⟨u, true, etag⟩ := h10
                  subst h10
                  exact ⟨w.cur, v1, hrv, .inr ⟨ho, w2.tick, issuer, i, u, hw2 ▸ ht, hc, hru, hun, rfl, .inl rfl⟩⟩)
              (fun ho issuer i u ht hc hru n hfn x hx r hr => by
                by_cases hun : u = c.notificationUri
                · rw [hun, hmain] at hr; exact (staged_asks hr).elim
                · rw [hother u hun] at hr hfn
                  obtain ⟨src, h9, h10⟩ := hr
                  cases h9
                  have h10 : r = ⟨x.1, true, none⟩ := h10
                  subst h10
                  exact ⟨w.cur, v1, hrv, .inr ⟨ho, w2.tick, issuer, i, u, hw2 ▸ ht, hc, hru, hun, rfl,
                    .inr ⟨rfl, n, x.2, hw2 ▸ hfn, hx⟩⟩⟩)
            rcases h7 with ⟨e, _, h7⟩ | ⟨rep, v2, h7, _⟩
            · rw [h7] at key; exact Tr.trans hch (Tr.trans i1 key)
            · rw [h7] at key; exact Tr.trans hch (Tr.trans i1 key)

/-- Requests of the search for updates and of the downloads, for a configuration. -/
def StagingReq (c : Config) (env : Env) (fs : FS) (r : Req) : Prop :=
  (∃ etag, c.fetcher.Asks c.notificationUri etag r) ∨
  ∃ etag n, Offers c env fs etag n ∧ ∃ x ∈ n.refs, c.fetcher.Asks x.1 none r

theorem process_asked {depth : Nat} {c : Config} {base name : Str} (hc : RunConds c base name env w.cur)
    (hs : ∀ s, InUse c base name w.cur s → OneFetcher c base s) :
    Within (reqEff (fun r => StagingReq c env w.cur r ∨ ValidationReq c base env w.cur r)) w
      (process depth c env w).2 := by
  have hp : Within (reqEff (fun r => StagingReq c env w.cur r ∨ ValidationReq c base env w.cur r)) w
      (prepare depth c env w).2 := by
    unfold prepare
    refine Within.bindAt (loadState_in c env w) (fun s w1 e1 => ?_)
    have hi := loadState_inUse hc.uri e1
    have hcur : w1.cur = w.cur := (loadState_ok e1).1.1
    refine Within.bindAt (updateStaged_reqs (fun r hr => .inl (.inl ⟨_, hr⟩))
      (fun n hn x hx r hr => .inl (.inr ⟨_, n, hcur ▸ hn, x, hx, hr⟩))) (fun st w2 e2 => ?_)
    have e3 := updateStaged_within hc.uri (hi.sane hc.state) (w := w1) (env := env) (hcur ▸ hc.source)
    rw [e2] at e3
    have hfr := e3.frame (hcur ▸ hc.wf)
    rw [hcur] at hfr
    cases st with
    | none => exact Tr.refl _
    | some st =>
      dsimp only
      refine Within.bindAt ?_ (fun s' w3 h3 => ?_)
      · have hany := preValidate_in (E := reqEff fun _ => True) (fun _ => trivial) depth s c env w2
        refine ⟨hany.steps, ?_, hany.dirs⟩
        exact (preValidate_asked hc.uri hfr hi (hs s hi)).mono ⟨fun _ _ => trivial,
          fun r hr => Or.inr hr, fun _ _ => trivial, fun _ _ => trivial, fun _ _ => trivial,
          fun _ _ => trivial⟩
      · exact Within.bindAt (scriptGate_in (fun p hp => trivial) env w3)
          (fun _ w4 _ => Tr.refl _)
  refine process_tr (T := Within (reqEff _)) hp (fun s st w1 e => publish_reqs ?_)
  have := hp.wf hc.wf
  rw [e] at this; exact this

theorem oneFetcher_invariant {c : Config} {base name : Str} (hl : Layout c base name) :
    Inductive (ι := Unit) c base name (fun _ _ _ env fs => GoodSource c base name env fs)
      (fun _ s => OneFetcher c base s) (fun _ _ => True) := by
  refine ⟨fun _ _ _ _ _ h => h, fun _ v hv => (by cases hv), fun _ _ h => h.persisted,
    fun _ _ _ _ _ _ _ h => h, fun _ _ _ _ _ _ _ _ => trivial,
    fun _ _ _ _ _ _ _ _ _ _ _ _ _ _ _ _ _ _ _ => trivial, ?_⟩
  intro p p' depth env f s0 s s2 st w n n0 hok hq hi hv _ _ _ ha hn
  obtain ⟨s00, w1, w2, w3, h1, h2, h3, h4⟩ := prepare_parts ha.prep
  have h5 : s00 = s0 := (loadState_inUse hl.uri h1).unique hi
  subst h5
  have h6 : OneFetcher c base s := preValidate_one hl.uri hq h3
  intro v' hv'
  exact h6 v' (by rw [← hn.validator]; exact hv')

end KSync
