import Verif.Lemmas.Crash

/-! # The first half of a run: loading the state and staging -/

set_option linter.unusedSectionVars false
set_option linter.unusedSimpArgs false
set_option linter.unusedVariables false

namespace KSync

variable [Ext] {env : Env} {w w' : World} {c : Config} {s : RrdpState}

theorem loadState_ok (h : loadState c env w = (.ok s, w')) :
    Same w w' ∧ w'.reqs = w.reqs ∧ w'.ran = w.ran ∧ w'.copied = w.copied ∧
    ((w.cur.exists? c.rrdpStatePath = true ∧
        ∃ b, w.cur.read c.rrdpStatePath = some b ∧ Ext.decState b = some s) ∨
     (w.cur.exists? c.rrdpStatePath = false ∧ RrdpState.create c = .ok s)) := by
  unfold loadState at h
  rw [getFs_bind] at h
  split at h
  · rename_i he
    unfold RrdpState.recover at h
    obtain ⟨b, w1, h1, h2⟩ := M.bind_ok.1 h
    obtain ⟨h3, rfl, _⟩ := readFile_ok h1
    rw [M.orThrow_ok_iff] at h2
    obtain ⟨h2, rfl⟩ := h2
    exact ⟨⟨rfl, rfl⟩, rfl, rfl, rfl, Or.inl ⟨he, b, h3, h2⟩⟩
  · rename_i he
    rw [M.lift_ok_iff] at h
    obtain ⟨h, rfl⟩ := h
    exact ⟨⟨rfl, rfl⟩, rfl, rfl, rfl, Or.inr ⟨by simpa using he, h⟩⟩

theorem loadState_same (c : Config) : Rel Same (loadState c) := by
  unfold loadState RrdpState.recover
  have h1 := readFile_same c.rrdpStatePath
  rel_auto

theorem readNotification_same (f : Fetcher) (etag : Option Str) :
    Rel Same (f.readNotification etag) := by
  unfold Fetcher.readNotification
  have h1 := fun src : FetchSource => fetch_same (src := src) (hash := none) (etag := etag)
  rel_auto

/-- The effect of asking for the notification file. -/
def askNotif (c : Config) (etag : Option Str) : Eff :=
  ⟨fun _ => False, c.fetcher.Asks c.notificationUri etag, fun _ => False, fun _ => False,
    fun _ => False, fun _ => False⟩

/-- The three ways through `updateStaged`. -/
theorem updateStaged_cases (s : RrdpState) (c : Config) (env : Env) (w : World) :
    (∃ e w1, s.updateStaged c env w = (.error e, w1) ∧ Same w w1 ∧
      Within (askNotif c s.source.etag) w w1) ∨
    (∃ w1, s.updateStaged c env w = (.ok none, w1) ∧ Same w w1 ∧
      Within (askNotif c s.source.etag) w w1 ∧
      ((∃ n, Offers c env w.cur s.source.etag n ∧ ∃ snap, s.snapshot = some snap ∧
          snap.session = n.session ∧ snap.serial = n.serial) ∨
       ∃ u m tick, c.Locates c.notificationUri (.uri u m) ∧
          env.http tick ⟨u, m, s.source.etag⟩ = .notModified)) ∨
    (∃ n etag ds reset w1, Offers c env w.cur s.source.etag n ∧
      sortVerify c.rrdpMaxDeltas n.deltas = .ok ds ∧
      decideUpdate s.snapshot { n with deltas := ds } = .proceed reset ∧ Same w w1 ∧
      Within (askNotif c s.source.etag) w w1 ∧
      s.updateStaged c env w = s.stage c { n with deltas := ds } etag reset env w1) := by
  have hin := readNotification_in (E := askNotif c s.source.etag) (f := c.fetcher)
    (etag := s.source.etag) (fun r hr => hr) env w
  have hsame := readNotification_same c.fetcher s.source.etag env w
  unfold RrdpState.updateStaged
  rcases M.bind_cases (c.fetcher.readNotification s.source.etag) _ env w with
    ⟨e, w1, h1, h2⟩ | ⟨r, w1, h1, h2⟩
  · rw [h1] at hin hsame
    exact Or.inl ⟨e, w1, h2, hsame, hin⟩
  · rw [h1] at hin hsame
    rw [h2]
    obtain ⟨_, src, hsrc, hc⟩ := readNotification_ok h1
    have hloc := resolve_locates.1 hsrc
    rcases hc with ⟨n, e, b, rfl, hb, hp⟩ | ⟨rfl, u, m, tick, rfl, hm⟩
    · have hoff : Offers c env w.cur s.source.etag n := ⟨src, b, e, hloc, hb, hp⟩
      dsimp only
      match hv : sortVerify c.rrdpMaxDeltas n.deltas with
      | .error er => exact Or.inl ⟨er, w1, rfl, hsame, hin⟩
      | .ok ds =>
        match hd : decideUpdate s.snapshot { n with deltas := ds } with
        | .noChange =>
          refine Or.inr (Or.inl ⟨w1, ?_, hsame, hin, Or.inl ⟨n, hoff, ?_⟩⟩)
          · rw [M.bind_of_ok (a := ds) (w1 := w1) rfl, hd]; rfl
          · unfold decideUpdate at hd
            split at hd
            · cases hd
            · rename_i snap hs
              refine ⟨snap, hs, ?_⟩
              split at hd
              · cases hd
              · rename_i h3
                split at hd
                · cases hd
                · split at hd
                  · rename_i h4
                    exact ⟨Decidable.not_not.1 h3, h4⟩
                  · cases hd
        | .before =>
          refine Or.inl ⟨.serialBefore, w1, ?_, hsame, hin⟩
          rw [M.bind_of_ok (a := ds) (w1 := w1) rfl, hd]; rfl
        | .proceed reset =>
          refine Or.inr (Or.inr ⟨n, e, ds, reset, w1, hoff, hv, hd, hsame, hin, ?_⟩)
          rw [M.bind_of_ok (a := ds) (w1 := w1) rfl, hd]
    · exact Or.inr (Or.inl ⟨w1, rfl, hsame, hin, Or.inr ⟨u, m, tick, hloc, hm⟩⟩)

/-- A run is over after loading and deciding unless there is something to stage. -/
theorem process_cases (depth : Nat) (c : Config) (env : Env) (w : World) :
    (∃ e w1, process depth c env w = (.error e, w1) ∧ Same w w1 ∧
      loadState c env w = (.error e, w1)) ∨
    (∃ s w1, loadState c env w = (.ok s, w1) ∧ Same w w1 ∧
      process depth c env w = (s.updateStaged c >>= fun staged => match staged with
        | none => pure ()
        | some st => s.preValidate depth c >>= fun s' => scriptGate c >>= fun _ =>
            publish c s' st) env w1) := by
  have hs := loadState_same c env w
  unfold process
  rcases M.bind_cases (loadState c) _ env w with ⟨e, w1, h1, h2⟩ | ⟨s, w1, h1, h2⟩
  · rw [h1] at hs
    exact Or.inl ⟨e, w1, h2, hs, h1⟩
  · rw [h1] at hs
    exact Or.inr ⟨s, w1, h1, hs, h2⟩


/-! ## Exact behaviour of the first steps -/

theorem exists_of_read {fs : FS} {p : Path} {b : Bytes} (h : fs.read p = some b) :
    fs.exists? p = true := by
  unfold FS.read at h
  unfold FS.exists?
  split at h
  · rename_i heq; rw [heq]; rfl
  · cases h

/-- With a state on disk, loading gives that state or fails. -/
theorem loadState_recorded {s0 : RrdpState} (hs : Recorded c w.cur s0)
    (h : loadState c env w = (.ok s, w')) : s = s0 := by
  obtain ⟨b, h1, h2⟩ := hs
  obtain ⟨_, _, _, _, hc⟩ := loadState_ok h
  rcases hc with ⟨_, b', h3, h4⟩ | ⟨h3, _⟩
  · rw [h1] at h3; cases h3; rw [h2] at h4; cases h4 <;> rfl
  · rw [exists_of_read h1] at h3; cases h3

theorem loadState_run (hs : Recorded c w.cur s) (hf : env.fault w.tick = false) :
    loadState c env w = (.ok s, { w with tick := w.tick + 1 }) := by
  obtain ⟨b, h1, h2⟩ := hs
  unfold loadState
  rw [getFs_bind, if_pos (exists_of_read h1)]
  unfold RrdpState.recover
  rw [M.bind_of_ok (readFile_run_ok h1 hf), h2]
  rfl

theorem fetch_none_world (src : FetchSource) (hash : Option Hash) (etag : Option Str) :
    (src.fetch hash etag none env w).2 = (src.raw etag env w).2 := by
  unfold FetchSource.fetch
  rcases M.bind_cases (src.raw etag) _ env w with ⟨e, w1, h1, h2⟩ | ⟨r, w1, h1, h2⟩
  · rw [h2, h1]
  · rw [h2, h1]
    cases r with
    | data b e =>
      cases hash with
      | none => rfl
      | some h => dsimp only; split <;> rfl
    | saved => rfl
    | unmodified => rfl

theorem raw_reqs (src : FetchSource) (etag : Option Str) :
    (src.raw etag env w).2.reqs = w.reqs ∨
      ∃ r, src.Asks etag r ∧ (src.raw etag env w).2.reqs = r :: w.reqs := by
  cases src with
  | file p =>
    left
    unfold FetchSource.raw
    dsimp only
    have := readFile_world (env := env) (w := w) p
    rcases M.bind_cases (readFile p) (fun b => pure (FetchResponse.data b none)) env w with
      ⟨e, w1, h1, h2⟩ | ⟨r, w1, h1, h2⟩
    · rw [h2]; rw [h1] at this; dsimp only at this ⊢; rw [this]
    · rw [h2]; rw [h1] at this; dsimp only [M.pure_run] at this ⊢; rw [this]
  | uri u m =>
    right
    refine ⟨⟨u, m, etag⟩, rfl, ?_⟩
    unfold FetchSource.raw
    dsimp only
    rw [M.bind_of_ok (httpGet_run _)]
    split
    · rfl
    · split
      · rfl
      · split <;> rfl
      · split <;> rfl
    · rfl
    · rfl

theorem readNotification_reqs (f : Fetcher) (etag : Option Str) :
    (f.readNotification etag env w).2.reqs = w.reqs ∨
      ∃ r, f.Asks f.notificationUri etag r ∧
        (f.readNotification etag env w).2.reqs = r :: w.reqs := by
  unfold Fetcher.readNotification
  match hr : f.resolve f.notificationUri with
  | .error e => left; rfl
  | .ok src =>
    have h0 := raw_reqs (env := env) (w := w) src etag
    rw [M.bind_of_ok (a := src) (w1 := w) rfl]
    have h1 := fetch_none_world (env := env) (w := w) src none etag
    have key : ((src.fetch none etag none >>= fun resp => match resp with
        | .data b e => (match Ext.parseNotif b with
          | some n => pure (some (n, e))
          | none => M.throw .parse : M (Option (Notif × Option Str)))
        | .unmodified => pure none
        | .saved => M.throw .panic) env w).2 = (src.raw etag env w).2 := by
      rw [← h1]
      rcases M.bind_cases (src.fetch none etag none) _ env w with ⟨e, w1, h2, h3⟩ | ⟨r, w1, h2, h3⟩
      · rw [h3, h2]
      · rw [h3, h2]
        cases r with
        | data b e => dsimp only; split <;> rfl
        | saved => rfl
        | unmodified => rfl
    have key' : ∀ x, x = (src.raw etag env w).2 → x.reqs = w.reqs ∨
      ∃ r, f.Asks f.notificationUri etag r ∧ x.reqs = r :: w.reqs := by
      rintro x rfl
      rcases h0 with h0 | ⟨r, h2, h3⟩
      · exact Or.inl h0
      · exact Or.inr ⟨r, ⟨src, hr, h2⟩, h3⟩
    exact key' _ key

/-- A reliable source is read successfully. -/
theorem raw_answers {src : FetchSource} {etag : Option Str} {P : Bytes → Prop}
    (hf : env.fault w.tick = false) (h : src.Answers env w.cur etag P) :
    ∃ b e w1, src.raw etag env w = (.ok (.data b e), w1) ∧ P b := by
  cases src with
  | file p =>
    obtain ⟨b, h1, h2⟩ := h
    refine ⟨b, none, { w with tick := w.tick + 1 }, ?_, h2⟩
    unfold FetchSource.raw
    dsimp only
    rw [M.bind_of_ok (readFile_run_ok h1 hf)]
    rfl
  | uri u m =>
    obtain ⟨hdr, b, h1, h2, h3⟩ := h w.tick
    unfold FetchSource.raw
    dsimp only
    rw [M.bind_of_ok (httpGet_run _), h1]
    cases hdr with
    | invalid => exact absurd rfl h2
    | absent => exact ⟨b, none, _, rfl, h3⟩
    | valid s => exact ⟨b, some s, _, rfl, h3⟩

theorem readNotification_answers {f : Fetcher} {src : FetchSource} {etag : Option Str}
    {P : Notif → Prop} (hr : f.resolve f.notificationUri = .ok src)
    (hf : env.fault w.tick = false)
    (h : src.Answers env w.cur etag (fun b => ∃ n, Ext.parseNotif b = some n ∧ P n)) :
    ∃ n e w1, f.readNotification etag env w = (.ok (some (n, e)), w1) ∧ P n := by
  obtain ⟨b, e, w1, h1, n, h2, h3⟩ := raw_answers hf h
  refine ⟨n, e, w1, ?_, h3⟩
  unfold Fetcher.readNotification
  rw [hr, M.bind_of_ok (a := src) (w1 := w) rfl]
  have h4 : src.fetch none etag none env w = (.ok (.data b e), w1) := by
    unfold FetchSource.fetch
    rw [M.bind_of_ok h1]
    rfl
  rw [M.bind_of_ok h4]
  dsimp only
  rw [h2]
  rfl

/-- When nothing is to be staged the run is over: no change, no script, one request. -/
theorem process_quiet {depth : Nat} (h : ∀ s w1 n ds reset,
      loadState c env w = (.ok s, w1) → Offers c env w.cur s.source.etag n →
      sortVerify c.rrdpMaxDeltas n.deltas = .ok ds →
      decideUpdate s.snapshot { n with deltas := ds } ≠ .proceed reset) :
    Same w (process depth c env w).2 ∧ (process depth c env w).2.ran = w.ran ∧
    (process depth c env w).2.copied = w.copied ∧
    ((process depth c env w).2.reqs = w.reqs ∨ ∃ r s w1, loadState c env w = (.ok s, w1) ∧
      c.fetcher.Asks c.notificationUri s.source.etag r ∧
      (process depth c env w).2.reqs = r :: w.reqs) := by
  rcases process_cases depth c env w with ⟨e, w1, h1, h2, h3⟩ | ⟨s, w1, h1, h2, h3⟩
  · rw [h1]
    have hl := loadState_in (E := Eff.none) c env w
    rw [h3] at hl
    exact ⟨h2, hl.logs.ran.eq_of_false, hl.logs.copied.eq_of_false,
      Or.inl hl.logs.reqs.eq_of_false⟩
  · obtain ⟨_, hq, hr, hc, _⟩ := loadState_ok h1
    rw [h3]
    rcases updateStaged_cases s c env w1 with ⟨e, w2, h4, h5, h6⟩ | ⟨w2, h4, h5, h6, _⟩ |
      ⟨n, etag, ds, reset, w2, h4, h5, h6, _⟩
    all_goals try exact absurd h6 (h s w1 n ds reset h1 (h2.1 ▸ h4) h5)
    all_goals
      have hreq : w2.reqs = w1.reqs ∨ ∃ r, c.fetcher.Asks c.notificationUri s.source.etag r ∧
          w2.reqs = r :: w1.reqs := by
        have h7 := readNotification_reqs (env := env) (w := w1) c.fetcher s.source.etag
        have h8 : w2.reqs = (c.fetcher.readNotification s.source.etag env w1).2.reqs := by
          unfold RrdpState.updateStaged at h4
          rcases M.bind_cases (c.fetcher.readNotification s.source.etag) _ env w1 with
            ⟨e', w3, g1, g2⟩ | ⟨a, w3, g1, g2⟩
          · rw [g2] at h4; rw [g1]; cases h4 <;> rfl
          · rw [g2] at h4; rw [g1]
            obtain ⟨_, src, hsrc, hcc⟩ := readNotification_ok g1
            rcases hcc with ⟨n, e, b, rfl, hb, hp⟩ | ⟨rfl, _⟩
            · dsimp only at h4
              match hv : sortVerify c.rrdpMaxDeltas n.deltas with
              | .error er => rw [hv] at h4; cases h4 <;> rfl
              | .ok ds =>
                rw [hv, M.bind_of_ok (a := ds) (w1 := w3) rfl] at h4
                match hd : decideUpdate s.snapshot { n with deltas := ds } with
                | .noChange => rw [hd] at h4; cases h4 <;> rfl
                | .before => rw [hd] at h4; cases h4 <;> rfl
                | .proceed reset =>
                  exact absurd hd (h s w1 n ds reset h1
                    ⟨src, b, e, resolve_locates.1 hsrc, h2.1 ▸ hb, hp⟩ hv)
            · cases h4 <;> rfl
        rw [h8]; exact h7
      first
        | rw [M.bind_of_error h4]
        | rw [M.bind_of_ok h4]
      dsimp only [M.pure_run]
      refine ⟨Tr.trans h2 h5, h6.logs.ran.eq_of_false.trans hr,
        h6.logs.copied.eq_of_false.trans hc, ?_⟩
      rcases hreq with h7 | ⟨r, h7, h8⟩
      · exact Or.inl (h7.trans hq)
      · exact Or.inr ⟨r, s, w1, h1, h7, by rw [h8, hq]⟩

end KSync
