import Verif.Lemmas.Effects2

/-! # What holds after an operation has succeeded -/

set_option linter.unusedSectionVars false
set_option linter.unusedSimpArgs false
set_option linter.unusedVariables false

namespace KSync

theorem FS.read_of_file {fs : FS} {p : Path} {b : Bytes} (h : fs.file? p = some b) :
    fs.read p = some b := by
  unfold FS.file? at h
  unfold FS.read FS.resolve
  match hg : fs.get p with
  | none => rw [hg] at h; simp at h
  | some .dir => rw [hg] at h; simp at h
  | some (.link _) => rw [hg] at h; simp at h
  | some (.file b' t) => rw [hg] at h; simpa using h

theorem FS.file_of_read {fs : FS} {p : Path} {b : Bytes} (h : fs.read p = some b)
    (hl : fs.link? p = none) : fs.file? p = some b := by
  unfold FS.read FS.resolve at h
  unfold FS.link? at hl
  unfold FS.file?
  match hg : fs.get p with
  | none => rw [hg] at h; simp at h
  | some .dir => rw [hg] at h; simp at h
  | some (.link _) => rw [hg] at hl; simp at hl
  | some (.file b' t) => rw [hg] at h; simpa using h

theorem FS.file?_some {fs : FS} {p : Path} {b : Bytes} :
    fs.file? p = some b ↔ ∃ t, fs.get p = some (.file b t) := by
  unfold FS.file?
  match hg : fs.get p with
  | none => simp
  | some .dir => simp
  | some (.link _) => simp
  | some (.file b' t) => simp

variable {env : Env} {w w' : World}

theorem io_ok {n : Nat} (h : io env w = (.ok n, w')) :
    n = w.tick ∧ w' = { w with tick := w.tick + 1 } ∧ env.fault w.tick = false := by
  unfold io at h
  by_cases hf : env.fault w.tick = true
  · simp [hf] at h
  · simp only [hf, if_false, Bool.false_eq_true] at h
    cases h
    exact ⟨rfl, rfl, by simpa using hf⟩

theorem readFile_ok {p : Path} {b : Bytes} (h : readFile p env w = (.ok b, w')) :
    w.cur.read p = some b ∧ w' = { w with tick := w.tick + 1 } ∧ env.fault w.tick = false := by
  unfold readFile at h
  rw [io_bind] at h
  split at h
  · simp at h
  rename_i hf
  rw [getFs_bind] at h
  dsimp only at h
  unfold FS.read
  split at h
  · rename_i heq
    rw [M.pure_ok] at h
    obtain ⟨rfl, rfl⟩ := h
    rw [heq]
    exact ⟨rfl, rfl, by simpa using hf⟩
  · simp at h

theorem readFile_run_ok {p : Path} {b : Bytes} (h : w.cur.read p = some b)
    (hf : env.fault w.tick = false) :
    readFile p env w = (.ok b, { w with tick := w.tick + 1 }) := by
  unfold readFile
  rw [io_bind]
  simp only [hf, Bool.false_eq_true, if_false]
  rw [getFs_bind]
  unfold FS.read at h
  dsimp only
  split at h
  · rename_i heq
    rw [heq]; cases h; rfl
  · cases h

/-- Whatever `readFile` does, it only takes time. -/
theorem readFile_world (p : Path) :
    (readFile p env w).2 = { w with tick := w.tick + 1 } := by
  unfold readFile
  rw [io_bind]
  split
  · rfl
  rw [getFs_bind]
  dsimp only
  split <;> rfl

theorem mkdir1_ok {p : Path} (h : mkdir1 p env w = (.ok (), w')) :
    w'.cur.get p = some .dir ∧ (∀ q, w.cur.get q = some .dir → w'.cur.get q = some .dir) := by
  unfold mkdir1 at h
  rw [getFs_bind] at h
  match hg : w.cur.get p with
  | some .dir => rw [hg] at h; cases h; exact ⟨hg, fun q hq => hq⟩
  | some (.file _ _) => rw [hg] at h; cases h
  | some (.link _) => rw [hg] at h; cases h
  | none =>
    rw [hg] at h
    dsimp only at h
    rw [io_bind] at h
    split at h
    · cases h
    · split at h
      · have hp : p ≠ [] := by rintro rfl; simp at hg
        rw [push_run] at h
        cases h
        refine ⟨FS.get_set_self _ hp _, fun q hq => ?_⟩
        show (w.cur.set p .dir).get q = _
        rw [FS.get_set _ hp]
        split
        · rfl
        · exact hq
      · cases h

theorem forEach_cons_ok {α : Type} {a : α} {l : List α} {f : α → M Unit} :
    M.forEach (a :: l) f env w = (.ok (), w') ↔
      ∃ w1, f a env w = (.ok (), w1) ∧ M.forEach l f env w1 = (.ok (), w') := by
  constructor
  · intro h
    obtain ⟨⟨⟩, w1, h1, h2⟩ := M.bind_ok'.1 h
    exact ⟨w1, h1, h2⟩
  · rintro ⟨w1, h1, h2⟩
    exact M.bind_ok'.2 ⟨(), w1, h1, h2⟩

theorem forEach_mkdir_ok {l : List Path} (h : M.forEach l mkdir1 env w = (.ok (), w')) :
    (∀ p ∈ l, w'.cur.get p = some .dir) ∧
    (∀ q, w.cur.get q = some .dir → w'.cur.get q = some .dir) := by
  induction l generalizing w with
  | nil => cases h; exact ⟨by simp, fun q hq => hq⟩
  | cons a l ih =>
    obtain ⟨w1, h1, h2⟩ := forEach_cons_ok.1 h
    obtain ⟨i1, i2⟩ := ih h2
    obtain ⟨j1, j2⟩ := mkdir1_ok h1
    refine ⟨fun p hp => ?_, fun q hq => i2 q (j2 q hq)⟩
    rcases List.mem_cons.1 hp with rfl | hp
    · exact i2 _ j1
    · exact i1 p hp

theorem createDirAll_ok {p : Path} (h : createDirAll p env w = (.ok (), w')) :
    w'.cur.get p = some .dir ∧ (∀ q, w.cur.get q = some .dir → w'.cur.get q = some .dir) := by
  obtain ⟨h1, h2⟩ := forEach_mkdir_ok h
  refine ⟨h1 p ?_, h2⟩
  unfold prefixes
  rw [List.mem_map]
  exact ⟨p.length, by simp, by simp⟩

theorem writeAll_ok {p : Path} {b : Bytes} (h : writeAll p b env w = (.ok (), w')) :
    ∃ t, w'.cur = w.cur.set p (.file b t) := by
  rw [writeAll_run] at h
  split at h
  · cases h
  · rw [pushAll_run] at h
    cases h
    refine ⟨env.clock w.tick, ?_⟩
    unfold writeStates
    simp [List.range_succ]

theorem writeBuf_ok {p : Path} {b : Bytes} (h : writeBuf p b env w = (.ok (), w')) :
    p ≠ [] ∧ (∃ t, w'.cur.get p = some (.file b t)) ∧ w'.cur.get p.dropLast = some .dir := by
  unfold writeBuf createFile at h
  rw [M.bind_assoc] at h
  obtain ⟨⟨⟩, w1, h1, h2⟩ := M.bind_ok.1 h
  obtain ⟨⟨⟩, w2, h3, h4⟩ := M.bind_ok.1 h2
  obtain ⟨hp, hd, _, t, h5⟩ := fileCreate_ok h3
  obtain ⟨t', h6⟩ := writeAll_ok h4
  refine ⟨hp, ⟨t', by rw [h6]; exact FS.get_set_self _ hp _⟩, ?_⟩
  rw [h6, FS.get_set_ne _ _ (FS.dropLast_ne hp), h5, FS.get_set_ne _ _ (FS.dropLast_ne hp), hd]

theorem writeBuf_file {p : Path} {b : Bytes} (h : writeBuf p b env w = (.ok (), w')) :
    w'.cur.file? p = some b := by
  obtain ⟨_, ⟨t, ht⟩, _⟩ := writeBuf_ok h
  exact FS.file?_some.2 ⟨t, ht⟩

/-! ## Fetching -/

section Fetch
variable [Ext]

theorem httpGet_run (r : Req) :
    httpGet r env w = (.ok (env.http w.tick r),
      { w with tick := w.tick + 1, reqs := r :: w.reqs }) := rfl

theorem raw_ok {src : FetchSource} {etag : Option Str} {resp : FetchResponse}
    (h : src.raw etag env w = (.ok resp, w')) :
    Same w w' ∧ ((∃ b e, resp = .data b e ∧ src.Body env w.cur etag b e) ∨
    (resp = .unmodified ∧ ∃ u m tick, src = .uri u m ∧
      env.http tick ⟨u, m, etag⟩ = .notModified)) := by
  unfold FetchSource.raw at h
  cases src with
  | uri u m =>
    dsimp only at h
    obtain ⟨r, w1, h1, h2⟩ := M.bind_ok.1 h
    rw [httpGet_run] at h1
    cases h1
    split at h2
    · cases h2
    · rename_i hdr body heq
      cases hdr with
      | invalid => cases h2
      | absent =>
        cases body with
        | none => cases h2
        | some b =>
          cases h2
          exact ⟨⟨rfl, rfl⟩, Or.inl ⟨b, none, rfl, w.tick, _, heq, Or.inl ⟨rfl, rfl⟩⟩⟩
      | valid t =>
        cases body with
        | none => cases h2
        | some b =>
          cases h2
          exact ⟨⟨rfl, rfl⟩, Or.inl ⟨b, some t, rfl, w.tick, _, heq, Or.inr ⟨t, rfl, rfl⟩⟩⟩
    · rename_i heq
      cases h2
      exact ⟨⟨rfl, rfl⟩, Or.inr ⟨rfl, u, m, w.tick, rfl, heq⟩⟩
    · cases h2
  | file p =>
    dsimp only at h
    obtain ⟨b, w1, h1, h2⟩ := M.bind_ok.1 h
    obtain ⟨h3, rfl, _⟩ := readFile_ok h1
    cases h2
    exact ⟨⟨rfl, rfl⟩, Or.inl ⟨b, none, rfl, h3, rfl⟩⟩

/-- All ways in which a fetch can succeed. -/
theorem fetch_ok {src : FetchSource} {hash : Option Hash} {etag : Option Str}
    {target : Option Path} {resp : FetchResponse}
    (h : src.fetch hash etag target env w = (.ok resp, w')) :
    (∃ b e, src.Body env w.cur etag b e ∧ (∀ hh, hash = some hh → Ext.sha b = hh) ∧
      ((target = none ∧ resp = .data b e ∧ Same w w') ∨
       (∃ t w1, target = some t ∧ resp = .saved ∧ Same w w1 ∧
          writeBuf t b env w1 = (.ok (), w')))) ∨
    (resp = .unmodified ∧ Same w w' ∧ ∃ u m tick, src = .uri u m ∧
      env.http tick ⟨u, m, etag⟩ = .notModified) := by
  unfold FetchSource.fetch at h
  obtain ⟨r, w1, h1, h2⟩ := M.bind_ok.1 h
  obtain ⟨hs, h3 | h3⟩ := raw_ok h1
  · obtain ⟨b, e, rfl, hb⟩ := h3
    left
    refine ⟨b, e, hb, ?_⟩
    dsimp only at h2
    have save : ∀ t, ((do writeBuf t b; pure .saved : M FetchResponse)) env w1 = (.ok resp, w') →
        resp = .saved ∧ writeBuf t b env w1 = (.ok (), w') := by
      intro t ht
      obtain ⟨⟨⟩, w2, h4, h5⟩ := M.bind_ok.1 ht
      cases h5
      exact ⟨rfl, h4⟩
    cases hash with
    | none =>
      refine ⟨by simp, ?_⟩
      cases target with
      | none => cases h2; exact Or.inl ⟨rfl, rfl, hs⟩
      | some t =>
        obtain ⟨h4, h5⟩ := save t h2
        exact Or.inr ⟨t, w1, rfl, h4, hs, h5⟩
    | some hh =>
      dsimp only at h2
      split at h2
      · cases h2
      · rename_i hsha
        refine ⟨?_, ?_⟩
        · rintro x ⟨⟩
          exact Decidable.not_not.1 hsha
        cases target with
        | none => cases h2; exact Or.inl ⟨rfl, rfl, hs⟩
        | some t =>
          obtain ⟨h4, h5⟩ := save t h2
          exact Or.inr ⟨t, w1, rfl, h4, hs, h5⟩
  · obtain ⟨rfl, hm⟩ := h3
    cases h2
    exact Or.inr ⟨rfl, hs, hm⟩

/-- A successful `readNotification` returns what the source holds. -/
theorem readNotification_ok {f : Fetcher} {etag : Option Str} {r : Option (Notif × Option Str)}
    (h : f.readNotification etag env w = (.ok r, w')) :
    Same w w' ∧ ∃ src, f.resolve f.notificationUri = .ok src ∧
      ((∃ n e b, r = some (n, e) ∧ src.Body env w.cur etag b e ∧ Ext.parseNotif b = some n) ∨
       (r = none ∧ ∃ u m tick, src = .uri u m ∧ env.http tick ⟨u, m, etag⟩ = .notModified)) := by
  unfold Fetcher.readNotification at h
  obtain ⟨src, w1, h1, h2⟩ := M.bind_ok.1 h
  rw [M.lift_ok_iff] at h1
  obtain ⟨h1, rfl⟩ := h1
  obtain ⟨resp, w2, h3, h4⟩ := M.bind_ok.1 h2
  rcases fetch_ok h3 with ⟨b, e, hb, _, hc⟩ | ⟨rfl, hs, hm⟩
  · rcases hc with ⟨_, rfl, hs⟩ | ⟨t, w3, ht, _⟩
    · dsimp only at h4
      cases hp : Ext.parseNotif b with
      | none => rw [hp] at h4; cases h4
      | some n =>
        rw [hp] at h4; cases h4
        exact ⟨hs, src, h1, Or.inl ⟨n, e, b, rfl, hb, hp⟩⟩
    · cases ht
  · cases h4
    exact ⟨hs, src, h1, Or.inr ⟨rfl, hm⟩⟩

/-- To a path ending in a slash nothing is retrieved, but a server may say that there is nothing new. -/
theorem retrieveNowhere_ok {f : Fetcher} {uri : Str} {hash : Hash} {target : Path}
    (h : f.retrieveNowhere uri hash target env w = (.ok (), w')) :
    ∃ u m tick, f.resolve uri = .ok (.uri u m) ∧ env.http tick ⟨u, m, none⟩ = .notModified := by
  unfold Fetcher.retrieveNowhere at h
  obtain ⟨src, w2, h1, h2⟩ := M.bind_ok.1 h
  rw [M.lift_ok_iff] at h1
  obtain ⟨h1, rfl⟩ := h1
  obtain ⟨resp, w3, h3, h4⟩ := M.bind_ok.1 h2
  rcases fetch_ok h3 with ⟨b, e, hb, hh, hc⟩ | ⟨_, hs, u, m, tick, hu, hm⟩
  · rcases hc with ⟨ht, hr, _⟩ | ⟨t, w4, ht, _⟩
    · subst hr
      dsimp only at h4
      obtain ⟨_, _, _, h5⟩ := M.bind_ok.1 h4
      cases h5
    · cases ht
  · exact ⟨u, m, tick, hu ▸ h1, hm⟩

/-- After a successful `retrieve` the target, as read, has the expected hash. -/
theorem retrieve_ok {f : Fetcher} {uri : Str} {hash : Hash} {target : Path} (h0 : No304 env)
    (h : f.retrieve uri hash target env w = (.ok (), w')) :
    ∃ b, Ext.sha b = hash ∧
      ((w.cur.read target = some b ∧ Same w w') ∨
       (w'.cur.file? target = some b ∧ ∃ src e, f.resolve uri = .ok src ∧
          src.Body env w.cur none b e)) := by
  unfold Fetcher.retrieve at h
  by_cases hn : endsInName uri = true
  case neg =>
    rw [if_neg hn] at h
    rcases retrieveNowhere_ok h with ⟨u, m, tick, _, hm⟩
    exact absurd hm (h0 tick _ rfl)
  rw [if_pos hn] at h
  unfold Fetcher.retrieveTo at h
  rw [attempt_bind] at h
  have hr := readFile_world (env := env) (w := w) target
  have dl : ∀ w1, w1.cur = w.cur → (M.lift (f.resolve uri) >>= fun src =>
      src.fetch (some hash) none (some target) >>= fun _ => pure ()) env w1 = (.ok (), w') →
      ∃ b, Ext.sha b = hash ∧ (w'.cur.file? target = some b ∧ ∃ src e,
        f.resolve uri = .ok src ∧ src.Body env w.cur none b e) := by
    intro w1 hw1 h
    obtain ⟨src, w2, h1, h2⟩ := M.bind_ok.1 h
    rw [M.lift_ok_iff] at h1
    obtain ⟨h1, rfl⟩ := h1
    obtain ⟨resp, w3, h3, h4⟩ := M.bind_ok.1 h2
    cases h4
    rcases fetch_ok h3 with ⟨b, e, hb, hh, hc⟩ | ⟨_, _, u, m, tick, _, hm⟩
    · rcases hc with ⟨ht, _⟩ | ⟨t, w4, ht, _, _, hwr⟩
      · cases ht
      · cases ht
        rw [hw1] at hb
        exact ⟨b, hh hash rfl, writeBuf_file hwr, src, e, h1, hb⟩
    · exact absurd hm (h0 tick _ rfl)
  match he : readFile target env w with
  | (.ok b, w1) =>
    rw [he] at h hr
    dsimp only at h hr
    obtain ⟨h1, _, _⟩ := readFile_ok he
    by_cases hsha : Ext.sha b ≠ hash
    · rw [if_pos hsha] at h
      obtain ⟨b', h2, h3⟩ := dl w1 (by rw [hr]) h
      exact ⟨b', h2, Or.inr h3⟩
    · rw [if_neg hsha] at h
      cases h
      refine ⟨b, Decidable.not_not.1 hsha, Or.inl ⟨h1, ?_⟩⟩
      rw [hr]; exact ⟨rfl, rfl⟩
  | (.error e, w1) =>
    rw [he] at h hr
    dsimp only at h hr
    obtain ⟨b', h2, h3⟩ := dl w1 (by rw [hr]) h
    exact ⟨b', h2, Or.inr h3⟩

end Fetch

end KSync
