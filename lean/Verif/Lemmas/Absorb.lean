import Verif.Lemmas.Publish

/-! # Book keeping, cleanup, and the writing of the notification -/

set_option linter.unusedSectionVars false
set_option linter.unusedSimpArgs false
set_option linter.unusedVariables false

namespace KSync

variable [Ext]

/-! ## Book keeping -/

/-- `t` was read off the clock between the two worlds. -/
def ReadTime (env : Env) (w w' : World) (t : Time) : Prop :=
  ∃ k, w.tick ≤ k ∧ k < w'.tick ∧ t = env.clock k

theorem ReadTime.mono {env : Env} {a b b' c : World} {t : Time} (h : ReadTime env b b' t)
    (h1 : a.tick ≤ b.tick) (h2 : b'.tick ≤ c.tick) : ReadTime env a c t := by
  obtain ⟨k, h3, h4, h5⟩ := h
  exact ⟨k, by omega, by omega, h5⟩

theorem deprecate_ok {m : SourceMappings} {l : List DeltaState} {env : Env} {w w' : World}
    {dep : List DeprecatedFile} (h : deprecate m l env w = (.ok dep, w')) :
    Same w w' ∧ w.tick ≤ w'.tick ∧ dep.map (·.path) = l.map (fun d => m.path d.relPath) ∧
      ∀ d ∈ dep, ReadTime env w w' d.since := by
  induction l generalizing w dep with
  | nil =>
    unfold deprecate at h
    rw [M.pure_ok] at h
    obtain ⟨rfl, rfl⟩ := h
    exact ⟨Tr.refl _, Nat.le_refl _, rfl, by simp⟩
  | cons d l ih =>
    unfold deprecate at h
    rw [now_bind] at h
    obtain ⟨rest, w1, h1, h2⟩ := M.bind_ok.1 h
    rw [M.pure_ok] at h2
    obtain ⟨rfl, rfl⟩ := h2
    obtain ⟨i1, i2, i3, i4⟩ := ih h1
    dsimp only at i2
    refine ⟨⟨i1.1, i1.2⟩, by omega, by simp [i3], fun x hx => ?_⟩
    rcases List.mem_cons.1 hx with rfl | hx
    · exact ⟨w.tick, Nat.le_refl _, by omega, rfl⟩
    · exact (i4 x hx).mono (by simp) (Nat.le_refl _)

theorem absorb_eq (s : RrdpState) (st : StagedChanges) : s.absorb st =
    s.deprecateSnapshot >>= fun s1 =>
      (if st.sessionReset then ({ s1 with snapshot := some st.snapshot } : RrdpState).deprecateAll
        else ({ s1 with snapshot := some st.snapshot } : RrdpState).deprecateBefore st.cutoff) >>=
      fun s3 => pure { s3 with deltas := mergeDeltas s3.deltas st.deltas } := by
  unfold RrdpState.absorb
  congr 1; funext s1
  cases st.sessionReset <;> rfl

theorem absorb_runs {s : RrdpState} {st : StagedChanges} {env : Env} {w : World} :
    ∃ s' w', s.absorb st env w = (.ok s', w') := by
  have hdep : ∀ (m : SourceMappings) (l : List DeltaState) (w : World),
      ∃ d w', deprecate m l env w = (.ok d, w') := by
    intro m l
    induction l with
    | nil => intro w; exact ⟨_, _, rfl⟩
    | cons d l ih =>
      intro w
      unfold deprecate
      rw [now_bind]
      obtain ⟨r, w1, h1⟩ := ih { w with tick := w.tick + 1 }
      rw [M.bind_of_ok h1]
      exact ⟨_, _, rfl⟩
  have hds : ∃ s1 w1, s.deprecateSnapshot env w = (.ok s1, w1) := by
    unfold RrdpState.deprecateSnapshot
    split
    · exact ⟨_, _, rfl⟩
    · exact ⟨_, _, rfl⟩
  obtain ⟨s1, w1, h1⟩ := hds
  rw [absorb_eq, M.bind_of_ok h1]
  have hb : ∀ s2 : RrdpState, ∃ s3 w3, (if st.sessionReset then s2.deprecateAll
      else s2.deprecateBefore st.cutoff) env w1 = (.ok s3, w3) := by
    intro s2
    split
    · unfold RrdpState.deprecateAll
      obtain ⟨d, w2, h2⟩ := hdep s2.mappings s2.deltas w1
      rw [M.bind_of_ok h2]
      exact ⟨_, _, rfl⟩
    · unfold RrdpState.deprecateBefore
      split
      · exact ⟨_, _, rfl⟩
      · rename_i i _
        obtain ⟨d, w2, h2⟩ := hdep s2.mappings (s2.deltas.drop i) w1
        rw [M.bind_of_ok h2]
        exact ⟨_, _, rfl⟩
  obtain ⟨s3, w3, h3⟩ := hb { s1 with snapshot := some st.snapshot }
  rw [M.bind_of_ok h3]
  exact ⟨_, _, rfl⟩

/-- The book keeping of an update. -/
structure Absorbed (env : Env) (w w' : World) (s : RrdpState) (st : StagedChanges)
    (s' : RrdpState) (kept gone : List DeltaState) (new : List DeprecatedFile) : Prop where
  source : s'.source = s.source
  mappings : s'.mappings = s.mappings
  validator : s'.validator = s.validator
  snapshot : s'.snapshot = some st.snapshot
  split : s.deltas = kept ++ gone
  deltas : s'.deltas = mergeDeltas kept st.deltas
  reset : st.sessionReset = true → kept = []
  keptSerial : st.sessionReset = false → ∀ d ∈ kept, st.cutoff ≤ d.serial
  goneSerial : st.sessionReset = false → ∀ d, gone.head? = some d → d.serial < st.cutoff
  deprecated : s'.deprecated = s.deprecated ++ new
  newPaths : new.map (·.path) =
    s.snapshotPath.toList ++ gone.map (fun d => s.mappings.path d.relPath)
  newSince : ∀ d ∈ new, ReadTime env w w' d.since

theorem absorb_ok {s s' : RrdpState} {st : StagedChanges} {env : Env} {w w' : World}
    (h : s.absorb st env w = (.ok s', w')) :
    Same w w' ∧ w.tick ≤ w'.tick ∧ ∃ kept gone new, Absorbed env w w' s st s' kept gone new := by
  rw [absorb_eq] at h
  obtain ⟨s1, w1, h1, h2⟩ := M.bind_ok.1 h
  obtain ⟨s3, w3, h3, h4⟩ := M.bind_ok.1 h2
  rw [M.pure_ok] at h4
  obtain ⟨rfl, rfl⟩ := h4
  -- the old snapshot
  obtain ⟨n1, hn1, hs1, hsame1, htick1⟩ : ∃ n1 : List DeprecatedFile,
      (n1.map (·.path) = s.snapshotPath.toList ∧ ∀ d ∈ n1, ReadTime env w w1 d.since) ∧
      s1 = { s with deprecated := s.deprecated ++ n1 } ∧ Same w w1 ∧ w.tick ≤ w1.tick := by
    unfold RrdpState.deprecateSnapshot at h1
    split at h1
    · rename_i hp
      rw [M.pure_ok] at h1
      obtain ⟨rfl, rfl⟩ := h1
      exact ⟨[], ⟨by rw [hp]; rfl, by simp⟩, by simp, Tr.refl _, Nat.le_refl _⟩
    · rename_i p hp
      rw [now_bind, M.pure_ok] at h1
      obtain ⟨rfl, rfl⟩ := h1
      refine ⟨[⟨env.clock w.tick, p⟩], ⟨by rw [hp]; rfl, ?_⟩, rfl, ⟨rfl, rfl⟩, by simp⟩
      simp only [List.mem_singleton, forall_eq]
      exact ⟨w.tick, Nat.le_refl _, by simp, rfl⟩
  subst hs1
  by_cases hr : st.sessionReset = true
  · rw [if_pos hr] at h3
    unfold RrdpState.deprecateAll at h3
    dsimp only at h3
    obtain ⟨dep, w2, h5, h6⟩ := M.bind_ok.1 h3
    rw [M.pure_ok] at h6
    obtain ⟨rfl, rfl⟩ := h6
    obtain ⟨d1, d2, d3, d4⟩ := deprecate_ok h5
    refine ⟨Tr.trans hsame1 d1, by omega, [], s.deltas, n1 ++ dep, rfl, rfl, rfl, rfl, rfl, rfl,
      fun _ => rfl, fun hf => absurd hf (by simp [hr]), fun hf => absurd hf (by simp [hr]),
      by simp, ?_, ?_⟩
    · rw [List.map_append, hn1.1, d3]
    · intro d hd
      rcases List.mem_append.1 hd with hd | hd
      · exact (hn1.2 d hd).mono (Nat.le_refl _) d2
      · exact (d4 d hd).mono htick1 (Nat.le_refl _)
  · rw [if_neg hr] at h3
    have hrf : st.sessionReset = false := by simpa using hr
    unfold RrdpState.deprecateBefore at h3
    dsimp only at h3
    split at h3
    · rename_i hfi
      rw [M.pure_ok] at h3
      obtain ⟨rfl, rfl⟩ := h3
      refine ⟨hsame1, htick1, s.deltas, [], n1, rfl, rfl, rfl, rfl, by simp, rfl,
        fun hf => absurd hf hr, fun _ d hd => ?_, fun _ d hd => by simp at hd, rfl, ?_, hn1.2⟩
      · have := List.findIdx?_eq_none_iff.1 hfi d hd
        simpa using this
      · simp [hn1.1]
    · rename_i i hfi
      obtain ⟨dep, w2, h5, h6⟩ := M.bind_ok.1 h3
      rw [M.pure_ok] at h6
      obtain ⟨rfl, rfl⟩ := h6
      obtain ⟨d1, d2, d3, d4⟩ := deprecate_ok h5
      obtain ⟨hi, hi1, hi2⟩ := List.findIdx?_eq_some_iff_getElem.1 hfi
      refine ⟨Tr.trans hsame1 d1, by omega, s.deltas.take i, s.deltas.drop i, n1 ++ dep, rfl, rfl,
        rfl, rfl, (List.take_append_drop i s.deltas).symm, rfl, fun hf => absurd hf hr,
        fun _ d hd => ?_, fun _ d hd => ?_, by simp, ?_, ?_⟩
      · obtain ⟨j, hj, rfl⟩ := List.mem_take_iff_getElem.1 hd
        have := hi2 j (by omega)
        simpa using this
      · have : s.deltas.drop i = s.deltas[i] :: s.deltas.drop (i + 1) := by
          rw [List.drop_eq_getElem_cons hi]
        rw [this] at hd
        simp only [List.head?_cons, Option.some.injEq] at hd
        rw [← hd]
        simpa using hi1
      · rw [List.map_append, hn1.1, d3]
      · intro d hd
        rcases List.mem_append.1 hd with hd | hd
        · exact (hn1.2 d hd).mono (Nat.le_refl _) d2
        · exact (d4 d hd).mono htick1 (Nat.le_refl _)

/-! ## Cleanup -/

/-- Things only disappear. -/
def Shrinks (f f' : FS) : Prop := ∀ q, f'.get q = f.get q ∨ f'.get q = none

theorem Shrinks.refl (f : FS) : Shrinks f f := fun _ => Or.inl rfl

theorem Shrinks.trans {a b c : FS} (h : Shrinks a b) (h' : Shrinks b c) : Shrinks a c := by
  intro q
  rcases h' q with h1 | h1
  · rw [h1]; exact h q
  · exact Or.inr h1

theorem Shrinks.del (f : FS) (p : Path) : Shrinks f (f.del p) := by
  intro q
  rw [FS.get_del]
  split
  · exact Or.inr rfl
  · exact Or.inl rfl

theorem Shrinks.exists {f f' : FS} (h : Shrinks f f') {p : Path} (hp : f.exists? p = false) :
    f'.exists? p = false := by
  unfold FS.exists? FS.resolve at *
  rcases h p with h1 | h1
  · rw [h1]
    match hg : f.get p with
    | none => rfl
    | some .dir => rw [hg] at hp; simp at hp
    | some (.file _ _) => rw [hg] at hp; simp at hp
    | some (.link t) =>
      rw [hg] at hp
      simp only at hp ⊢
      rcases h (p.dropLast ++ [t]) with h2 | h2
      · rw [h2]; exact hp
      · rw [h2]; rfl
  · rw [h1]; rfl

theorem removeFile_shrinks (p : Path) : Does Shrinks (removeFile p) := by
  unfold removeFile
  refine io_getFs_does (fun n env w => ?_)
  split
  · exact Steps.of_push (env := env) (Shrinks.del _ _)
  · exact Steps.of_push (env := env) (Shrinks.del _ _)
  · exact Steps.refl

theorem removeDir_shrinks (p : Path) : Does Shrinks (removeDir p) := by
  unfold removeDir
  refine io_getFs_does (fun n env w => ?_)
  split
  · exact Steps.of_push (env := env) (Shrinks.del _ _)
  · exact Steps.refl

theorem removeUp_shrinks (n : Nat) (p : Path) : Does Shrinks (removeUp n p) := by
  induction n generalizing p with
  | zero =>
    unfold removeUp
    have h1 := removeFile_shrinks p
    have h2 := removeDir_shrinks p
    rel_auto
  | succ n ih =>
    unfold removeUp
    have h1 := removeFile_shrinks p
    have h2 := removeDir_shrinks p
    have h3 := ih p.dropLast
    rel_auto

theorem cleanFile_shrinks (d : DeprecatedFile) : Does Shrinks (cleanFile d) := by
  unfold cleanFile removeFileAndEmptyParents
  have h1 := removeUp_shrinks d.path.length d.path
  rel_auto

theorem removeFile_ok {p : Path} {env : Env} {w w' : World} (h : removeFile p env w = (.ok (), w')) :
    w'.cur = w.cur.del p ∧ w.cur.leaf p ≠ none := by
  unfold removeFile at h
  rw [io_bind] at h
  by_cases hf : env.fault w.tick
  · rw [if_pos hf] at h; cases h
  · rw [if_neg hf, getFs_bind] at h
    dsimp only at h
    split at h
    · rename_i hg
      cases h
      exact ⟨rfl, by unfold FS.leaf; rw [hg]; simp⟩
    · rename_i hg
      cases h
      exact ⟨rfl, by unfold FS.leaf; rw [hg]; simp⟩
    · cases h

theorem removeDir_ok {p : Path} {env : Env} {w w' : World} (h : removeDir p env w = (.ok (), w')) :
    w'.cur = w.cur.del p ∧ p ≠ [] ∧ w.cur.get p = some .dir ∧ w.cur.hasChild p = false := by
  unfold removeDir at h
  rw [io_bind] at h
  by_cases hf : env.fault w.tick
  · rw [if_pos hf] at h; cases h
  · rw [if_neg hf, getFs_bind] at h
    dsimp only at h
    split at h
    · rename_i hg
      cases h
      exact ⟨rfl, hg⟩
    · cases h

theorem FS.leaf_nil (fs : FS) : fs.leaf [] = none := by
  unfold FS.leaf FS.get; simp

theorem removeUp_ok {n : Nat} {p : Path} {env : Env} {w w' : World} (hex : w.cur.exists? p = true)
    (hl : w.cur.link? p = none)
    (h : removeUp n p env w = (.ok (), w')) : w'.cur.get p = none := by
  have key : ∀ {w' : World}, (if w.cur.isFile p then removeFile p else if w.cur.isDir p then removeDir p
      else pure ()) env w = (.ok (), w') → w'.cur.get p = none := by
    intro w' h
    split at h
    · obtain ⟨h1, h2⟩ := removeFile_ok h
      rw [h1, FS.get_del_self]
      rintro rfl
      exact h2 (FS.leaf_nil _)
    · split at h
      · obtain ⟨h1, h2, _⟩ := removeDir_ok h
        rw [h1, FS.get_del_self _ h2]
      · rename_i h1 h2
        exfalso
        unfold FS.exists? at hex
        unfold FS.isFile at h1
        unfold FS.isDir at h2
        unfold FS.resolve at hex h1 h2
        unfold FS.link? at hl
        match hr : w.cur.get p with
        | none => rw [hr] at hex; simp at hex
        | some .dir => rw [hr] at h2; simp at h2
        | some (.file _ _) => rw [hr] at h1; simp at h1
        | some (.link t) => rw [hr] at hl; simp at hl
  cases n with
  | zero => exact key h
  | succ n =>
    unfold removeUp at h
    rw [getFs_bind] at h
    have hx : ∃ w1, (if w.cur.isFile p then removeFile p else if w.cur.isDir p then removeDir p
        else pure ()) env w = (.ok (), w1) ∧
        (M.attempt (removeUp n p.dropLast) >>= fun _ => pure ()) env w1 = (.ok (), w') := by
      by_cases h1 : w.cur.isFile p
      · rw [if_pos h1] at h ⊢
        obtain ⟨_, w1, h2, h3⟩ := M.bind_ok.1 h
        exact ⟨w1, h2, h3⟩
      · rw [if_neg h1] at h ⊢
        by_cases h2 : w.cur.isDir p
        · rw [if_pos h2] at h ⊢
          obtain ⟨_, w1, h2, h3⟩ := M.bind_ok.1 h
          exact ⟨w1, h2, h3⟩
        · rw [if_neg h2] at h ⊢
          exact ⟨w, rfl, h⟩
    obtain ⟨w1, h1, h2⟩ := hx
    have h3 := key h1
    rw [attempt_bind, M.pure_ok] at h2
    have hsh : Shrinks w1.cur w'.cur := by
      rw [← h2.2]
      exact Steps.ends (removeUp_shrinks n p.dropLast env w1) Shrinks.refl
        (fun _ _ _ => Shrinks.trans)
    rcases hsh p with h4 | h4
    · rw [h4]; exact h3
    · exact h4

theorem cleanFile_ok {d : DeprecatedFile} {env : Env} {w w' : World}
    (hl : w.cur.link? d.path = none) (h : cleanFile d env w = (.ok (), w')) :
    w'.cur.get d.path = none := by
  unfold cleanFile at h
  rw [getFs_bind] at h
  split at h
  · rename_i hex
    exact removeUp_ok hex hl h
  · rename_i hex
    cases h
    unfold FS.exists? FS.resolve at hex
    unfold FS.link? at hl
    match hr : w.cur.get d.path with
    | none => rfl
    | some .dir => rw [hr] at hex; simp at hex
    | some (.file _ _) => rw [hr] at hex; simp at hex
    | some (.link t) => rw [hr] at hl; simp at hl

theorem Shrinks.link {f f' : FS} (h : Shrinks f f') {p : Path} (hl : f.link? p = none) :
    f'.link? p = none := by
  unfold FS.link? at *
  rcases h p with h1 | h1
  · rw [h1]; exact hl
  · rw [h1]

theorem cleanFiles_ok {l : List DeprecatedFile} {env : Env} {w w' : World}
    (hl : ∀ d ∈ l, w.cur.link? d.path = none) (h : M.forEach l cleanFile env w = (.ok (), w')) :
    ∀ d ∈ l, w'.cur.get d.path = none := by
  induction l generalizing w with
  | nil => simp
  | cons a l ih =>
    rw [forEach_cons_ok] at h
    obtain ⟨w1, h1, h2⟩ := h
    have hs : Shrinks w.cur w1.cur := by
      have := cleanFile_shrinks a env w
      rw [h1] at this
      exact Steps.ends this Shrinks.refl (fun _ _ _ => Shrinks.trans)
    have hs' : Shrinks w1.cur w'.cur := by
      have : Does Shrinks (M.forEach l cleanFile) := Rel.forEach (fun d _ => cleanFile_shrinks d)
      have := this env w1
      rw [h2] at this
      exact Steps.ends this Shrinks.refl (fun _ _ _ => Shrinks.trans)
    intro d hd
    rcases List.mem_cons.1 hd with rfl | hd
    · have := cleanFile_ok (hl d (by simp)) h1
      rcases hs' d.path with h3 | h3
      · rw [h3]; exact this
      · exact h3
    · exact ih (fun x hx => hs.link (hl x (by simp [hx]))) h2 d hd

/-- What a successful cleanup does. -/
theorem clean_ok {s s' : RrdpState} {c : Config} {env : Env} {w w' : World}
    (h : s.clean c env w = (.ok s', w')) :
    ∃ now w1, now = env.clock w.tick ∧ Same w w1 ∧ w1.tick = w.tick + 1 ∧
      s' = { s with deprecated := s.deprecated.filter (fun d => d.since > now - c.cleanupAfter) } ∧
      M.forEach (s.deprecated.filter (fun d => d.since ≤ now - c.cleanupAfter)) cleanFile env w1 =
        (.ok (), w') := by
  unfold RrdpState.clean at h
  obtain ⟨before, w1, h1, h2⟩ := M.bind_ok.1 h
  rw [secondsAgo_run] at h1
  cases h1
  obtain ⟨_, w2, h3, h4⟩ := M.bind_ok.1 h2
  rw [M.pure_ok] at h4
  obtain ⟨rfl, rfl⟩ := h4
  exact ⟨_, { w with tick := w.tick + 1 }, rfl, ⟨rfl, rfl⟩, rfl, rfl, h3⟩

/-- Whatever happens during the cleanup, only due files are touched. -/
theorem clean_within {s : RrdpState} {c : Config} {env : Env} {w : World} (hw : w.cur.WF) :
    Within (Eff.cleans (fun q => ∃ d ∈ s.deprecated, d.path = q ∧
        d.since + c.cleanupAfter ≤ env.clock w.tick)) w (s.clean c env w).2 := by
  unfold RrdpState.clean
  refine Within.bindAt (secondsAgo_in _ env w) (fun before w1 h1 => ?_)
  rw [secondsAgo_run] at h1
  cases h1
  refine Within.bindAt ?_ (fun _ w2 _ => Tr.refl _)
  refine (RelWF.forEach (E := Eff.cleans (fun q => ∃ d ∈ s.deprecated, d.path = q ∧
        d.since + c.cleanupAfter ≤ env.clock w.tick)) (fun d hd env' w' hw' => ?_)) env _ hw
  rw [List.mem_filter] at hd
  have hdue : d.since + c.cleanupAfter ≤ env.clock w.tick := by
    have := hd.2
    simp only [decide_eq_true_eq] at this
    exact Int.add_le_of_le_sub_right this
  have hd' := fun p (h : p = d.path) => (⟨d, hd.1, h.symm, hdue⟩ :
    ∃ d ∈ s.deprecated, d.path = p ∧ d.since + c.cleanupAfter ≤ env.clock w.tick)
  have le : (Eff.cleaning d.path).Le (Eff.cleans fun q => ∃ d ∈ s.deprecated, d.path = q ∧
      d.since + c.cleanupAfter ≤ env.clock w.tick) :=
    ⟨hd', fun _ h => h.elim, fun _ h => h.elim, fun _ h => h.elim, fun _ h => h.elim,
      fun q hq => ⟨d.path, hd' _ rfl, hq⟩⟩
  exact (cleanFile_within hw').mono le

theorem clean_shrinks {s : RrdpState} {c : Config} : Does Shrinks (s.clean c) := by
  unfold RrdpState.clean
  have h1 : Does Shrinks (secondsAgo c.cleanupAfter) := Rel.quiet (secondsAgo_same _)
  refine Rel.bind h1 (fun b => Rel.bind (Rel.forEach fun d _ => cleanFile_shrinks d) (fun _ => Rel.pure _))

/-! ## Writing the notification -/

/-- One step of writing a notification with bytes `b`. -/
def Announcing (tmp final : Path) (b : Bytes) (f f' : FS) : Prop :=
  Frame (fun q => q = tmp ∨ q = final) f f' ∧
  (f'.leaf final = f.leaf final ∨ ∃ t, f'.leaf final = some (.file b t))

theorem writeNotification_steps {s : RrdpState} {d : Nat} {n : Notif} (hn : s.makeNotif = .ok n)
    (hne : s.mappings.path s.source.tmpName ≠ s.mappings.path s.source.name) {env : Env} {w : World} :
    Steps (Announcing (s.mappings.path s.source.tmpName) (s.mappings.path s.source.name)
      (Ext.writeNotif n)) w (s.writeNotification d env w).2 := by
  unfold RrdpState.writeNotification
  refine Tr.bindAt (T := Steps _) (notifyDelay_same d env w).steps (fun _ w0 _ => ?_)
  rw [hn]
  dsimp only
  generalize s.mappings.path s.source.tmpName = tmp at *
  generalize s.mappings.path s.source.name = final at *
  show Steps _ w0 ((do writeBuf tmp (Ext.writeNotif n); rename tmp final : M Unit) env w0).2
  refine Tr.bindAt (T := Steps _) ?_ (fun _ w1 h1 => ?_)
  · refine (writeBuf_writing tmp (Ext.writeNotif n) env w0).mono ?_
    rintro f f' ⟨h1, _⟩
    exact ⟨h1.mono (fun p hp => Or.inl hp), Or.inl (h1 final (fun h => hne h.symm))⟩
  · obtain ⟨h2, ⟨t, h3⟩, _⟩ := writeBuf_ok h1
    have hend := rename_end tmp final env w1
    match hr : rename tmp final env w1 with
    | (r, w2) =>
    rw [hr] at hend
    cases hend with
    | failed e => exact .same rfl rfl
    | noop => exact .same rfl rfl
    | movedDir _ _ _ h => rw [h3] at h; cases h
    | movedFile n' h4 h5 h6 h7 h8 h9 h10 =>
      rw [h3] at h7
      cases h7
      refine .push .refl ⟨fun q hq => ?_, Or.inr ⟨t, ?_⟩⟩ rfl
      · simp only [not_or] at hq
        show ((w1.cur.del tmp).set final _).leaf q = _
        rw [FS.leaf_set_ne _ _ hq.2, FS.leaf_del_ne _ hq.1]
      · show ((w1.cur.del tmp).set final _).leaf final = _
        rw [FS.leaf_set _ h5 _ (by simp)]; simp

theorem writeNotification_ok {s : RrdpState} {d : Nat} {env : Env} {w w' : World}
    (h : s.writeNotification d env w = (.ok (), w')) :
    ∃ n t, s.makeNotif = .ok n ∧
      w'.cur.get (s.mappings.path s.source.name) = some (.file (Ext.writeNotif n) t) := by
  unfold RrdpState.writeNotification at h
  obtain ⟨_, w0, _, h0⟩ := M.bind_ok.1 h
  obtain ⟨n, w1, h1, h2⟩ := M.bind_ok.1 h0
  rw [M.lift_ok_iff] at h1
  obtain ⟨h1, rfl⟩ := h1
  refine ⟨n, ?_⟩
  dsimp only at h2
  obtain ⟨_, w2, h3, h4⟩ := M.bind_ok.1 h2
  obtain ⟨h5, ⟨t, h6⟩, _⟩ := writeBuf_ok h3
  refine ⟨t, h1, ?_⟩
  have hend := rename_end (s.mappings.path s.source.tmpName) (s.mappings.path s.source.name) env w2
  rw [h4] at hend
  cases hend with
  | noop h7 => rw [← h7]; exact h6
  | movedDir _ _ _ hd => rw [h6] at hd; cases hd
  | movedFile n' h7 h8 h9 h10 =>
    rw [h6] at h10
    cases h10
    exact FS.get_set_self _ h8 _

theorem makeNotif_ok {s : RrdpState} {n : Notif} (h : s.makeNotif = .ok n) :
    ∃ snap, s.snapshot = some snap ∧ n.session = snap.session ∧ n.serial = snap.serial ∧
      n.snapUri = s.mappings.uri snap.relPath ∧ n.snapHash = snap.hash ∧
      n.deltas = s.deltas.map (fun d => ⟨d.serial, s.mappings.uri d.relPath, d.hash⟩) := by
  unfold RrdpState.makeNotif at h
  split at h
  · cases h
  · rename_i snap hs
    cases h
    exact ⟨snap, hs, rfl, rfl, rfl, rfl, rfl⟩

end KSync
