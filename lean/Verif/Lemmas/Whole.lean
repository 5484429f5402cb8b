import Verif.Lemmas.Absorb

/-! # Whole runs -/

set_option linter.unusedSectionVars false
set_option linter.unusedSimpArgs false
set_option linter.unusedVariables false

namespace KSync

variable [Ext]

/-! ## Publication step by step -/

/-- src/process.rs:103-110. -/
def rsyncPart (c : Config) (s : RrdpState) : M Unit :=
  if c.rsyncEnabled then updateRsync s c else pure ()

theorem publish_eq (c : Config) (s : RrdpState) (st : StagedChanges) : publish c s st =
    moveStaged c st >>= fun _ => s.absorb st >>= fun s1 => s1.clean c >>= fun s2 =>
      rsyncPart c s2 >>= fun _ => s2.writeNotification c.rrdpNotifyDelay >>= fun _ => s2.persist c.rrdpStatePath := by
  unfold publish RrdpState.apply
  rw [M.bind_assoc]
  congr 1; funext _
  rw [M.bind_assoc]
  congr 1

/-- The publication up to the step that writes the state, and that step. -/
theorem publish_tr_last {T : World → World → Prop} [Tr T] {R : World → Prop} {c : Config}
    {s : RrdpState} {st : StagedChanges} {env : Env} {w : World} (hR : ∀ e w', publish c s st env w = (.error e, w') → T w w' → R w')
    (h1 : T w (moveStaged c st env w).2)
    (h2 : ∀ w1, moveStaged c st env w = (.ok (), w1) → T w1 (s.absorb st env w1).2)
    (h3 : ∀ w1 s1 w2, moveStaged c st env w = (.ok (), w1) → s.absorb st env w1 = (.ok s1, w2) →
      T w2 (s1.clean c env w2).2)
    (h4 : ∀ w1 s1 w2 s2 w3, moveStaged c st env w = (.ok (), w1) →
      s.absorb st env w1 = (.ok s1, w2) → s1.clean c env w2 = (.ok s2, w3) →
      T w3 (rsyncPart c s2 env w3).2)
    (h5 : ∀ w1 s1 w2 s2 w3 w4, moveStaged c st env w = (.ok (), w1) →
      s.absorb st env w1 = (.ok s1, w2) → s1.clean c env w2 = (.ok s2, w3) →
      rsyncPart c s2 env w3 = (.ok (), w4) → T w4 (s2.writeNotification c.rrdpNotifyDelay env w4).2)
    (h6 : ∀ w1 s1 w2 s2 w3 w4 w5, moveStaged c st env w = (.ok (), w1) →
      s.absorb st env w1 = (.ok s1, w2) → s1.clean c env w2 = (.ok s2, w3) →
      rsyncPart c s2 env w3 = (.ok (), w4) → s2.writeNotification c.rrdpNotifyDelay env w4 = (.ok (), w5) →
      T w w5 → R (s2.persist c.rrdpStatePath env w5).2) :
    R (publish c s st env w).2 := by
  rw [publish_eq] at hR ⊢
  rcases M.bind_cases (moveStaged c st) _ env w with ⟨_, w1, e1, e⟩ | ⟨_, w1, e1, e⟩ <;> rw [e] at hR ⊢ <;>
    rw [e1] at h1
  · exact hR _ _ rfl h1
  have h2 := h2 w1 e1
  rcases M.bind_cases (s.absorb st) _ env w1 with ⟨_, w2, e2, e⟩ | ⟨s1, w2, e2, e⟩ <;> rw [e] at hR ⊢ <;>
    rw [e2] at h2
  · exact hR _ _ rfl (Tr.trans h1 h2)
  have h3 := h3 w1 s1 w2 e1 e2
  rcases M.bind_cases (s1.clean c) _ env w2 with ⟨_, w3, e3, e⟩ | ⟨s2, w3, e3, e⟩ <;> rw [e] at hR ⊢ <;>
    rw [e3] at h3
  · exact hR _ _ rfl (Tr.trans (Tr.trans h1 h2) h3)
  have h4 := h4 w1 s1 w2 s2 w3 e1 e2 e3
  rcases M.bind_cases (rsyncPart c s2) _ env w3 with ⟨_, w4, e4, e⟩ | ⟨_, w4, e4, e⟩ <;> rw [e] at hR ⊢ <;>
    rw [e4] at h4
  · exact hR _ _ rfl (Tr.trans (Tr.trans (Tr.trans h1 h2) h3) h4)
  have h5 := h5 w1 s1 w2 s2 w3 w4 e1 e2 e3 e4
  rcases M.bind_cases (s2.writeNotification c.rrdpNotifyDelay) _ env w4 with
    ⟨_, w5, e5, e⟩ | ⟨_, w5, e5, e⟩ <;> rw [e] at hR ⊢ <;> rw [e5] at h5
  · exact hR _ _ rfl (Tr.trans (Tr.trans (Tr.trans (Tr.trans h1 h2) h3) h4) h5)
  exact h6 w1 s1 w2 s2 w3 w4 w5 e1 e2 e3 e4 e5
    (Tr.trans (Tr.trans (Tr.trans (Tr.trans h1 h2) h3) h4) h5)

/-- A relation holds of the publication if it holds of each step. -/
theorem publish_tr {T : World → World → Prop} [Tr T] {c : Config} {s : RrdpState}
    {st : StagedChanges} {env : Env} {w : World}
    (h1 : T w (moveStaged c st env w).2)
    (h2 : ∀ w1, moveStaged c st env w = (.ok (), w1) → T w1 (s.absorb st env w1).2)
    (h3 : ∀ w1 s1 w2, moveStaged c st env w = (.ok (), w1) → s.absorb st env w1 = (.ok s1, w2) →
      T w2 (s1.clean c env w2).2)
    (h4 : ∀ w1 s1 w2 s2 w3, moveStaged c st env w = (.ok (), w1) →
      s.absorb st env w1 = (.ok s1, w2) → s1.clean c env w2 = (.ok s2, w3) →
      T w3 (rsyncPart c s2 env w3).2)
    (h5 : ∀ w1 s1 w2 s2 w3 w4, moveStaged c st env w = (.ok (), w1) →
      s.absorb st env w1 = (.ok s1, w2) → s1.clean c env w2 = (.ok s2, w3) →
      rsyncPart c s2 env w3 = (.ok (), w4) → T w4 (s2.writeNotification c.rrdpNotifyDelay env w4).2)
    (h6 : ∀ w1 s1 w2 s2 w3 w4 w5, moveStaged c st env w = (.ok (), w1) →
      s.absorb st env w1 = (.ok s1, w2) → s1.clean c env w2 = (.ok s2, w3) →
      rsyncPart c s2 env w3 = (.ok (), w4) → s2.writeNotification c.rrdpNotifyDelay env w4 = (.ok (), w5) →
      T w5 (s2.persist c.rrdpStatePath env w5).2) :
    T w (publish c s st env w).2 := by
  rw [publish_eq]
  exact Tr.bindAt h1 fun _ w1 e1 => Tr.bindAt (h2 w1 e1) fun s1 w2 e2 =>
    Tr.bindAt (h3 w1 s1 w2 e1 e2) fun s2 w3 e3 => Tr.bindAt (h4 w1 s1 w2 s2 w3 e1 e2 e3)
      fun _ w4 e4 => Tr.bindAt (h5 w1 s1 w2 s2 w3 w4 e1 e2 e3 e4)
        fun _ w5 e5 => h6 w1 s1 w2 s2 w3 w4 w5 e1 e2 e3 e4 e5

/-- A successful publication went through all steps. -/
theorem publish_ok {c : Config} {s : RrdpState} {st : StagedChanges} {env : Env} {w w' : World}
    (h : publish c s st env w = (.ok (), w')) :
    ∃ w1 s1 w2 s2 w3 w4 w5, moveStaged c st env w = (.ok (), w1) ∧
      s.absorb st env w1 = (.ok s1, w2) ∧ s1.clean c env w2 = (.ok s2, w3) ∧
      rsyncPart c s2 env w3 = (.ok (), w4) ∧ s2.writeNotification c.rrdpNotifyDelay env w4 = (.ok (), w5) ∧
      s2.persist c.rrdpStatePath env w5 = (.ok (), w') := by
  rw [publish_eq] at h
  obtain ⟨_, w1, h1, h⟩ := M.bind_ok.1 h
  obtain ⟨s1, w2, h2, h⟩ := M.bind_ok.1 h
  obtain ⟨s2, w3, h3, h⟩ := M.bind_ok.1 h
  obtain ⟨_, w4, h4, h⟩ := M.bind_ok.1 h
  obtain ⟨_, w5, h5, h⟩ := M.bind_ok.1 h
  exact ⟨w1, s1, w2, s2, w3, w4, w5, h1, h2, h3, h4, h5, h⟩

/-! ## The new notification -/

/-- The deltas that stay (src/rrdp.rs:360-365). -/
def keptDeltas (s : RrdpState) (st : StagedChanges) : List DeltaState :=
  if st.sessionReset then [] else s.deltas.takeWhile (fun d => st.cutoff ≤ d.serial)

theorem takeWhile_split {α : Type} {P : α → Bool} {l a b : List α} (h : l = a ++ b)
    (ha : ∀ x ∈ a, P x = true) (hb : ∀ x, b.head? = some x → P x = false) :
    l.takeWhile P = a := by
  subst h
  induction a with
  | nil =>
    cases b with
    | nil => rfl
    | cons x b => simp [List.takeWhile_cons, hb x rfl]
  | cons x a ih =>
    rw [List.cons_append, List.takeWhile_cons, if_pos (ha x (by simp)),
      ih (fun y hy => ha y (by simp [hy]))]

theorem Absorbed.kept_eq {env : Env} {w w' : World} {s s' : RrdpState} {st : StagedChanges}
    {kept gone : List DeltaState} {new : List DeprecatedFile}
    (h : Absorbed env w w' s st s' kept gone new) : kept = keptDeltas s st := by
  unfold keptDeltas
  by_cases hr : st.sessionReset = true
  · rw [if_pos hr]; exact h.reset hr
  · rw [if_neg hr]
    have hrf : st.sessionReset = false := by simpa using hr
    refine (takeWhile_split h.split (fun x hx => ?_) (fun x hx => ?_)).symm
    · simpa using h.keptSerial hrf x hx
    · simpa using h.goneSerial hrf x hx

/-- The notification that an update writes. -/
def newNotif (s : RrdpState) (st : StagedChanges) : Notif :=
  { session := st.snapshot.session
    serial := st.snapshot.serial
    snapUri := s.mappings.uri st.snapshot.relPath
    snapHash := st.snapshot.hash
    deltas := (mergeDeltas (keptDeltas s st) st.deltas).map
      (fun d => ⟨d.serial, s.mappings.uri d.relPath, d.hash⟩) }

theorem absorb_makeNotif {s s1 : RrdpState} {st : StagedChanges} {env : Env} {w w' : World}
    (h : s.absorb st env w = (.ok s1, w')) : s1.makeNotif = .ok (newNotif s st) := by
  obtain ⟨_, _, kept, gone, new, ha⟩ := absorb_ok h
  unfold RrdpState.makeNotif newNotif
  rw [ha.snapshot, ha.mappings, ha.deltas, ha.kept_eq]

theorem clean_state {s1 s2 : RrdpState} {c : Config} {env : Env} {w w' : World}
    (h : s1.clean c env w = (.ok s2, w')) : ∃ l, s2 = { s1 with deprecated := l } := by
  obtain ⟨_, _, _, _, _, h1, _⟩ := clean_ok h
  exact ⟨_, h1⟩

theorem clean_makeNotif {s1 s2 : RrdpState} {c : Config} {env : Env} {w w' : World}
    (h : s1.clean c env w = (.ok s2, w')) : s2.makeNotif = s1.makeNotif := by
  obtain ⟨l, rfl⟩ := clean_state h
  rfl

/-! ## Places -/

/-- In the part of the RRDP directory where snapshots and deltas are. -/
def DataPath (c : Config) (name : Str) (q : Path) : Prop :=
  ∃ a cs, a ≠ name ∧ a ≠ name ++ ".tmp".toList ∧ q = c.rrdpDir ++ a :: cs

theorem DataPath.below {c : Config} {name : Str} {q : Path} (h : DataPath c name q) :
    c.rrdpDir <+: q := by
  obtain ⟨a, cs, _, _, rfl⟩ := h
  exact List.prefix_append _ _

theorem GoodRel.dataPath {c : Config} {name rel : Str} (h : GoodRel name rel) {q : Path}
    (hq : c.rrdpDir ++ comps rel <+: q) : DataPath c name q := by
  obtain ⟨t, rfl⟩ := hq
  match hc : comps rel with
  | [] => exact absurd hc h.clean.nonempty
  | a :: cs =>
    have h1 := h.notName
    have h2 := h.notTmp
    rw [hc] at h1 h2
    exact ⟨a, cs ++ t, fun e => h1 (by rw [e]; rfl), fun e => h2 (by rw [e]; rfl), by simp⟩

theorem not_dataPath_below {c : Config} {name a : Str} (ha : a = name ∨ a = name ++ ".tmp".toList)
    {q : Path} (hq : c.rrdpDir ++ [a] <+: q) : ¬ DataPath c name q := by
  rintro ⟨b, cs, h1, h2, rfl⟩
  rw [List.prefix_append_right_inj, List.cons_prefix_cons] at hq
  rcases ha with rfl | rfl
  · exact h1 hq.1.symm
  · exact h2 hq.1.symm

theorem not_dataPath_single {c : Config} {name a : Str} (ha : a = name ∨ a = name ++ ".tmp".toList) :
    ¬ DataPath c name (c.rrdpDir ++ [a]) := not_dataPath_below ha (List.prefix_refl _)

theorem Sane.notifPath {c : Config} {base name : Str} {s : RrdpState} (hu : NotifUri c base name)
    (hs : Sane c base name s) : s.mappings.path s.source.name = c.rrdpDir ++ [name] := by
  unfold SourceMappings.path
  rw [hs.mappings, hs.fileName, hu.joinName]

theorem Sane.tmpPath {c : Config} {base name : Str} {s : RrdpState} (hu : NotifUri c base name)
    (hs : Sane c base name s) :
    s.mappings.path s.source.tmpName = c.rrdpDir ++ [name ++ ".tmp".toList] := by
  unfold SourceMappings.path NotificationSource.tmpName
  rw [hs.mappings, hs.fileName, hu.joinTmp]

theorem name_ne_tmp (name : Str) : name ++ ".tmp".toList ≠ name := by
  intro h
  have := congrArg List.length h
  simp at this

theorem Sane.uriOf {c : Config} {base name : Str} {s : RrdpState} (hu : NotifUri c base name)
    (hs : Sane c base name s) (rel : Str) : s.mappings.uri rel = base ++ rel := by
  unfold SourceMappings.uri httpsJoin
  rw [hs.mappings]
  dsimp only
  rw [if_pos (Or.inl hu.slash)]

/-! ## The state stays sane -/

theorem mem_mergeDeltas {a b : List DeltaState} {d : DeltaState} :
    d ∈ mergeDeltas a b ↔ d ∈ a ∨ d ∈ b := by
  unfold mergeDeltas
  rw [List.mem_reverse, mem_sortBy, List.mem_append]

theorem Absorbed.sane {c : Config} {base name : Str} {env : Env} {w w' : World}
    {s s' : RrdpState} {st : StagedChanges}
    {kept gone : List DeltaState} {new : List DeprecatedFile}
    (h : Absorbed env w w' s st s' kept gone new) (hs : Sane c base name s)
    (h1 : GoodRel name st.snapshot.relPath) (h2 : ∀ d ∈ st.deltas, GoodRel name d.relPath) :
    Sane c base name s' := by
  refine ⟨h.source ▸ hs.source, h.source ▸ hs.fileName, h.mappings ▸ hs.mappings, ?_, ?_, ?_⟩
  · intro x hx
    rw [h.snapshot] at hx
    cases hx
    exact h1
  · intro d hd
    rw [h.deltas, mem_mergeDeltas] at hd
    rcases hd with hd | hd
    · exact hs.deltas d (h.split ▸ List.mem_append.2 (Or.inl hd))
    · exact h2 d hd
  · intro d hd
    rw [h.deprecated, List.mem_append] at hd
    rcases hd with hd | hd
    · exact hs.deprecated d hd
    · have hm : d.path ∈ new.map (·.path) := List.mem_map.2 ⟨d, hd, rfl⟩
      rw [h.newPaths, List.mem_append] at hm
      rcases hm with hm | hm
      · unfold RrdpState.snapshotPath at hm
        match hsn : s.snapshot with
        | none => rw [hsn] at hm; simp at hm
        | some x =>
          rw [hsn] at hm
          simp only [Option.map_some, Option.toList_some, List.mem_singleton] at hm
          refine ⟨x.relPath, hs.snapshot x hsn, ?_⟩
          rw [hm]
          unfold SourceMappings.path Config.pubPath
          rw [hs.mappings, joinPath_clean (hs.snapshot x hsn).clean]
      · obtain ⟨x, hx, hx'⟩ := List.mem_map.1 hm
        have hg := hs.deltas x (h.split ▸ List.mem_append.2 (Or.inr hx))
        refine ⟨x.relPath, hg, ?_⟩
        rw [← hx']
        unfold SourceMappings.path Config.pubPath
        rw [hs.mappings, joinPath_clean hg.clean]

theorem absorb_sane {c : Config} {base name : Str} {env : Env} {w w' : World}
    {s s1 : RrdpState} {st : StagedChanges} (h : s.absorb st env w = (.ok s1, w'))
    (hs : Sane c base name s) (h1 : GoodRel name st.snapshot.relPath)
    (h2 : ∀ d ∈ st.deltas, GoodRel name d.relPath) : Sane c base name s1 := by
  obtain ⟨_, _, kept, gone, new, ha⟩ := absorb_ok h
  exact ha.sane hs h1 h2

theorem clean_sane {c : Config} {base name : Str} {env : Env} {w w' : World}
    {s1 s2 : RrdpState} (h : s1.clean c env w = (.ok s2, w'))
    (hs : Sane c base name s1) : Sane c base name s2 := by
  obtain ⟨_, _, _, _, _, h1, _⟩ := clean_ok h
  rw [h1]
  exact ⟨hs.1, hs.2, hs.3, hs.4, hs.5, fun d hd => hs.6 d (List.mem_filter.1 hd).1⟩

theorem Sane.persisted {c : Config} {base name : Str} {s : RrdpState} (hs : Sane c base name s) :
    Sane c base name s.persisted := ⟨hs.1, hs.2, hs.3, hs.4, hs.5, hs.6⟩

/-! ## Where a run writes -/

/-- Moves and cleanup. -/
def applyEff (c : Config) (name : Str) : Eff :=
  ⟨fun q => c.stagingDir <+: q ∨ DataPath c name q, fun _ => False, fun _ => False,
    fun q => DataPath c name q, fun _ => False, fun q => q <+: c.rrdpDir ∨ c.rrdpDir <+: q⟩

theorem moveStaged_within {c : Config} {name : Str} {st : StagedChanges}
    (h1 : GoodRel name st.snapshot.relPath) (h2 : ∀ d ∈ st.deltas, GoodRel name d.relPath) :
    Rel (Within (applyEff c name)) (moveStaged c st) := by
  refine moveStaged_in (fun rel hrel => ?_)
  have hg : GoodRel name rel := by
    rcases hrel with rfl | hrel
    · exact h1
    · obtain ⟨d, hd, rfl⟩ := List.mem_map.1 hrel
      exact h2 d hd
  rw [joinPath_clean hg.clean, joinPath_clean hg.clean]
  refine ⟨?_, hg.dataPath (List.prefix_refl _)⟩
  rintro q (hq | hq)
  · exact Or.inl ((List.prefix_append _ _).trans hq)
  · exact Or.inr (hg.dataPath hq)

theorem clean_dataPath {c : Config} {base name : Str} {s : RrdpState} (hs : Sane c base name s) :
    RelWF (applyEff c name) (s.clean c) := by
  refine clean_in (fun d hd => ?_) (fun d hd q hq => ?_)
  · obtain ⟨rel, hg, hp⟩ := hs.deprecated d hd
    exact Or.inr (hg.dataPath (hp ▸ List.prefix_refl _))
  · obtain ⟨rel, _, hp⟩ := hs.deprecated d hd
    exact List.prefix_or_prefix_of_prefix hq (hp ▸ List.prefix_append _ _)

/-- The rsync part. -/
def rsyncEff (c : Config) : Eff :=
  Eff.only (fun q => c.rsyncEnabled = true ∧ (c.rsyncDir <+: q ∨ q = c.rsyncStatePath))

theorem objectPath_below {out : Path} {ih : Bool} {u : RsyncUri} (h : StaysBelow (objectRel ih u)) :
    objectPath out ih u = out ++ comps (objectRel ih u) := by
  unfold objectPath objectRel at *
  split <;> rename_i hi
  · rw [if_pos hi] at h; rw [h.join]
  · rw [if_neg hi] at h; rw [h.join]

theorem rsyncPart_within {c : Config} {s : RrdpState}
    (ho : c.rsyncEnabled = true → CleanObjects c.rsyncIncludeHost) :
    Rel (Within (rsyncEff c)) (rsyncPart c s) := by
  unfold rsyncPart
  split
  · rename_i hen
    refine updateRsync_in (fun q hq => ⟨hen, Or.inl hq⟩) ⟨hen, Or.inr rfl⟩
      (fun snap _ b e he => ⟨hen, Or.inl ?_⟩)
    rw [objectPath_below (ho hen b e he)]
    unfold RsyncRevision.path
    rw [List.append_assoc]
    exact List.prefix_append _ _
  · exact Rel.pure _

/-- Everything a publication may do. -/
def pubEff (c : Config) (name : Str) : Eff :=
  ⟨fun q => c.stagingDir <+: q ∨ DataPath c name q ∨ c.rrdpDir ++ [name] <+: q ∨
      c.rrdpDir ++ [name ++ ".tmp".toList] <+: q ∨
      (c.rsyncEnabled = true ∧ (c.rsyncDir <+: q ∨ q = c.rsyncStatePath)) ∨
      q = c.rrdpStatePath,
    fun _ => False, fun _ => False, fun q => DataPath c name q, fun _ => True,
    fun q => q <+: c.rrdpDir ∨ c.rrdpDir <+: q⟩

theorem publish_within {c : Config} {base name : Str} {s : RrdpState} {st : StagedChanges}
    {env : Env} {w : World} (hu : NotifUri c base name) (hs : Sane c base name s)
    (h1 : GoodRel name st.snapshot.relPath) (h2 : ∀ d ∈ st.deltas, GoodRel name d.relPath)
    (ho : c.rsyncEnabled = true → CleanObjects c.rsyncIncludeHost) (hw : w.cur.WF) :
    Within (pubEff c name) w (publish c s st env w).2 := by
  have le1 : (applyEff c name).Le (pubEff c name) :=
    ⟨fun q hq => hq.elim Or.inl (fun h => Or.inr (Or.inl h)), fun _ h => h.elim,
      fun _ h => h.elim, fun _ h => h, fun _ h => h.elim, fun _ h => h⟩
  have le2 : (rsyncEff c).Le (pubEff c name) := Eff.only_le (fun q hq =>
    Or.inr (Or.inr (Or.inr (Or.inr (Or.inl hq)))))
  have hm := fun w => (moveStaged_within (c := c) h1 h2 env w).mono le1
  refine publish_tr (T := Within (pubEff c name)) (hm w) ?_ ?_ ?_ ?_ ?_
  · intro w1 _; exact absorb_in s st env w1
  · intro w1 s1 w2 e1 e2
    have hw1 : w1.cur.WF := by have := (hm w).wf hw; rw [e1] at this; exact this
    have hw2 : w2.cur.WF := by
      have := (absorb_in (E := pubEff c name) s st env w1).wf hw1; rw [e2] at this; exact this
    exact (clean_dataPath (absorb_sane e2 hs h1 h2) env w2 hw2).mono le1
  · intro w1 s1 w2 s2 w3 e1 e2 e3
    exact (rsyncPart_within ho env w3).mono le2
  · intro w1 s1 w2 s2 w3 w4 e1 e2 e3 e4
    have hs2 := clean_sane e3 (absorb_sane e2 hs h1 h2)
    refine writeNotification_in (fun _ => trivial) (fun q hq => ?_) (fun q hq => ?_) env w4
    · rw [hs2.tmpPath hu] at hq; exact Or.inr (Or.inr (Or.inr (Or.inl hq)))
    · rw [hs2.notifPath hu] at hq; exact Or.inr (Or.inr (Or.inl hq))
  · intro w1 s1 w2 s2 w3 w4 w5 e1 e2 e3 e4 e5
    exact persist_in (E := pubEff c name) (Or.inr (Or.inr (Or.inr (Or.inr (Or.inr rfl))))) s2 env w5

/-- Everything a run may do. -/
def runEff (c : Config) (name : Str) : Eff :=
  ⟨(pubEff c name).files, fun _ => True, fun p => p ∈ c.scripts, fun q => DataPath c name q,
    fun _ => True, (pubEff c name).emptied⟩

theorem outside_state {c : Config} {q : Path}
    (h : ¬ c.stateDir <+: q ∨ (¬ c.stagingDir <+: q ∧ q ≠ c.rrdpStatePath ∧ q ≠ c.rsyncStatePath)) :
    ¬ c.stagingDir <+: q ∧ q ≠ c.rrdpStatePath ∧ q ≠ c.rsyncStatePath := by
  rcases h with h | h
  · refine ⟨fun h' => h ((List.prefix_append _ _).trans h'), ?_, ?_⟩
    · rintro rfl; exact h (List.prefix_append _ _)
    · rintro rfl; exact h (List.prefix_append _ _)
  · exact h

theorem runEff_outside {c : Config} {name : Str} {q : Path} (h1 : ¬ c.rrdpDir <+: q)
    (h2 : ¬ (c.rsyncEnabled = true ∧ c.rsyncDir <+: q))
    (h4 : ¬ c.stagingDir <+: q ∧ q ≠ c.rrdpStatePath ∧ q ≠ c.rsyncStatePath) :
    ¬ (runEff c name).files q := by
  rintro (h | h | h | h | ⟨h, h' | h'⟩ | h)
  · exact h4.1 h
  · exact h1 h.below
  · exact h1 ((List.prefix_append _ _).trans h)
  · exact h1 ((List.prefix_append _ _).trans h)
  · exact h2 ⟨h, h'⟩
  · exact h4.2.2 h'
  · exact h4.2.1 h

theorem process_tr {T : World → World → Prop} [Tr T] {depth : Nat} {c : Config} {env : Env}
    {w : World} (h1 : T w (prepare depth c env w).2)
    (h2 : ∀ s st w1, prepare depth c env w = (.ok (some (s, st)), w1) →
      T w1 (publish c s st env w1).2) :
    T w (process depth c env w).2 := by
  rw [process_eq]
  refine Tr.bindAt h1 (fun r w1 e => ?_)
  match r with
  | none => exact Tr.refl _
  | some (s, st) => exact h2 s st w1 e

theorem process_within {depth : Nat} {c : Config} {base name : Str} {env : Env} {w : World}
    (h : RunConds c base name env w.cur) :
    Within (runEff c name) w (process depth c env w).2 := by
  have hp := prepare_within (depth := depth) h.uri h.state h.source
  refine process_tr (T := Within (runEff c name)) ?_ ?_
  · have le : (prepEff c).Le (runEff c name) :=
      ⟨fun q hq => Or.inl hq, fun _ _ => trivial, fun _ h => h, fun _ h => h.elim,
        fun _ h => h.elim, fun _ h => h.elim⟩
    exact hp.mono le
  · intro s st w1 e
    obtain ⟨n, hprep⟩ := prepare_ok h.uri e
    have hs := hprep.sane h.state
    have hst := hprep.staged
    rw [show s.mappings.baseUri = base by rw [hs.mappings]] at hst
    obtain ⟨g1, g2⟩ := hst.good (hprep.good h.source)
    have hw1 : w1.cur.WF := by have := hp.wf h.wf; rw [e] at this; exact this
    have le : (pubEff c name).Le (runEff c name) :=
      ⟨fun q hq => hq, fun _ h => h.elim, fun _ h => h.elim, fun _ h => h, fun _ h => h,
        fun _ h => h⟩
    exact (publish_within h.uri hs g1 g2 h.objects hw1).mono le

/-- What is known when publication starts. -/
structure AtPublish (depth : Nat) (c : Config) (base name : Str) (env : Env) (w : World)
    (s : RrdpState) (st : StagedChanges) (w1 : World) (n : Notif) : Prop where
  prep : prepare depth c env w = (.ok (some (s, st)), w1)
  prepared : Prepared depth c base name env w w1 s st n
  sane : Sane c base name s
  staged : StagedAs base s n st
  good : GoodNotif base name n
  goodSnap : GoodRel name st.snapshot.relPath
  goodDeltas : ∀ d ∈ st.deltas, GoodRel name d.relPath
  wf : w1.cur.WF
  within : Within (prepEff c) w w1

theorem atPublish {depth : Nat} {c : Config} {base name : Str} {env : Env} {w w1 : World}
    {s : RrdpState} {st : StagedChanges}
    (h : RunConds c base name env w.cur)
    (e : prepare depth c env w = (.ok (some (s, st)), w1)) :
    ∃ n, AtPublish depth c base name env w s st w1 n := by
  obtain ⟨n, hprep⟩ := prepare_ok h.uri e
  have hp := prepare_within (depth := depth) h.uri h.state h.source
  have hs := hprep.sane h.state
  have hst := hprep.staged
  rw [show s.mappings.baseUri = base by rw [hs.mappings]] at hst
  obtain ⟨g1, g2⟩ := hst.good (hprep.good h.source)
  rw [e] at hp
  exact ⟨n, e, hprep, hs, hst, hprep.good h.source, g1, g2, hp.wf h.wf, hp⟩

/-! ## The notification file -/

theorem publish_notif {c : Config} {base name : Str} {s : RrdpState} {st : StagedChanges}
    {env : Env} {w : World} (hl : Layout c base name) (hs : Sane c base name s)
    (h1 : GoodRel name st.snapshot.relPath) (h2 : ∀ d ∈ st.deltas, GoodRel name d.relPath)
    (ho : c.rsyncEnabled = true → CleanObjects c.rsyncIncludeHost) (hw : w.cur.WF) (fs0 : FS) :
    Keeps (fun f => f.WF ∧ (f.leaf (c.notifPath name) = fs0.leaf (c.notifPath name) ∨
      ∃ t, f.leaf (c.notifPath name) = some (.file (Ext.writeNotif (newNotif s st)) t))) w
      (publish c s st env w).2 := by
  have hm := fun w => moveStaged_within (c := c) h1 h2 env w
  have frame : ∀ {S : Path → Prop}, ¬ S (c.notifPath name) → ∀ f f' : FS,
      (f.WF ∧ (f.leaf (c.notifPath name) = fs0.leaf (c.notifPath name) ∨
        ∃ t, f.leaf (c.notifPath name) = some (.file (Ext.writeNotif (newNotif s st)) t))) →
      Change S f f' →
      (f'.WF ∧ (f'.leaf (c.notifPath name) = fs0.leaf (c.notifPath name) ∨
        ∃ t, f'.leaf (c.notifPath name) = some (.file (Ext.writeNotif (newNotif s st)) t))) := by
    intro S hS f f' hf hch
    obtain ⟨h3, h4⟩ := hch hf.1
    refine ⟨h3, ?_⟩
    rw [h4 _ hS]; exact hf.2
  have nb : c.rrdpDir <+: c.notifPath name := List.prefix_append _ _
  have na : ¬ (c.stagingDir <+: c.notifPath name ∨ DataPath c name (c.notifPath name)) := by
    rintro (h | h)
    · exact hl.rrdpStaging.not_both nb h
    · exact not_dataPath_single (Or.inl rfl) h
  refine publish_tr (T := Keeps _) (Keeps.of_within (hm w) (frame na)) ?_ ?_ ?_ ?_ ?_
  · intro w1 _; exact Keeps.of_within (absorb_in (E := Eff.none) s st env w1) (frame id)
  · intro w1 s1 w2 e1 e2
    have hw1 : w1.cur.WF := by have := (hm w).wf hw; rw [e1] at this; exact this
    have hw2 : w2.cur.WF := by
      have := (absorb_in (E := Eff.none) s st env w1).wf hw1; rw [e2] at this; exact this
    exact Keeps.of_within (clean_dataPath (absorb_sane e2 hs h1 h2) env w2 hw2) (frame na)
  · intro w1 s1 w2 s2 w3 e1 e2 e3
    refine Keeps.of_within (rsyncPart_within ho env w3) (frame ?_)
    rintro ⟨_, h | h⟩
    · exact hl.rrdpRsync.not_both nb h
    · exact hl.rrdpRsyncState.1 (h ▸ nb)
  · intro w1 s1 w2 s2 w3 w4 e1 e2 e3 e4
    have hs2 := clean_sane e3 (absorb_sane e2 hs h1 h2)
    have hn : s2.makeNotif = .ok (newNotif s st) := by
      rw [clean_makeNotif e3]; exact absorb_makeNotif e2
    have hne : s2.mappings.path s2.source.tmpName ≠ s2.mappings.path s2.source.name := by
      rw [hs2.tmpPath hl.uri, hs2.notifPath hl.uri]
      intro he
      simp at he
    have hst := writeNotification_steps (d := c.rrdpNotifyDelay) hn hne (env := env) (w := w4)
    have hwf : Within (pubEff c name) w4 (s2.writeNotification c.rrdpNotifyDelay env w4).2 :=
      writeNotification_in (fun _ => trivial) (fun q hq => by
        rw [hs2.tmpPath hl.uri] at hq; exact Or.inr (Or.inr (Or.inr (Or.inl hq)))) (fun q hq => by
        rw [hs2.notifPath hl.uri] at hq; exact Or.inr (Or.inr (Or.inl hq))) env w4
    refine Keeps.of_steps (hst.and hwf.steps) ?_
    rintro f f' ⟨g1, g2⟩ ⟨⟨_, g3⟩, g4⟩
    refine ⟨(g4 g1).1, ?_⟩
    rw [hs2.notifPath hl.uri] at g3
    rcases g3 with g3 | g3
    · unfold Config.notifPath at *; rw [g3]; exact g2
    · exact Or.inr g3
  · intro w1 s1 w2 s2 w3 w4 w5 e1 e2 e3 e4 e5
    refine Keeps.of_within (persist_in (E := Eff.only (· = c.rrdpStatePath)) rfl s2 env w5) (frame ?_)
    intro h
    exact hl.rrdpState.1 (h ▸ nb)

/-- What publication can rely on. -/
structure PubPre (c : Config) (base name : Str) (s : RrdpState) (st : StagedChanges) : Prop where
  uri : NotifUri c base name
  sane : Sane c base name s
  goodSnap : GoodRel name st.snapshot.relPath
  goodDeltas : ∀ d ∈ st.deltas, GoodRel name d.relPath
  objects : c.rsyncEnabled = true → CleanObjects c.rsyncIncludeHost

/-- Places touched when the notification is written. -/
def notifEff (c : Config) (name : Str) : Eff :=
  ⟨fun q => c.rrdpDir ++ [name] <+: q ∨ c.rrdpDir ++ [name ++ ".tmp".toList] <+: q,
    fun _ => False, fun _ => False, fun _ => False, fun _ => True, fun _ => False⟩

/-- What is true up to the step that writes the state (`T`), and with that step (`R`). -/
theorem publish_split {T : World → World → Prop} [Tr T] {R : World → Prop} {c : Config} {base name : Str}
    {s : RrdpState} {st : StagedChanges} {env : Env} {w : World}
    (hp : PubPre c base name s st) (hw : w.cur.WF)
    (hR : ∀ e w', publish c s st env w = (.error e, w') → T w w' → R w')
    (h1 : Within (applyEff c name) w (moveStaged c st env w).2 → T w (moveStaged c st env w).2)
    (h2 : ∀ w1, moveStaged c st env w = (.ok (), w1) → w1.cur.WF →
      Within Eff.none w1 (s.absorb st env w1).2 → T w1 (s.absorb st env w1).2)
    (h3 : ∀ w1 s1 w2, moveStaged c st env w = (.ok (), w1) → s.absorb st env w1 = (.ok s1, w2) →
      w2.cur.WF → Sane c base name s1 →
      Within (applyEff c name) w2 (s1.clean c env w2).2 → T w2 (s1.clean c env w2).2)
    (h4 : ∀ w1 s1 w2 s2 w3, moveStaged c st env w = (.ok (), w1) →
      s.absorb st env w1 = (.ok s1, w2) → s1.clean c env w2 = (.ok s2, w3) →
      w3.cur.WF → Sane c base name s2 → Within (rsyncEff c) w3 (rsyncPart c s2 env w3).2 →
      T w3 (rsyncPart c s2 env w3).2)
    (h5 : ∀ w1 s1 w2 s2 w3 w4, moveStaged c st env w = (.ok (), w1) →
      s.absorb st env w1 = (.ok s1, w2) → s1.clean c env w2 = (.ok s2, w3) →
      rsyncPart c s2 env w3 = (.ok (), w4) → w4.cur.WF → Sane c base name s2 →
      Within (notifEff c name) w4 (s2.writeNotification c.rrdpNotifyDelay env w4).2 →
      Steps (Announcing (c.rrdpDir ++ [name ++ ".tmp".toList]) (c.notifPath name)
        (Ext.writeNotif (newNotif s st))) w4 (s2.writeNotification c.rrdpNotifyDelay env w4).2 →
      T w4 (s2.writeNotification c.rrdpNotifyDelay env w4).2)
    (h6 : ∀ w1 s1 w2 s2 w3 w4 w5, moveStaged c st env w = (.ok (), w1) →
      s.absorb st env w1 = (.ok s1, w2) → s1.clean c env w2 = (.ok s2, w3) →
      rsyncPart c s2 env w3 = (.ok (), w4) → s2.writeNotification c.rrdpNotifyDelay env w4 = (.ok (), w5) →
      w5.cur.WF → Sane c base name s2 →
      (∃ t, w5.cur.get (c.notifPath name) = some (.file (Ext.writeNotif (newNotif s st)) t)) →
      Within (Eff.only (· = c.rrdpStatePath)) w5 (s2.persist c.rrdpStatePath env w5).2 →
      Steps (Writing c.rrdpStatePath (Ext.encState s2)) w5 (s2.persist c.rrdpStatePath env w5).2 →
      T w w5 → R (s2.persist c.rrdpStatePath env w5).2) :
    R (publish c s st env w).2 := by
  have hm := moveStaged_within (c := c) hp.goodSnap hp.goodDeltas env w
  have ha := fun w1 => absorb_in (E := Eff.none) s st env w1
  have hw1 : ∀ {w1}, moveStaged c st env w = (.ok (), w1) → w1.cur.WF := fun e => by
    have := hm.wf hw; rw [e] at this; exact this
  have hw2 : ∀ {w1 s1 w2}, moveStaged c st env w = (.ok (), w1) →
      s.absorb st env w1 = (.ok s1, w2) → w2.cur.WF := fun {w1 s1 w2} e1 e2 => by
    have := (ha w1).wf (hw1 e1); rw [e2] at this; exact this
  have hs1 : ∀ {w1 s1 w2}, s.absorb st env w1 = (.ok s1, w2) → Sane c base name s1 :=
    fun e2 => absorb_sane e2 hp.sane hp.goodSnap hp.goodDeltas
  have hcl : ∀ {w1 s1 w2}, moveStaged c st env w = (.ok (), w1) →
      s.absorb st env w1 = (.ok s1, w2) → Within (applyEff c name) w2 (s1.clean c env w2).2 :=
    fun {w1 s1 w2} e1 e2 => clean_dataPath (hs1 e2) env w2 (hw2 e1 e2)
  have hw3 : ∀ {w1 s1 w2 s2 w3}, moveStaged c st env w = (.ok (), w1) →
      s.absorb st env w1 = (.ok s1, w2) → s1.clean c env w2 = (.ok s2, w3) → w3.cur.WF :=
    fun {w1 s1 w2 s2 w3} e1 e2 e3 => by
      have := (hcl e1 e2).wf (hw2 e1 e2); rw [e3] at this; exact this
  have hrs := fun s2 w3 => rsyncPart_within (c := c) (s := s2) hp.objects env w3
  have hw4 : ∀ {w1 s1 w2 s2 w3 w4}, moveStaged c st env w = (.ok (), w1) →
      s.absorb st env w1 = (.ok s1, w2) → s1.clean c env w2 = (.ok s2, w3) →
      rsyncPart c s2 env w3 = (.ok (), w4) → w4.cur.WF :=
    fun {w1 s1 w2 s2 w3 w4} e1 e2 e3 e4 => by
      have := (hrs s2 w3).wf (hw3 e1 e2 e3); rw [e4] at this; exact this
  have hwn : ∀ {s2 : RrdpState} {w4}, Sane c base name s2 →
      Within (notifEff c name) w4 (s2.writeNotification c.rrdpNotifyDelay env w4).2 := fun {s2 w4} hs2 =>
    writeNotification_in (fun _ => trivial) (fun q hq => by
      rw [hs2.tmpPath hp.uri] at hq; exact Or.inr hq) (fun q hq => by
      rw [hs2.notifPath hp.uri] at hq; exact Or.inl hq) env w4
  have hn : ∀ {w1 s1 w2 s2 w3}, s.absorb st env w1 = (.ok s1, w2) →
      s1.clean c env w2 = (.ok s2, w3) → s2.makeNotif = .ok (newNotif s st) :=
    fun e2 e3 => by rw [clean_makeNotif e3]; exact absorb_makeNotif e2
  refine publish_tr_last hR (h1 hm) (fun w1 e1 => h2 w1 e1 (hw1 e1) (ha w1))
    (fun w1 s1 w2 e1 e2 => h3 w1 s1 w2 e1 e2 (hw2 e1 e2) (hs1 e2) (hcl e1 e2))
    (fun w1 s1 w2 s2 w3 e1 e2 e3 => h4 w1 s1 w2 s2 w3 e1 e2 e3 (hw3 e1 e2 e3)
      (clean_sane e3 (hs1 e2)) (hrs s2 w3)) ?_ ?_
  · intro w1 s1 w2 s2 w3 w4 e1 e2 e3 e4
    have hs2 := clean_sane e3 (hs1 e2)
    have hne : s2.mappings.path s2.source.tmpName ≠ s2.mappings.path s2.source.name := by
      rw [hs2.tmpPath hp.uri, hs2.notifPath hp.uri]
      intro he
      simp at he
    have hst := writeNotification_steps (d := c.rrdpNotifyDelay) (hn e2 e3) hne (env := env) (w := w4)
    rw [hs2.tmpPath hp.uri, hs2.notifPath hp.uri] at hst
    exact h5 w1 s1 w2 s2 w3 w4 e1 e2 e3 e4 (hw4 e1 e2 e3 e4) hs2 (hwn hs2) hst
  · intro w1 s1 w2 s2 w3 w4 w5 e1 e2 e3 e4 e5 hT
    have hs2 := clean_sane e3 (hs1 e2)
    have hw5 : w5.cur.WF := by
      have := (hwn hs2 (w4 := w4)).wf (hw4 e1 e2 e3 e4); rw [e5] at this; exact this
    obtain ⟨n, t, h7, h8⟩ := writeNotification_ok e5
    rw [hn e2 e3] at h7
    cases h7
    rw [hs2.notifPath hp.uri] at h8
    exact h6 w1 s1 w2 s2 w3 w4 w5 e1 e2 e3 e4 e5 hw5 hs2 ⟨t, h8⟩
      (persist_in (E := Eff.only (· = c.rrdpStatePath)) rfl s2 env w5)
      (writeBuf_writing _ _ env w5) hT

/-- A relation holds of a publication if it holds of each step, with all that is known
about the steps. -/
theorem publish_by {T : World → World → Prop} [Tr T] {c : Config} {base name : Str}
    {s : RrdpState} {st : StagedChanges} {env : Env} {w : World}
    (hp : PubPre c base name s st) (hw : w.cur.WF)
    (h1 : Within (applyEff c name) w (moveStaged c st env w).2 → T w (moveStaged c st env w).2)
    (h2 : ∀ w1, moveStaged c st env w = (.ok (), w1) → w1.cur.WF →
      Within Eff.none w1 (s.absorb st env w1).2 → T w1 (s.absorb st env w1).2)
    (h3 : ∀ w1 s1 w2, moveStaged c st env w = (.ok (), w1) → s.absorb st env w1 = (.ok s1, w2) →
      w2.cur.WF → Sane c base name s1 →
      Within (applyEff c name) w2 (s1.clean c env w2).2 → T w2 (s1.clean c env w2).2)
    (h4 : ∀ w1 s1 w2 s2 w3, moveStaged c st env w = (.ok (), w1) →
      s.absorb st env w1 = (.ok s1, w2) → s1.clean c env w2 = (.ok s2, w3) →
      w3.cur.WF → Sane c base name s2 → Within (rsyncEff c) w3 (rsyncPart c s2 env w3).2 →
      T w3 (rsyncPart c s2 env w3).2)
    (h5 : ∀ w1 s1 w2 s2 w3 w4, moveStaged c st env w = (.ok (), w1) →
      s.absorb st env w1 = (.ok s1, w2) → s1.clean c env w2 = (.ok s2, w3) →
      rsyncPart c s2 env w3 = (.ok (), w4) → w4.cur.WF → Sane c base name s2 →
      Within (notifEff c name) w4 (s2.writeNotification c.rrdpNotifyDelay env w4).2 →
      Steps (Announcing (c.rrdpDir ++ [name ++ ".tmp".toList]) (c.notifPath name)
        (Ext.writeNotif (newNotif s st))) w4 (s2.writeNotification c.rrdpNotifyDelay env w4).2 →
      T w4 (s2.writeNotification c.rrdpNotifyDelay env w4).2)
    (h6 : ∀ w1 s1 w2 s2 w3 w4 w5, moveStaged c st env w = (.ok (), w1) →
      s.absorb st env w1 = (.ok s1, w2) → s1.clean c env w2 = (.ok s2, w3) →
      rsyncPart c s2 env w3 = (.ok (), w4) → s2.writeNotification c.rrdpNotifyDelay env w4 = (.ok (), w5) →
      w5.cur.WF → Sane c base name s2 →
      (∃ t, w5.cur.get (c.notifPath name) = some (.file (Ext.writeNotif (newNotif s st)) t)) →
      Within (Eff.only (· = c.rrdpStatePath)) w5 (s2.persist c.rrdpStatePath env w5).2 →
      Steps (Writing c.rrdpStatePath (Ext.encState s2)) w5 (s2.persist c.rrdpStatePath env w5).2 →
      T w5 (s2.persist c.rrdpStatePath env w5).2) :
    T w (publish c s st env w).2 :=
  publish_split (R := T w) hp hw (fun _ _ _ h => h) h1 h2 h3 h4 h5
    fun w1 s1 w2 s2 w3 w4 w5 e1 e2 e3 e4 e5 a1 a2 a3 a4 a5 hT =>
      Tr.trans hT (h6 w1 s1 w2 s2 w3 w4 w5 e1 e2 e3 e4 e5 a1 a2 a3 a4 a5)

end KSync
