import Verif.Lemmas.Staged

/-! # Successful runs -/

set_option linter.unusedSectionVars false
set_option linter.unusedSimpArgs false
set_option linter.unusedVariables false

namespace KSync

variable [Ext]

/-! ## The deltas of the new notification -/

theorem IsLimit.ascending {max : Option Nat} {ds ds' : List DeltaInfo} (h : IsLimit max ds ds') :
    ds'.Pairwise (fun a b => a.serial < b.serial) := by
  rw [List.pairwise_iff_getElem]
  intro i j hi hj hij
  have e1 := h.serials i (j - i) (by omega)
  have hh : i + (j - i) = j := by omega
  simp only [hh] at e1
  omega

theorem notOlder_iff {n : Notif} (h : n.deltas.Pairwise (fun a b => a.serial < b.serial)) {k : Nat} :
    NotOlder n k ↔ cutoffOf n ≤ k := by
  unfold NotOlder cutoffOf
  cases hd : n.deltas with
  | nil => simp
  | cons d l =>
    rw [hd, List.pairwise_cons] at h
    simp only [List.head?_cons, List.mem_cons, reduceCtorEq, false_and, or_false]
    constructor
    · rintro ⟨x, rfl | hx, h1⟩
      · exact h1
      · have := h.1 x hx; omega
    · intro h1; exact ⟨d, Or.inl rfl, h1⟩

theorem decide_reset {s : RrdpState} {n : Notif} {r : Bool}
    (h : decideUpdate s.snapshot n = .proceed r) :
    (r = false ↔ SameSession s n) ∧ NewVersion s n := by
  unfold decideUpdate at h
  unfold SameSession NewVersion
  match hs : s.snapshot with
  | none => rw [hs] at h; cases h; simp
  | some x =>
    rw [hs] at h
    dsimp only at h
    by_cases h1 : x.session ≠ n.session
    · rw [if_pos h1] at h
      cases h
      simp only [Bool.true_eq_false, Option.some.injEq, forall_eq', false_iff]
      exact ⟨h1, Or.inl h1⟩
    · rw [if_neg h1] at h
      have h1' : x.session = n.session := Classical.not_not.1 h1
      by_cases h2 : x.serial < n.serial
      · rw [if_pos h2] at h
        cases h
        simp [h1', h2]
      · rw [if_neg h2] at h
        split at h <;> cases h

theorem deltaIsNew_iff {base : Str} {s : RrdpState} {n : Notif} {r : Bool} {k : Nat}
    (hr : r = false ↔ SameSession s n)
    (ho : Descending (s.held base)) : s.deltaIsNew r k = true ↔ NewDelta s n k := by
  unfold RrdpState.deltaIsNew NewDelta
  cases r with
  | true =>
    simp only [Bool.true_or, true_iff]
    left
    intro h
    have := hr.2 h
    cases this
  | false =>
    have hs : SameSession s n := hr.1 rfl
    simp only [Bool.false_or, hs, not_true, false_or]
    cases hd : s.deltas with
    | nil => simp
    | cons d l =>
      unfold Descending RrdpState.held at ho
      rw [hd, List.map_cons, List.pairwise_cons] at ho
      simp only [List.head?_cons, decide_eq_true_eq, List.mem_cons, forall_eq_or_imp]
      constructor
      · intro h
        refine ⟨h, fun x hx => ?_⟩
        have := ho.1 _ (List.mem_map.2 ⟨x, hx, rfl⟩)
        dsimp only at this
        omega
      · exact fun h => h.1

theorem takeWhile_eq_filter {α : Type} {P : α → Bool} {l : List α}
    (h : l.Pairwise (fun a b => P b = true → P a = true)) : l.takeWhile P = l.filter P := by
  induction l with
  | nil => rfl
  | cons a l ih =>
    rw [List.pairwise_cons] at h
    by_cases ha : P a = true
    · rw [List.takeWhile_cons_of_pos ha, List.filter_cons_of_pos ha, ih h.2]
    · rw [List.takeWhile_cons_of_neg ha, List.filter_cons_of_neg ha]
      symm
      rw [List.filter_eq_nil_iff]
      intro b hb hb'
      exact ha (h.1 b hb hb')

theorem kept_eq_filter {base : Str} {s : RrdpState} {st : StagedChanges}
    (ho : Descending (s.held base)) (hr : st.sessionReset = false) :
    keptDeltas s st = s.deltas.filter (fun d => decide (st.cutoff ≤ d.serial)) := by
  unfold keptDeltas
  rw [hr]
  refine takeWhile_eq_filter ?_
  unfold Descending RrdpState.held at ho
  rw [List.pairwise_map] at ho
  refine ho.imp ?_
  intro a b h1 h2
  simp only [decide_eq_true_eq] at *
  omega

theorem mergeDeltas_perm (a b : List DeltaState) : (mergeDeltas a b).Perm (a ++ b) := by
  unfold mergeDeltas
  exact (List.reverse_perm _).trans (sortBy_perm _ _)

theorem mergeDeltas_desc {a b : List DeltaState}
    (h : ((a ++ b).map (·.serial)).Nodup) :
    (mergeDeltas a b).Pairwise (fun x y => y.serial < x.serial) := by
  unfold mergeDeltas
  rw [List.pairwise_reverse]
  have h1 := sortBy_sorted (fun d : DeltaState => d.serial) (a ++ b)
  have h2 : ((sortBy (fun d : DeltaState => d.serial) (a ++ b)).map (·.serial)).Nodup :=
    ((sortBy_perm _ _).map _).nodup_iff.2 h
  rw [List.nodup_iff_pairwise_ne, List.pairwise_map] at h2
  refine (h1.and h2).imp ?_
  rintro x y ⟨h3, h4⟩
  omega

/-- What the new notification lists. -/
theorem newNotif_update {c : Config} {base name : Str} {s : RrdpState} {st : StagedChanges}
    {n : Notif} (hu : NotifUri c base name) (hs : Sane c base name s) (h : StagedAs base s n st)
    (hasc : n.deltas.Pairwise (fun a b => a.serial < b.serial))
    (hd : decideUpdate s.snapshot n = .proceed st.sessionReset)
    (ho : Descending (s.held base)) : Update base s n (newNotif s st) := by
  obtain ⟨v1, v2, v3, v4⟩ := newNotif_version hu hs h
  obtain ⟨hr, _⟩ := decide_reset hd
  have hnew : ∀ k, s.deltaIsNew st.sessionReset k = true ↔ NewDelta s n k :=
    fun k => deltaIsNew_iff hr ho
  -- membership in the two lists
  have hstaged : ∀ x, x ∈ st.deltas.map (fun d => (⟨d.serial, base ++ d.relPath, d.hash⟩ : DeltaInfo)) ↔
      x ∈ n.deltas ∧ NewDelta s n x.serial := by
    intro x
    rw [h.deltas, List.mem_filter, hnew]
  have hkept : ∀ d, d ∈ keptDeltas s st ↔ d ∈ s.deltas ∧ SameSession s n ∧ NotOlder n d.serial := by
    intro d
    rw [notOlder_iff hasc]
    by_cases hrf : st.sessionReset = false
    · rw [kept_eq_filter ho hrf, List.mem_filter, h.cutoff]
      simp [hr.1 hrf]
    · have : ¬ SameSession s n := fun h => hrf (hr.2 h)
      unfold keptDeltas
      rw [if_pos (by simpa using hrf)]
      simp [this]
  have hlist : (newNotif s st).deltas = (mergeDeltas (keptDeltas s st) st.deltas).map
      (fun d => ⟨d.serial, base ++ d.relPath, d.hash⟩) := by
    unfold newNotif
    dsimp only
    refine List.map_congr_left (fun d _ => ?_)
    rw [hs.uriOf hu]
  refine ⟨⟨v1, v2, v3, v4⟩, ?_, fun x => ?_⟩
  · unfold Descending
    rw [hlist, List.pairwise_map]
    refine mergeDeltas_desc ?_
    rw [List.map_append, List.nodup_append]
    refine ⟨?_, ?_, ?_⟩
    · have hsub : (keptDeltas s st).Sublist s.deltas := by
        unfold keptDeltas
        split
        · exact List.nil_sublist _
        · exact List.takeWhile_sublist _
      have : (s.deltas.map (·.serial)).Nodup := by
        rw [List.nodup_iff_pairwise_ne, List.pairwise_map]
        unfold Descending RrdpState.held at ho
        rw [List.pairwise_map] at ho
        refine ho.imp ?_
        intro a b hab
        dsimp only at hab
        omega
      exact this.sublist (hsub.map _)
    · have : (st.deltas.map (fun d => (⟨d.serial, base ++ d.relPath, d.hash⟩ : DeltaInfo))).Pairwise
          (fun a b => a.serial < b.serial) := by
        rw [h.deltas]; exact hasc.filter _
      rw [List.pairwise_map] at this
      rw [List.nodup_iff_pairwise_ne, List.pairwise_map]
      refine this.imp ?_
      intro a b hab
      dsimp only at hab
      omega
    · intro k hk k' hk' he
      subst he
      obtain ⟨d, hd1, rfl⟩ := List.mem_map.1 hk
      obtain ⟨d', hd2, he⟩ := List.mem_map.1 hk'
      obtain ⟨h1, h2, h3⟩ := (hkept d).1 hd1
      obtain ⟨_, h4⟩ := (hstaged _).1 (List.mem_map.2 ⟨d', hd2, rfl⟩)
      rcases h4 with h4 | h4
      · exact h4 h2
      · have := h4 d h1
        dsimp only at this
        omega
  · rw [hlist, ← hstaged]
    rw [List.mem_map]
    constructor
    · rintro ⟨d, hd, rfl⟩
      rcases mem_mergeDeltas.1 hd with hd | hd
      · obtain ⟨h1, h2, h3⟩ := (hkept d).1 hd
        exact Or.inr ⟨List.mem_map.2 ⟨d, h1, rfl⟩, h2, h3⟩
      · exact Or.inl (List.mem_map.2 ⟨d, hd, rfl⟩)
    · rintro (h1 | ⟨h1, h2, h3⟩)
      · obtain ⟨d, hd, rfl⟩ := List.mem_map.1 h1
        exact ⟨d, mem_mergeDeltas.2 (Or.inr hd), rfl⟩
      · obtain ⟨d, hd, rfl⟩ := List.mem_map.1 h1
        exact ⟨d, mem_mergeDeltas.2 (Or.inl ((hkept d).2 ⟨hd, h2, h3⟩)), rfl⟩

/-! ## The end of a successful run -/

/-- A successful run changed nothing, because there was nothing new, or it published. -/
theorem run_ok {depth : Nat} {c : Config} {base name : Str} {env : Env} {w w' : World}
    (hc : RunConds c base name env w.cur) (h : process depth c env w = (.ok (), w')) :
    (Same w w' ∧ ∃ s, InUse c base name w.cur s ∧
      ((∃ n, Offers c env w.cur s.source.etag n ∧ ¬ NewVersion s n) ∨
        ∃ u m tick, c.Locates c.notificationUri (.uri u m) ∧
          env.http tick ⟨u, m, s.source.etag⟩ = .notModified)) ∨
    ∃ s st w1 n, AtPublish depth c base name env w s st w1 n ∧
      publish c s st env w1 = (.ok (), w') := by
  rcases run_cases (depth := depth) hc with ⟨_, h1⟩ | ⟨s, st, w1, n, h1, h2⟩
  · left
    rcases process_cases depth c env w with ⟨e, w1, h2, _⟩ | ⟨s, w1, h2, h3, h4⟩
    · rw [h2] at h; cases h
    · rw [h4] at h
      obtain ⟨staged, w2, h5, h6⟩ := M.bind_ok.1 h
      match staged with
      | none =>
        dsimp only at h6
        rw [M.pure_ok] at h6
        obtain ⟨_, rfl⟩ := h6
        rcases updateStaged_cases s c env w1 with ⟨e, w3, h7, _⟩ | ⟨w3, h7, h8, _, h9⟩ |
          ⟨n, etag, ds, reset, w3, _, _, _, _, _, h7⟩
        · rw [h7] at h5; cases h5
        · rw [h7] at h5
          cases h5
          refine ⟨Tr.trans h3 h8, s, loadState_inUse hc.uri h2, ?_⟩
          rw [h3.cur] at h9
          rcases h9 with ⟨n, h9, x, h10, h11, h12⟩ | h9
          · refine Or.inl ⟨n, h9, fun hn => ?_⟩
            rcases hn x h10 with h | h
            · exact h h11
            · omega
          · exact Or.inr h9
        · rw [h7] at h5
          obtain ⟨_, _, _, h8, _⟩ := stage_ok h5
          cases h8
      | some st =>
        exfalso
        dsimp only at h6
        obtain ⟨s', w3, h7, h8⟩ := M.bind_ok.1 h6
        obtain ⟨_, w4, h9, h10⟩ := M.bind_ok.1 h8
        refine h1 s' st w4 ?_
        unfold prepare
        rw [M.bind_of_ok h2, M.bind_of_ok h5]
        dsimp only
        rw [M.bind_of_ok h7, M.bind_of_ok h9]
        rfl
  · right
    exact ⟨s, st, w1, n, h1, h2 ▸ h⟩

/-- What is true when a publication went well. -/
structure Done (c : Config) (base name : Str) (env : Env) (s : RrdpState) (st : StagedChanges)
    (w w1 w2 w3 w' : World) (s1 s2 : RrdpState) (kept gone : List DeltaState)
    (new : List DeprecatedFile) : Prop where
  moved : moveStaged c st env w = (.ok (), w1)
  absorbed : s.absorb st env w1 = (.ok s1, w2)
  cleaned : s1.clean c env w2 = (.ok s2, w3)
  book : Absorbed env w1 w2 s st s1 kept gone new
  same : Same w1 w2
  wf1 : w1.cur.WF
  wf2 : w2.cur.WF
  wf3 : w3.cur.WF
  sane : Sane c base name s2
  data : ∀ q, DataPath c name q → w'.cur.leaf q = w3.cur.leaf q
  notif : ∃ t, w'.cur.get (c.notifPath name) = some (.file (Ext.writeNotif (newNotif s st)) t)
  state : ∃ t, w'.cur.get c.rrdpStatePath = some (.file (Ext.encState s2) t)
  wf : w'.cur.WF

theorem publish_done {c : Config} {base name : Str} {s : RrdpState} {st : StagedChanges}
    {env : Env} {w w' : World} (hl : Layout c base name)
    (hp : PubPre c base name s st) (hw : w.cur.WF) (h : publish c s st env w = (.ok (), w')) :
    ∃ w1 w2 w3 s1 s2 kept gone new, Done c base name env s st w w1 w2 w3 w' s1 s2 kept gone new := by
  obtain ⟨w1, s1, w2, s2, w3, w4, w5, e1, e2, e3, e4, e5, e6⟩ := publish_ok h
  obtain ⟨a1, a2, kept, gone, new, ha⟩ := absorb_ok e2
  have hm := moveStaged_within (c := c) hp.goodSnap hp.goodDeltas env w
  rw [e1] at hm
  have hw1 := hm.wf hw
  have hw2 : w2.cur.WF := by rw [a1.cur]; exact hw1
  have hs1 := absorb_sane e2 hp.sane hp.goodSnap hp.goodDeltas
  have hc3 := clean_dataPath hs1 env w2 hw2
  rw [e3] at hc3
  have hw3 := hc3.wf hw2
  have hs2 := clean_sane e3 hs1
  have hr := rsyncPart_within (c := c) (s := s2) hp.objects env w3
  rw [e4] at hr
  have hw4 := hr.wf hw3
  have hn : Within (notifEff c name) w4 (s2.writeNotification c.rrdpNotifyDelay env w4).2 :=
    writeNotification_in (fun _ => trivial) (fun q hq => by
      rw [hs2.tmpPath hp.uri] at hq; exact Or.inr hq) (fun q hq => by
      rw [hs2.notifPath hp.uri] at hq; exact Or.inl hq) env w4
  rw [e5] at hn
  have hw5 := hn.wf hw4
  have hs := persist_in (E := Eff.only (· = c.rrdpStatePath)) rfl s2 env w5
  rw [e6] at hs
  obtain ⟨n, t, h7, h8⟩ := writeNotification_ok e5
  rw [clean_makeNotif e3, absorb_makeNotif e2] at h7
  cases h7
  rw [hs2.notifPath hp.uri] at h8
  obtain ⟨_, ⟨t', h9⟩, _⟩ := writeBuf_ok e6
  refine ⟨w1, w2, w3, s1, s2, kept, gone, new, e1, e2, e3, ha, a1, hw1, hw2, hw3, hs2, ?_, ⟨t, ?_⟩,
    ⟨t', h9⟩, hs.wf hw5⟩
  · intro q hq
    rw [hs.frame hw5 q, hn.frame hw4 q, hr.frame hw3 q]
    · rintro ⟨_, h | h⟩
      · exact hl.rrdpRsync.not_both hq.below h
      · exact hl.rrdpRsyncState.1 (h ▸ hq.below)
    · rintro (h | h)
      · exact not_dataPath_below (Or.inl rfl) h hq
      · exact not_dataPath_below (Or.inr rfl) h hq
    · intro h
      exact hl.rrdpState.1 (h ▸ hq.below)
  · have hf := hs.frame hw5 (c.notifPath name) (fun h => hl.rrdpState.1 (h ▸ List.prefix_append _ _))
    have hf5 : w5.cur.leaf (c.notifPath name) = some (.file (Ext.writeNotif (newNotif s st)) t) := by
      unfold FS.leaf Config.notifPath; rw [h8]
    rw [hf5] at hf
    unfold FS.leaf at hf
    split at hf
    · cases hf
    · exact hf

theorem AtPublish.pubPre {depth : Nat} {c : Config} {base name : Str} {env : Env} {w w1 : World}
    {s : RrdpState} {st : StagedChanges} {n : Notif}
    (h : AtPublish depth c base name env w s st w1 n) (hc : RunConds c base name env w.cur) :
    PubPre c base name s st := ⟨hc.uri, h.sane, h.goodSnap, h.goodDeltas, hc.objects⟩

theorem scheduled_new {c : Config} {base name : Str} {env : Env} {s s1 : RrdpState}
    {st : StagedChanges} {w1 w2 : World} {kept gone : List DeltaState} {new : List DeprecatedFile}
    (hs : Sane c base name s) (h : Absorbed env w1 w2 s st s1 kept gone new)
    {d : DeprecatedFile} (hd : d ∈ new) :
    (∃ x, s.snapshot = some x ∧ d.path = c.pubPath x.relPath) ∨
      ∃ x ∈ gone, d.path = c.pubPath x.relPath := by
  have hm : d.path ∈ new.map (·.path) := List.mem_map.2 ⟨d, hd, rfl⟩
  rw [h.newPaths, List.mem_append] at hm
  rcases hm with hm | hm
  · left
    unfold RrdpState.snapshotPath at hm
    match hsn : s.snapshot with
    | none => rw [hsn] at hm; simp at hm
    | some x =>
      rw [hsn] at hm
      simp only [Option.map_some, Option.toList_some, List.mem_singleton] at hm
      refine ⟨x, rfl, ?_⟩
      rw [hm]
      unfold SourceMappings.path Config.pubPath
      rw [hs.mappings, joinPath_clean (hs.snapshot x hsn).clean]
  · right
    obtain ⟨x, hx, hx'⟩ := List.mem_map.1 hm
    have hg := hs.deltas x (h.split ▸ List.mem_append.2 (Or.inr hx))
    refine ⟨x, hx, ?_⟩
    rw [← hx']
    unfold SourceMappings.path Config.pubPath
    rw [hs.mappings, joinPath_clean hg.clean]

/-- What the cleanup removes may be removed. -/
theorem removable_of {c : Config} {base name : Str} {env : Env} {s s1 : RrdpState}
    {st : StagedChanges} {w1 w2 : World} {kept gone : List DeltaState} {new : List DeprecatedFile}
    (hs : Sane c base name s) (h : Absorbed env w1 w2 s st s1 kept gone new)
    {d : DeprecatedFile} (hd : d ∈ s1.deprecated)
    (hdue : d.since + c.cleanupAfter ≤ env.clock w2.tick) : Removable c env s d.path := by
  rw [h.deprecated, List.mem_append] at hd
  rcases hd with hd | hd
  · exact ⟨d.since, w2.tick, hdue, Or.inl hd⟩
  · obtain ⟨i, _, h1, h2⟩ := h.newSince d hd
    refine ⟨d.since, w2.tick, hdue, Or.inr ⟨?_, i, h1, h2⟩⟩
    rcases scheduled_new hs h hd with h3 | ⟨x, hx, h3⟩
    · exact Or.inl h3
    · exact Or.inr ⟨x, h.split ▸ List.mem_append.2 (Or.inr hx), h3⟩

/-- A file that the state does not know about survives the cleanup. -/
theorem Done.survives {c : Config} {base name : Str} {env : Env} {s : RrdpState}
    {st : StagedChanges} {w w1 w2 w3 w' : World} {s1 s2 : RrdpState} {kept gone : List DeltaState}
    {new : List DeprecatedFile} (h : Done c base name env s st w w1 w2 w3 w' s1 s2 kept gone new)
    {q : Path} (hq : DataPath c name q) (hno : ∀ d ∈ s1.deprecated, d.path ≠ q) :
    w'.cur.leaf q = w1.cur.leaf q := by
  rw [h.data q hq, ← h.same.cur]
  have := (clean_within (s := s1) (c := c) (env := env) h.wf2).frame h.wf2 q ?_
  · rw [h.cleaned] at this; exact this
  · rintro ⟨d, hd, he, _⟩
    exact hno d hd he

/-- What may be scheduled for removal after an update. -/
theorem Done.scheduled {c : Config} {base name : Str} {env : Env} {s : RrdpState}
    {st : StagedChanges} {w w1 w2 w3 w' : World} {s1 s2 : RrdpState} {kept gone : List DeltaState}
    {new : List DeprecatedFile} (h : Done c base name env s st w w1 w2 w3 w' s1 s2 kept gone new)
    (hs : Sane c base name s)
    {d : DeprecatedFile} (hd : d ∈ s1.deprecated) :
    d ∈ s.deprecated ∨ (d ∈ new ∧ ((∃ x, s.snapshot = some x ∧ d.path = c.pubPath x.relPath) ∨
      ∃ x ∈ gone, d.path = c.pubPath x.relPath)) := by
  rw [h.book.deprecated, List.mem_append] at hd
  rcases hd with hd | hd
  · exact Or.inl hd
  · exact Or.inr ⟨hd, scheduled_new hs h.book hd⟩

/-- A file in the data part of the directory survives the publication unless it may go. -/
theorem Done.survives_or {c : Config} {base name : Str} {env : Env} {s : RrdpState}
    {st : StagedChanges} {w w1 w2 w3 w' : World} {s1 s2 : RrdpState} {kept gone : List DeltaState}
    {new : List DeprecatedFile} (h : Done c base name env s st w w1 w2 w3 w' s1 s2 kept gone new)
    (hs : Sane c base name s) {q : Path} (hq : DataPath c name q) :
    w'.cur.leaf q = w1.cur.leaf q ∨ Removable c env s q := by
  by_cases hd : ∃ d ∈ s1.deprecated, d.path = q ∧ d.since + c.cleanupAfter ≤ env.clock w2.tick
  · right
    obtain ⟨d, h1, rfl, h3⟩ := hd
    exact removable_of hs h.book h1 h3
  · left
    rw [h.data q hq, ← h.same.cur]
    have := (clean_within (s := s1) (c := c) (env := env) h.wf2).frame h.wf2 q hd
    rw [h.cleaned] at this; exact this

theorem recorded_of_get {c : Config} {fs : FS} {s : RrdpState} {t : Time}
    (h : fs.get c.rrdpStatePath = some (.file (Ext.encState s) t)) : Recorded c fs s.persisted := by
  refine ⟨Ext.encState s, ?_, Ext.dec_enc s⟩
  unfold FS.read FS.resolve
  rw [h]

theorem persisted_same (s : RrdpState) : s.SameUnfetched s.persisted := by
  refine ⟨rfl, rfl, rfl, rfl, rfl, ?_, ?_⟩
  · intro h
    unfold RrdpState.persisted
    rw [h]; rfl
  · intro v h
    unfold RrdpState.persisted
    rw [h]
    refine ⟨_, rfl, rfl, rfl, by simp, ?_⟩
    intro i e e' h1 h2
    rw [List.getElem?_map, h1] at h2
    cases h2
    exact ⟨rfl, rfl, rfl⟩

theorem Done.describes {c : Config} {base name : Str} {env : Env} {s : RrdpState}
    {st : StagedChanges} {w w1 w2 w3 w' : World} {s1 s2 : RrdpState} {kept gone : List DeltaState}
    {new : List DeprecatedFile} (h : Done c base name env s st w w1 w2 w3 w' s1 s2 kept gone new)
    (hu : NotifUri c base name) (hs : Sane c base name s) :
    Describes base s2 (newNotif s st) := by
  obtain ⟨l, rfl⟩ := clean_state h.cleaned
  refine ⟨⟨st.snapshot, h.book.snapshot, rfl, rfl, rfl, ?_⟩, ?_⟩
  · exact hs.uriOf hu _
  · unfold newNotif RrdpState.held
    dsimp only
    rw [h.book.deltas, h.book.kept_eq]
    refine List.map_congr_left (fun d _ => ?_)
    rw [hs.uriOf hu]

end KSync
