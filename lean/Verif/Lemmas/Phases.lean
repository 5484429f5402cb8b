import Verif.Spec.Run
import Verif.Lemmas.Update
import Verif.Lemmas.Crash

/-!
# The phases of a run

`process` is `prepare` (load, stage, validate, scripts) followed by `publish` (move, book
keeping, clean, rsync, notification, state).
-/

set_option linter.unusedSectionVars false
set_option linter.unusedSimpArgs false
set_option linter.unusedVariables false

namespace KSync

/-! ## Composing facts about one execution -/

/-- Sequencing at one start world. -/
theorem Tr.bindAt {T : World → World → Prop} [Tr T] {m : M α} {f : α → M β} {env : Env}
    {w : World} (h1 : T w (m env w).2)
    (h2 : ∀ a w1, m env w = (.ok a, w1) → T w1 (f a env w1).2) :
    T w ((m >>= f) env w).2 := by
  rcases M.bind_cases m f env w with ⟨e, w1, h3, h4⟩ | ⟨a, w1, h3, h4⟩
  · rw [h4]; rw [h3] at h1; exact h1
  · rw [h4]; rw [h3] at h1; exact Tr.trans h1 (h2 a w1 h3)

/-- `P` holds at every new crash point if it holds at the start. -/
def Keeps (P : FS → Prop) (w w' : World) : Prop :=
  P w.cur → P w'.cur ∧ ∀ f ∈ w'.past, f ∈ w.past ∨ P f

instance (P : FS → Prop) : Tr (Keeps P) where
  refl _ h := ⟨h, fun _ hf => Or.inl hf⟩
  trans {a b c} h h' h0 := by
    obtain ⟨h1, h2⟩ := h h0
    obtain ⟨h3, h4⟩ := h' h1
    refine ⟨h3, fun f hf => ?_⟩
    rcases h4 f hf with h5 | h5
    · exact h2 f h5
    · exact Or.inr h5

theorem Keeps.of_steps {R : FS → FS → Prop} {P : FS → Prop} {w w' : World} (h : Steps R w w')
    (hP : ∀ f f', P f → R f f' → P f') : Keeps P w w' := fun h0 => h.crash hP h0

theorem Keeps.of_same {P : FS → Prop} {w w' : World} (h : Same w w') : Keeps P w w' :=
  fun h0 => ⟨h.1 ▸ h0, fun f hf => Or.inl (h.2 ▸ hf)⟩

theorem Keeps.of_within {E : Eff} {P : FS → Prop} {w w' : World} (h : Within E w w')
    (hP : ∀ f f', P f → Change E.files f f' → P f') : Keeps P w w' := .of_steps h.steps hP

theorem Keeps.start {P : FS → Prop} {fs : FS} {w' : World} (h : Keeps P (World.start fs) w')
    (h0 : P fs) : ∀ f ∈ w'.crashPoints, P f := by
  obtain ⟨h1, h2⟩ := h h0
  intro f hf
  rcases List.mem_cons.1 hf with rfl | hf
  · exact h1
  · rcases h2 f hf with h | h
    · simp [World.start] at h
    · exact h

theorem Within.bindAt {E : Eff} {m : M α} {f : α → M β} {env : Env}
    {w : World} (h1 : Within E w (m env w).2)
    (h2 : ∀ a w1, m env w = (.ok a, w1) → Within E w1 (f a env w1).2) :
    Within E w ((m >>= f) env w).2 := Tr.bindAt h1 h2

theorem Same.cur {w w' : World} (h : Same w w') : w'.cur = w.cur := h.1

/-! ## The two halves -/

variable [Ext]

/-- src/process.rs:9-99. -/
def prepare (depth : Nat) (c : Config) : M (Option (RrdpState × StagedChanges)) := do
  let s ← loadState c
  let staged ← s.updateStaged c
  match staged with
  | none => pure none
  | some st => do
    let s' ← s.preValidate depth c
    scriptGate c
    pure (some (s', st))

/-- Publish if there is something to publish. -/
def publishIf (c : Config) : Option (RrdpState × StagedChanges) → M Unit
  | none => pure ()
  | some (s, st) => publish c s st

theorem process_eq (depth : Nat) (c : Config) :
    process depth c = prepare depth c >>= publishIf c := by
  unfold process prepare
  rw [M.bind_assoc]
  congr 1; funext s
  rw [M.bind_assoc]
  congr 1; funext st
  cases st with
  | none => rfl
  | some st =>
    dsimp only
    rw [M.bind_assoc]
    congr 1; funext s'
    rw [M.bind_assoc]
    congr 1

/-- What a fresh state looks like. -/
theorem create_fresh {c : Config} {base name : Str} (h : NotifUri c base name) :
    RrdpState.create c = .ok (freshState c base name) := by
  unfold RrdpState.create NotificationSource.build SourceMappings.build
  rw [h.parent]
  dsimp only
  have : stripPrefix base c.notificationUri = some name := stripPrefix_some.2 h.eq
  rw [this]
  rfl

theorem loadState_inUse {c : Config} {base name : Str} (hn : NotifUri c base name) {env : Env}
    {w w' : World} {s : RrdpState} (h : loadState c env w = (.ok s, w')) :
    InUse c base name w.cur s := by
  obtain ⟨_, _, _, _, h1⟩ := loadState_ok h
  rcases h1 with ⟨_, b, h2, h3⟩ | ⟨h2, h3⟩
  · exact Or.inl ⟨b, h2, h3⟩
  · rw [create_fresh hn] at h3
    cases h3
    exact Or.inr ⟨h2, rfl⟩

theorem freshState_sane {c : Config} {base name : Str} : Sane c base name (freshState c base name) :=
  ⟨rfl, rfl, rfl, by simp [freshState], by simp [freshState], by simp [freshState]⟩

theorem InUse.sane {c : Config} {base name : Str} {fs : FS} {s : RrdpState}
    (h : InUse c base name fs s) (hs : SaneState c base name fs) : Sane c base name s := by
  rcases h with h | ⟨_, rfl⟩
  · exact hs s h
  · exact freshState_sane

/-! ## Paths -/

theorem CleanRel.below {rel : Str} (h : CleanRel rel) : StaysBelow rel := ⟨h.1, h.2⟩

theorem StaysBelow.join {rel : Str} (h : StaysBelow rel) (p : Path) :
    joinPath p rel = p ++ comps rel := by
  unfold joinPath
  rw [if_neg h.relative, foldl_pushComp h.noParent]

theorem StaysBelow.prefix {rel : Str} (h : StaysBelow rel) (p : Path) :
    p <+: joinPath p rel := by
  rw [h.join]; exact List.prefix_append _ _

theorem relative_ok {m : SourceMappings} {uri rel : Str} :
    m.relative uri = .ok rel ↔ uri = m.baseUri ++ rel := by
  unfold SourceMappings.relative
  match h : stripPrefix m.baseUri uri with
  | none =>
    simp only [reduceCtorEq, false_iff]
    exact stripPrefix_none.1 h rel
  | some r =>
    rw [stripPrefix_some] at h
    simp only [Except.ok.injEq]
    constructor
    · rintro rfl; exact h
    · intro h'; rw [h] at h'; exact List.append_cancel_left h'

/-- Limiting the deltas leaves a sub-list of the references. -/
theorem limit_refs {max : Option Nat} {n : Notif} {ds : List DeltaInfo}
    (h : sortVerify max n.deltas = .ok ds) : ∀ d ∈ ds, d ∈ n.deltas := by
  obtain ⟨older, hp, _⟩ := (sortVerify_limit h).split
  intro d hd
  exact hp.mem_iff.1 (List.mem_append.2 (Or.inr hd))

theorem refs_limited {max : Option Nat} {n : Notif} {ds : List DeltaInfo}
    (h : sortVerify max n.deltas = .ok ds) :
    ∀ r ∈ ({ n with deltas := ds } : Notif).refs, r ∈ n.refs := by
  intro r hr
  unfold Notif.refs at hr ⊢
  rcases List.mem_cons.1 hr with rfl | hr
  · simp
  · rw [List.mem_map] at hr
    obtain ⟨d, hd, rfl⟩ := hr
    exact List.mem_cons_of_mem _ (List.mem_map.2 ⟨d, limit_refs h d hd, rfl⟩)

theorem GoodNotif.limited {base name : Str} {max : Option Nat} {n : Notif} {ds : List DeltaInfo}
    (hg : GoodNotif base name n) (h : sortVerify max n.deltas = .ok ds) :
    GoodNotif base name { n with deltas := ds } :=
  fun r hr => hg r (refs_limited h r hr)

/-! ## Preparation changes the staging directory only -/

/-- What the preparation may do. -/
def prepEff (c : Config) : Eff :=
  ⟨fun q => c.stagingDir <+: q, fun _ => True, fun p => p ∈ c.scripts, fun _ => False,
    fun _ => False, fun _ => False⟩

theorem stageBound {c : Config} {base name : Str} {s : RrdpState} {n : Notif}
    (hu : NotifUri c base name) (hs : Sane c base name s) (hg : GoodNotif base name n) :
    StageBound (prepEff c) s c n := by
  have key : ∀ r ∈ n.refs, ∀ rel, s.mappings.relative r.1 = .ok rel →
      c.stagingDir <+: c.stagingPath rel := by
    intro r hr rel h
    rw [relative_ok, hs.mappings] at h
    exact (hg r hr rel h).clean.below.prefix _
  refine ⟨?_, fun _ _ => trivial, ?_, fun _ _ _ _ => trivial, ?_⟩
  · show c.stagingDir <+: joinPath c.stagingDir s.source.name
    rw [hs.fileName, hu.joinName]
    exact List.prefix_append _ _
  · exact key (n.snapUri, n.snapHash) (by simp [Notif.refs])
  · intro d hd
    exact key (d.uri, d.hash) (by
      unfold Notif.refs
      exact List.mem_cons_of_mem _ (List.mem_map.2 ⟨d, hd, rfl⟩))

theorem askNotif_le (c : Config) (etag : Option Str) : (askNotif c etag).Le (prepEff c) :=
  ⟨fun _ h => h.elim, fun _ _ => trivial, fun _ h => h.elim, fun _ h => h.elim, fun _ h => h.elim,
    fun _ h => h.elim⟩

theorem updateStaged_within {c : Config} {base name : Str} {s : RrdpState} {env : Env}
    {w : World} (hu : NotifUri c base name) (hs : Sane c base name s)
    (hg : GoodSource c base name env w.cur) :
    Within (prepEff c) w (s.updateStaged c env w).2 := by
  rcases updateStaged_cases s c env w with ⟨e, w1, h1, h2, h3⟩ | ⟨w1, h1, h2, h3, _⟩ |
    ⟨n, etag, ds, reset, w1, h1, h2, h3, h4, h5, h6⟩
  · rw [h1]; exact h3.mono (askNotif_le _ _)
  · rw [h1]; exact h3.mono (askNotif_le _ _)
  · rw [h6]
    exact Tr.trans (h5.mono (askNotif_le _ _))
      (stage_in (stageBound hu hs ((hg _ _ h1).limited h2)) env w1)

theorem prepare_within {depth : Nat} {c : Config} {base name : Str} {env : Env}
    {w : World} (hu : NotifUri c base name) (hs : SaneState c base name w.cur)
    (hg : GoodSource c base name env w.cur) :
    Within (prepEff c) w (prepare depth c env w).2 := by
  unfold prepare
  refine Within.bindAt (loadState_in c env w) (fun s w1 h1 => ?_)
  have hc : w1.cur = w.cur := (loadState_ok h1).1.1
  have hsane := (loadState_inUse hu h1).sane hs
  refine Within.bindAt (updateStaged_within hu hsane (hc ▸ hg)) (fun st w2 h2 => ?_)
  cases st with
  | none => exact Tr.refl _
  | some st =>
    dsimp only
    refine Within.bindAt (preValidate_in (E := prepEff c) (fun _ => trivial) depth s c env w2)
      (fun s' w3 h3 => ?_)
    exact Within.bindAt (scriptGate_in (E := prepEff c) (fun p hp => hp) env w3)
      (fun _ w4 _ => Tr.refl _)

/-! ## What a successful preparation hands over -/

/-- What staging records about a notification. -/
structure StagedAs (base : Str) (s : RrdpState) (n : Notif) (st : StagedChanges) : Prop where
  snapSession : st.snapshot.session = n.session
  snapSerial : st.snapshot.serial = n.serial
  snapHash : st.snapshot.hash = n.snapHash
  snapUri : n.snapUri = base ++ st.snapshot.relPath
  deltas : (st.deltas.map fun d => (⟨d.serial, base ++ d.relPath, d.hash⟩ : DeltaInfo)) =
    n.deltas.filter (fun d => s.deltaIsNew st.sessionReset d.serial)
  cutoff : st.cutoff = cutoffOf n

theorem snapshotStage_ok {s : RrdpState} {n : Notif} {f : Fetcher} {c : Config} {env : Env}
    {w w' : World} {x : SnapshotState} (h : s.snapshotStage n f c env w = (.ok x, w')) :
    ∃ rel t w1, n.snapUri = s.mappings.baseUri ++ rel ∧
      x = ⟨n.session, n.serial, n.snapHash, rel, t⟩ ∧
      f.retrieve n.snapUri n.snapHash (c.stagingPath rel) env w = (.ok (), w1) ∧ Same w1 w' := by
  unfold RrdpState.snapshotStage at h
  obtain ⟨rel, w1, h1, h2⟩ := M.bind_ok.1 h
  rw [M.lift_ok_iff, relative_ok] at h1
  obtain ⟨h1, rfl⟩ := h1
  obtain ⟨_, w2, h3, h4⟩ := M.bind_ok.1 h2
  rw [now_bind, M.pure_ok] at h4
  obtain ⟨rfl, rfl⟩ := h4
  exact ⟨rel, _, w2, h1, rfl, h3, ⟨rfl, rfl⟩⟩

theorem deltasStage_nil {s : RrdpState} {reset : Bool} {f : Fetcher} {c : Config} :
    s.deltasStage reset f c [] = pure [] := rfl

theorem deltasStage_cons_ok {s : RrdpState} {reset : Bool} {f : Fetcher} {c : Config}
    {d : DeltaInfo} {ds : List DeltaInfo} {env : Env} {w w' : World} {l : List DeltaState}
    (h : s.deltasStage reset f c (d :: ds) env w = (.ok l, w')) :
    (s.deltaIsNew reset d.serial = false ∧ s.deltasStage reset f c ds env w = (.ok l, w')) ∨
    (s.deltaIsNew reset d.serial = true ∧ ∃ rel t w1 w2 rest,
      d.uri = s.mappings.baseUri ++ rel ∧ l = ⟨t, d.serial, d.hash, rel⟩ :: rest ∧
      f.retrieve d.uri d.hash (c.stagingPath rel) env w = (.ok (), w1) ∧ Same w1 w2 ∧
      s.deltasStage reset f c ds env w2 = (.ok rest, w')) := by
  unfold RrdpState.deltasStage at h
  by_cases hn : s.deltaIsNew reset d.serial = true
  · rw [if_pos hn] at h
    obtain ⟨rel, w1, h1, h2⟩ := M.bind_ok.1 h
    rw [M.lift_ok_iff, relative_ok] at h1
    obtain ⟨h1, rfl⟩ := h1
    obtain ⟨_, w2, h3, h4⟩ := M.bind_ok.1 h2
    rw [now_bind] at h4
    obtain ⟨rest, w3, h5, h6⟩ := M.bind_ok.1 h4
    rw [M.pure_ok] at h6
    obtain ⟨rfl, rfl⟩ := h6
    exact Or.inr ⟨hn, rel, _, w2, { w2 with tick := w2.tick + 1 }, rest, h1, rfl, h3, ⟨rfl, rfl⟩, h5⟩
  · rw [if_neg hn] at h
    exact Or.inl ⟨by simpa using hn, h⟩

theorem deltasStage_list {s : RrdpState} {reset : Bool} {f : Fetcher} {c : Config} {env : Env}
    {ds : List DeltaInfo} {l : List DeltaState} {w w' : World}
    (h : s.deltasStage reset f c ds env w = (.ok l, w')) :
    (l.map fun d => (⟨d.serial, s.mappings.baseUri ++ d.relPath, d.hash⟩ : DeltaInfo)) =
      ds.filter (fun d => s.deltaIsNew reset d.serial) := by
  induction ds generalizing l w with
  | nil => rw [deltasStage_nil, M.pure_ok] at h; rw [← h.1]; rfl
  | cons d ds ih =>
    rcases deltasStage_cons_ok h with ⟨h1, h2⟩ | ⟨h1, rel, t, w1, w2, rest, h2, rfl, _, _, h3⟩
    · rw [List.filter_cons_of_neg (by simp [h1])]; exact ih h2
    · rw [List.filter_cons_of_pos (by simpa using h1), List.map_cons, ih h3, ← h2]

theorem stage_ok {s : RrdpState} {c : Config} {n : Notif} {etag : Option Str} {reset : Bool}
    {env : Env} {w w' : World} {r : Option StagedChanges}
    (h : s.stage c n etag reset env w = (.ok r, w')) :
    ∃ st w1 w2, r = some st ∧ StagedAs s.mappings.baseUri s n st ∧ st.sessionReset = reset ∧
      st.etag = etag ∧
      writeBuf (c.stagingPath s.source.name) (Ext.writeNotif n) env w = (.ok (), w1) ∧
      s.snapshotStage n c.fetcher c env w1 = (.ok st.snapshot, w2) ∧
      s.deltasStage reset c.fetcher c n.deltas env w2 = (.ok st.deltas, w') := by
  unfold RrdpState.stage at h
  obtain ⟨_, w1, h1, h2⟩ := M.bind_ok.1 h
  obtain ⟨x, w2, h3, h4⟩ := M.bind_ok.1 h2
  obtain ⟨l, w3, h5, h6⟩ := M.bind_ok.1 h4
  rw [M.pure_ok] at h6
  obtain ⟨rfl, rfl⟩ := h6
  refine ⟨_, w1, w2, rfl, ?_, rfl, rfl, h1, h3, h5⟩
  obtain ⟨rel, t, _, h7, rfl, _, _⟩ := snapshotStage_ok h3
  exact ⟨rfl, rfl, rfl, h7, deltasStage_list h5, rfl⟩

theorem updateStaged_some {s : RrdpState} {c : Config} {env : Env} {w w' : World}
    {st : StagedChanges} (h : s.updateStaged c env w = (.ok (some st), w')) :
    ∃ n etag ds w1, Offers c env w.cur s.source.etag n ∧
      sortVerify c.rrdpMaxDeltas n.deltas = .ok ds ∧
      decideUpdate s.snapshot { n with deltas := ds } = .proceed st.sessionReset ∧
      StagedAs s.mappings.baseUri s { n with deltas := ds } st ∧ Same w w1 ∧
      s.stage c { n with deltas := ds } etag st.sessionReset env w1 = (.ok (some st), w') := by
  rcases updateStaged_cases s c env w with ⟨e, w1, h1, h2, h3⟩ | ⟨w1, h1, h2, h3, _⟩ |
    ⟨n, etag, ds, reset, w1, h1, h2, h3, h4, h5, h6⟩
  · rw [h1] at h; cases h
  · rw [h1] at h; cases h
  · rw [h6] at h
    obtain ⟨st', _, _, h7, h8, h9, _⟩ := stage_ok h
    cases h7
    subst h9
    exact ⟨n, etag, ds, w1, h1, h2, h3, h8, h4, h⟩

theorem preValidate_ok {depth : Nat} {s s' : RrdpState} {c : Config} {env : Env} {w w' : World}
    (h : s.preValidate depth c env w = (.ok s', w')) :
    ∃ v, s' = { s with validator := v } := by
  unfold RrdpState.preValidate at h
  obtain ⟨v, w1, h1, h2⟩ := M.bind_ok.1 h
  cases v with
  | none => rw [M.pure_ok] at h2; exact ⟨none, h2.1.symm⟩
  | some v =>
    dsimp only at h2
    obtain ⟨⟨rep, v'⟩, w2, h3, h4⟩ := M.bind_ok.1 h2
    obtain ⟨_, w3, h5, h6⟩ := M.bind_ok.1 h4
    rw [M.pure_ok] at h6
    exact ⟨some v', h6.1.symm⟩

/-- Everything known when the preparation went well. -/
structure Prepared (depth : Nat) (c : Config) (base name : Str) (env : Env) (w w' : World)
    (s : RrdpState) (st : StagedChanges) (n : Notif) : Prop where
  /-- the state the run started with; only the validator differs -/
  before : ∃ s0, InUse c base name w.cur s0 ∧ (∃ v, s = { s0 with validator := v }) ∧
    ∃ n0, Offers c env w.cur s0.source.etag n0 ∧ ∃ ds,
      sortVerify c.rrdpMaxDeltas n0.deltas = .ok ds ∧ n = { n0 with deltas := ds }
  decided : decideUpdate s.snapshot n = .proceed st.sessionReset
  staged : StagedAs s.mappings.baseUri s n st

theorem prepare_ok {depth : Nat} {c : Config} {base name : Str} {env : Env} {w w' : World}
    {s : RrdpState} {st : StagedChanges} (hu : NotifUri c base name)
    (h : prepare depth c env w = (.ok (some (s, st)), w')) :
    ∃ n, Prepared depth c base name env w w' s st n := by
  unfold prepare at h
  obtain ⟨s0, w1, h1, h2⟩ := M.bind_ok.1 h
  obtain ⟨staged, w2, h3, h4⟩ := M.bind_ok.1 h2
  cases staged with
  | none => dsimp only at h4; rw [M.pure_ok] at h4; cases h4.1
  | some st' =>
    dsimp only at h4
    obtain ⟨s', w3, h5, h6⟩ := M.bind_ok.1 h4
    obtain ⟨_, w4, h7, h8⟩ := M.bind_ok.1 h6
    rw [M.pure_ok] at h8
    obtain ⟨h8, rfl⟩ := h8
    cases h8
    have hc : w1.cur = w.cur := (loadState_ok h1).1.1
    obtain ⟨n, etag, ds, w5, h9, h10, h11, h12, h13, h14⟩ := updateStaged_some h3
    obtain ⟨v, rfl⟩ := preValidate_ok h5
    rw [hc] at h9
    exact ⟨_, ⟨⟨s0, loadState_inUse hu h1, ⟨v, rfl⟩, n, h9, ds, h10, rfl⟩, h11,
      ⟨h12.1, h12.2, h12.3, h12.4, h12.5, h12.6⟩⟩⟩

theorem Sane.withValidator {c : Config} {base name : Str} {s : RrdpState}
    (h : Sane c base name s) (v : Option Validator) :
    Sane c base name { s with validator := v } := ⟨h.1, h.2, h.3, h.4, h.5, h.6⟩

theorem Prepared.sane {depth : Nat} {c : Config} {base name : Str} {env : Env} {w w' : World}
    {s : RrdpState} {st : StagedChanges} {n : Notif}
    (h : Prepared depth c base name env w w' s st n) (hs : SaneState c base name w.cur) :
    Sane c base name s := by
  obtain ⟨s0, h1, ⟨v, rfl⟩, _⟩ := h.before
  exact (h1.sane hs).withValidator v

theorem Prepared.good {depth : Nat} {c : Config} {base name : Str} {env : Env} {w w' : World}
    {s : RrdpState} {st : StagedChanges} {n : Notif}
    (h : Prepared depth c base name env w w' s st n) (hg : GoodSource c base name env w.cur) :
    GoodNotif base name n := by
  obtain ⟨s0, h1, _, n0, h2, ds, h3, rfl⟩ := h.before
  exact (hg _ _ h2).limited h3

/-- The paths that are staged and moved are good. -/
theorem StagedAs.good {base name : Str} {s : RrdpState} {n : Notif} {st : StagedChanges}
    (h : StagedAs base s n st) (hg : GoodNotif base name n) :
    GoodRel name st.snapshot.relPath ∧ ∀ d ∈ st.deltas, GoodRel name d.relPath := by
  refine ⟨hg (n.snapUri, n.snapHash) (by simp [Notif.refs]) _ h.snapUri, fun d hd => ?_⟩
  have hm : (⟨d.serial, base ++ d.relPath, d.hash⟩ : DeltaInfo) ∈
      st.deltas.map fun d => (⟨d.serial, base ++ d.relPath, d.hash⟩ : DeltaInfo) :=
    List.mem_map.2 ⟨d, hd, rfl⟩
  rw [h.deltas] at hm
  have hm' := (List.mem_filter.1 hm).1
  exact hg (base ++ d.relPath, d.hash) (by
    unfold Notif.refs
    exact List.mem_cons_of_mem _ (List.mem_map.2 ⟨_, hm', rfl⟩)) _ rfl

end KSync
