import Verif.Lemmas.MoveCrash
import Verif.Spec.History

/-! # What holds throughout the life of an installation -/

set_option linter.unusedSectionVars false
set_option linter.unusedVariables false

namespace KSync

variable [Ext]

theorem pubPath_inj {c : Config} {a b : Str} (h : c.pubPath a = c.pubPath b) : comps a = comps b :=
  List.append_cancel_left h

/-- The delta is of the past, as seen from a state with snapshot `x` and deltas `ds`: the source has given
it up, or there is a later one. -/
def GivenUp (p : Progress) (x : SnapshotState) (ds : List DeltaState) (r : FileRole) : Prop :=
  r.serial < p.low ∨ (r.session = x.session ∧ ∃ d ∈ ds, r.serial < d.serial)

/-- The file is of the past, as seen from a state with snapshot `x` and deltas `ds`. -/
def Past (life : SourceLife) (p : Progress) (x : SnapshotState) (ds : List DeltaState)
    (r : FileRole) : Prop :=
  (r.snapshot = true ∧ (life.age r.session < life.age x.session ∨
    (r.session = x.session ∧ r.serial ≤ x.serial))) ∨
  (r.snapshot = false ∧ (life.age r.session < p.age ∨
    (life.age r.session = p.age ∧ GivenUp p x ds r)))

/-- What is known about every recorded state. -/
structure Proper (life : SourceLife) (c : Config) (base name : Str) (p : Progress)
    (s : RrdpState) : Prop where
  sane : Sane c base name s
  order : Descending (s.held base)
  etag : s.source.etag = none
  snapshot : ∀ x, s.snapshot = some x →
    life.role (comps x.relPath) = ⟨true, x.session, x.serial, x.hash⟩ ∧
    (life.age x.session < p.age ∨ (life.age x.session = p.age ∧ x.serial ≤ p.serial))
  deltas : ∀ d ∈ s.deltas, ∃ x, s.snapshot = some x ∧
    life.role (comps d.relPath) = ⟨false, x.session, d.serial, d.hash⟩
  gone : ∀ e ∈ s.deprecated, ∃ rel x, e.path = c.pubPath rel ∧ s.snapshot = some x ∧
    Past life p x s.deltas (life.role (comps rel))
  apart : ∀ e ∈ s.deprecated, ¬ s.Refers c e.path

theorem Past.mono {life : SourceLife} {p p' : Progress} (hp : p.le p') {x : SnapshotState}
    {ds : List DeltaState} {r : FileRole} (h : Past life p x ds r) : Past life p' x ds r := by
  rcases h with h | ⟨h1, h2⟩
  · exact Or.inl h
  · refine Or.inr ⟨h1, ?_⟩
    rcases h2 with h2 | ⟨h2, h3⟩
    · left
      rcases hp with hp | ⟨hp1, hp2, hp3⟩ <;> omega
    · rcases hp with hp | ⟨hp1, hp2, hp3⟩
      · left; omega
      · exact Or.inr ⟨h2.trans hp1, h3.imp (fun h => Nat.lt_of_lt_of_le h hp3) id⟩

theorem Proper.mono {life : SourceLife} {c : Config} {base name : Str} {p p' : Progress}
    (hp : p.le p') {s : RrdpState} (h : Proper life c base name p s) :
    Proper life c base name p' s := by
  refine { h with snapshot := fun x hx => ⟨(h.snapshot x hx).1, ?_⟩, gone := fun e he => ?_ }
  · have := (h.snapshot x hx).2
    rcases hp with hp | ⟨hp1, hp2, hp3⟩ <;> omega
  · obtain ⟨rel, x, h1, h2, h3⟩ := h.gone e he
    exact ⟨rel, x, h1, h2, h3.mono hp⟩

theorem freshState_proper (life : SourceLife) {c : Config} {base name : Str} (p : Progress) :
    Proper life c base name p (freshState c base name) :=
  ⟨freshState_sane, freshState_ordered, rfl, (fun x hx => by cases hx), (fun d hd => by cases hd),
    (fun e he => by cases he), (fun e he => by cases he)⟩

theorem Proper.withValidator {life : SourceLife} {c : Config} {base name : Str} {p : Progress}
    {s : RrdpState} (h : Proper life c base name p s) (v : Option Validator) :
    Proper life c base name p { s with validator := v } :=
  ⟨h.sane.withValidator v, h.order, h.etag, h.snapshot, h.deltas, h.gone, h.apart⟩

theorem Proper.persisted {life : SourceLife} {c : Config} {base name : Str} {p : Progress}
    {s : RrdpState} (h : Proper life c base name p s) : Proper life c base name p s.persisted :=
  ⟨h.sane.persisted, h.order, h.etag, h.snapshot, h.deltas, h.gone, h.apart⟩

theorem Limited.mem {c : Config} {n n' : Notif} (h : Limited c n n') {d : DeltaInfo}
    (hd : d ∈ n'.deltas) : d ∈ n.deltas := by
  obtain ⟨ds, ⟨⟨older, hp, _⟩, _, _⟩, rfl⟩ := h
  exact hp.subset (List.mem_append_right _ hd)

theorem Limited.session {c : Config} {n n' : Notif} (h : Limited c n n') :
    n'.session = n.session := by
  obtain ⟨ds, _, rfl⟩ := h; rfl

theorem Limited.serial {c : Config} {n n' : Notif} (h : Limited c n n') :
    n'.serial = n.serial := by
  obtain ⟨ds, _, rfl⟩ := h; rfl

theorem SourceLife.Lists.limited {life : SourceLife} {c : Config} {base : Str} {n n' : Notif}
    (h : life.Lists base n) (hl : Limited c n n') : life.Lists base n' := by
  have hm := fun d => hl.mem (d := d)
  obtain ⟨ds, _, rfl⟩ := hl
  exact ⟨h.snapshot, fun d hd => h.deltas d (hm d hd)⟩

theorem SourceLife.Lists.oneHash {life : SourceLife} {base : Str} {n : Notif}
    (h : life.Lists base n) : OneHashPerPath base n := by
  have key : ∀ r ∈ n.refs, ∀ rel, r.1 = base ++ rel → (life.role (comps rel)).hash = r.2 := by
    intro r hr rel hrel
    rcases List.mem_cons.1 hr with rfl | hr
    · rw [h.snapshot rel hrel]
    · obtain ⟨d, hd, rfl⟩ := List.mem_map.1 hr
      rw [h.deltas d hd rel hrel]
  intro r hr r' hr' rel rel' h1 h2 h3
  rw [← key r hr rel h1, ← key r' hr' rel' h2, h3]

theorem Limited.nil {c : Config} {n n' : Notif} (h : Limited c n n') (hm : c.rrdpMaxDeltas ≠ some 0)
    (h0 : n'.deltas = []) : n.deltas = [] := by
  obtain ⟨ds, h1, rfl⟩ := h
  have h0 : ds = [] := h0
  have := h1.length
  rw [h0] at this
  match hk : c.rrdpMaxDeltas with
  | none =>
    rw [hk] at this
    exact List.eq_nil_of_length_eq_zero this.symm
  | some 0 => exact absurd hk hm
  | some (k + 1) =>
    rw [hk] at this
    refine List.eq_nil_of_length_eq_zero ?_
    have this : 0 = min (k + 1) n.deltas.length := this
    omega

/-- A publication that is about to happen. -/
structure Stepping (life : SourceLife) (c : Config) (base name : Str) (p p' : Progress)
    (s : RrdpState) (n0 n : Notif) (st : StagedChanges) : Prop where
  proper : Proper life c base name p s
  staged : StagedAs base s n st
  limited : Limited c n0 n
  asc : n.deltas.Pairwise (fun a b => a.serial < b.serial)
  reset : st.sessionReset = false ↔ SameSession s n
  new : NewVersion s n
  lists : life.Lists base n
  notBefore : life.NotBefore p n0
  notAfter : life.NotAfter p' n0
  later : p.le p'
  limit : c.rrdpMaxDeltas = some 0 → s.deltas = []

namespace Stepping

variable {life : SourceLife} {c : Config} {base name : Str} {p p' : Progress} {s : RrdpState}
  {n0 n : Notif} {st : StagedChanges}

theorem roleSnap (h : Stepping life c base name p p' s n0 n st) :
    life.role (comps st.snapshot.relPath) = ⟨true, n.session, n.serial, st.snapshot.hash⟩ := by
  rw [h.lists.snapshot _ h.staged.snapUri, h.staged.snapHash]

theorem delta (h : Stepping life c base name p p' s n0 n st) {d : DeltaState} (hd : d ∈ st.deltas) :
    (∃ x ∈ n.deltas, x.serial = d.serial) ∧ NewDelta s n d.serial ∧
    life.role (comps d.relPath) = ⟨false, n.session, d.serial, d.hash⟩ := by
  have h1 : (⟨d.serial, base ++ d.relPath, d.hash⟩ : DeltaInfo) ∈
      n.deltas.filter (fun d => s.deltaIsNew st.sessionReset d.serial) := by
    rw [← h.staged.deltas]
    exact List.mem_map.2 ⟨d, hd, rfl⟩
  obtain ⟨h2, h3⟩ := List.mem_filter.1 h1
  exact ⟨⟨_, h2, rfl⟩, (deltaIsNew_iff h.reset h.proper.order).1 h3, h.lists.deltas _ h2 _ rfl⟩

/-- The new version is later than the one held. -/
theorem later_version (h : Stepping life c base name p p' s n0 n st) {x : SnapshotState}
    (hx : s.snapshot = some x) :
    life.age x.session < life.age n.session ∨ (x.session = n.session ∧ x.serial < n.serial) := by
  have h1 := h.new x hx
  have h2 := (h.proper.snapshot x hx).2
  have h3 := h.notBefore
  unfold SourceLife.NotBefore at h3
  rw [← h.limited.session, ← h.limited.serial] at h3
  rcases h1 with h1 | h1
  · have : life.age x.session ≠ life.age n.session := fun he => h1 (life.distinct _ _ he)
    left
    rcases h3 with h3 | ⟨h3, _⟩ <;> omega
  · by_cases he : x.session = n.session
    · exact Or.inr ⟨he, h1⟩
    · have : life.age x.session ≠ life.age n.session := fun he' => he (life.distinct _ _ he')
      left
      rcases h3 with h3 | ⟨h3, _⟩ <;> omega

/-- The new version is within bounds. -/
theorem bounded (h : Stepping life c base name p p' s n0 n st) :
    life.age n.session < p'.age ∨ (life.age n.session = p'.age ∧ n.serial ≤ p'.serial) := by
  have := h.notAfter
  unfold SourceLife.NotAfter at this
  rw [← h.limited.session, ← h.limited.serial] at this
  rcases this with h | ⟨h1, h2, _⟩
  · exact Or.inl h
  · exact Or.inr ⟨h1, h2⟩

/-- The new deltas are not among those given up. -/
theorem delta_low (h : Stepping life c base name p p' s n0 n st) {d : DeltaState}
    (hd : d ∈ st.deltas) :
    p.age < life.age n.session ∨ (p.age = life.age n.session ∧ p.low ≤ d.serial) := by
  obtain ⟨⟨x, h1, h2⟩, _, _⟩ := h.delta hd
  have h3 := h.notBefore
  unfold SourceLife.NotBefore at h3
  rw [← h.limited.session] at h3
  rcases h3 with h3 | ⟨h3, _, h4⟩
  · exact Or.inl h3
  · exact Or.inr ⟨h3, by rw [← h2]; exact h4 x (h.limited.mem h1)⟩

/-- What is staged is neither in use nor to be removed. -/
theorem fresh (h : Stepping life c base name p p' s n0 n st) :
    ∀ r ∈ st.refs, ¬ s.Refers c (c.pubPath r.1) ∧ ∀ e ∈ s.deprecated, e.path ≠ c.pubPath r.1 := by
  intro r hr
  have hsnap : ∀ x, s.snapshot = some x → ∀ rel, life.role (comps rel) =
      ⟨true, x.session, x.serial, x.hash⟩ →
      ¬ (life.role (comps rel) = ⟨true, n.session, n.serial, st.snapshot.hash⟩) := by
    intro x hx rel h1 h2
    rw [h1] at h2
    injection h2 with _ h3 h4 _
    rcases h.later_version hx with h5 | ⟨_, h5⟩
    · rw [h3] at h5; omega
    · omega
  rcases List.mem_cons.1 hr with rfl | hr
  · have hrole := h.roleSnap
    refine ⟨?_, fun e he heq => ?_⟩
    · rintro (⟨x, hx, he⟩ | ⟨d, hd, he⟩)
      · have hc := pubPath_inj he
        rw [hc] at hrole
        exact hsnap x hx _ (h.proper.snapshot x hx).1 hrole
      · have hc := pubPath_inj he
        obtain ⟨x, _, h2⟩ := h.proper.deltas d hd
        rw [hc, h2] at hrole
        cases hrole
    · obtain ⟨rel, x, h1, h2, h3⟩ := h.proper.gone e he
      have hc := pubPath_inj (h1.symm.trans heq)
      rw [hc] at h3
      rw [hrole] at h3
      rcases h3 with ⟨_, h3⟩ | ⟨h3, _⟩
      · dsimp only at h3
        rcases h.later_version h2 with h5 | ⟨h5, h6⟩
        · rcases h3 with h3 | ⟨h3, _⟩
          · omega
          · rw [h3] at h5; omega
        · rcases h3 with h3 | ⟨_, h3⟩
          · rw [h5] at h3; omega
          · omega
      · cases h3
  · obtain ⟨d, hd, rfl⟩ := List.mem_map.1 hr
    obtain ⟨_, hnew, hrole⟩ := h.delta hd
    dsimp only
    refine ⟨?_, fun e he heq => ?_⟩
    · rintro (⟨x, hx, he⟩ | ⟨d', hd', he⟩)
      · have hc := pubPath_inj he
        rw [hc, (h.proper.snapshot x hx).1] at hrole
        cases hrole
      · have hc := pubPath_inj he
        obtain ⟨x, h1, h2⟩ := h.proper.deltas d' hd'
        rw [hc, h2] at hrole
        injection hrole with _ h3 h4 _
        rcases hnew with h5 | h5
        · refine h5 (fun y hy => ?_)
          rw [h1] at hy; cases hy
          exact h3
        · have := h5 d' hd'
          omega
    · obtain ⟨rel, x, h1, h2, h3⟩ := h.proper.gone e he
      have hc := pubPath_inj (h1.symm.trans heq)
      rw [hc, hrole] at h3
      rcases h3 with ⟨h3, _⟩ | ⟨_, h3⟩
      · cases h3
      · unfold GivenUp at h3
        dsimp only at h3
        rcases h.delta_low hd with h5 | ⟨h5, h6⟩
        · omega
        · rcases h3 with h3 | ⟨_, h3 | ⟨h3, d', h7, h8⟩⟩
          · omega
          · omega
          · have hsame : SameSession s n := fun y hy => by
              rw [h2] at hy; cases hy
              exact h3.symm
            rcases hnew with h9 | h9
            · exact h9 hsame
            · have := h9 d' h7
              omega

/-- All roles of what is staged. -/
theorem roleHash (h : Stepping life c base name p p' s n0 n st) :
    ∀ r ∈ st.refs, (life.role (comps r.1)).hash = r.2 := by
  intro r hr
  rcases List.mem_cons.1 hr with rfl | hr
  · rw [h.roleSnap]
  · obtain ⟨d, hd, rfl⟩ := List.mem_map.1 hr
    rw [(h.delta hd).2.2]

theorem gone_below (h : Stepping life c base name p p' s n0 n st) {env : Env} {w1 w2 : World}
    {s1 : RrdpState} {kept gone : List DeltaState} {new : List DeprecatedFile}
    (hb : Absorbed env w1 w2 s st s1 kept gone new) {d : DeltaState} (hd : d ∈ gone)
    (hr : st.sessionReset = false) : ¬ NotOlder n d.serial := by
  rw [notOlder_iff h.asc, ← h.staged.cutoff]
  have ho := h.proper.order
  unfold Descending RrdpState.held at ho
  rw [List.pairwise_map, hb.split, List.pairwise_append] at ho
  cases gone with
  | nil => cases hd
  | cons g gs =>
    have h1 := hb.goneSerial hr g rfl
    rcases List.mem_cons.1 hd with rfl | hd
    · omega
    · have := (List.pairwise_cons.1 ho.2.1).1 d hd
      dsimp only at this
      omega

/-- Kept and given up deltas are different. -/
theorem kept_gone (h : Stepping life c base name p p' s n0 n st) {env : Env} {w1 w2 : World}
    {s1 : RrdpState} {kept gone : List DeltaState} {new : List DeprecatedFile}
    (hb : Absorbed env w1 w2 s st s1 kept gone new) {d e : DeltaState} (hd : d ∈ kept) (he : e ∈ gone) :
    e.serial < d.serial := by
  have ho := h.proper.order
  unfold Descending RrdpState.held at ho
  rw [List.pairwise_map, hb.split, List.pairwise_append] at ho
  exact ho.2.2 d hd e he

/-- A delta given up is followed by another one, unless the source has given it up, too. -/
theorem gone_given_up (h : Stepping life c base name p p' s n0 n st) {env : Env} {w1 w2 : World}
    {s1 : RrdpState} {kept gone : List DeltaState} {new : List DeprecatedFile}
    (hb : Absorbed env w1 w2 s st s1 kept gone new) {d : DeltaState} (hd : d ∈ gone)
    (hr : st.sessionReset = false) :
    (∃ d' ∈ mergeDeltas kept st.deltas, d.serial < d'.serial) ∨ ¬ NotOlder n0 d.serial := by
  have hno := h.gone_below hb hd hr
  cases hn : n.deltas with
  | nil =>
    right
    have h0 := h.limited.nil (fun h0 => by
      have : d ∈ s.deltas := by rw [hb.split]; exact List.mem_append.2 (Or.inr hd)
      rw [h.limit h0] at this
      cases this) hn
    intro hk
    refine hno ?_
    rcases hk with ⟨y, hy, _⟩ | ⟨_, hk⟩
    · rw [h0] at hy; cases hy
    · exact Or.inr ⟨hn, by rw [h.limited.serial]; exact hk⟩
  | cons y ys =>
    left
    have hy : y ∈ n.deltas := by rw [hn]; exact List.mem_cons_self
    have hlt : d.serial < y.serial := Nat.lt_of_not_le (fun hle => hno (Or.inl ⟨y, hy, hle⟩))
    have hmem : ∀ d, d ∈ mergeDeltas kept st.deltas ↔ d ∈ kept ∨ d ∈ st.deltas := by
      intro d
      rw [(mergeDeltas_perm _ _).mem_iff, List.mem_append]
    by_cases hnew : s.deltaIsNew st.sessionReset y.serial = true
    · have : y ∈ st.deltas.map (fun d => (⟨d.serial, base ++ d.relPath, d.hash⟩ : DeltaInfo)) := by
        rw [h.staged.deltas]
        exact List.mem_filter.2 ⟨hy, hnew⟩
      obtain ⟨d', h1, h2⟩ := List.mem_map.1 this
      refine ⟨d', (hmem _).2 (Or.inr h1), ?_⟩
      rw [← h2] at hlt
      exact hlt
    · rw [deltaIsNew_iff h.reset h.proper.order] at hnew
      unfold NewDelta at hnew
      rw [not_or] at hnew
      obtain ⟨_, hnew⟩ := hnew
      have : ∃ d' ∈ s.deltas, y.serial ≤ d'.serial := by
        refine Classical.byContradiction (fun hc => hnew (fun d' hd' => ?_))
        exact Nat.lt_of_not_le (fun hle => hc ⟨d', hd', hle⟩)
      obtain ⟨d', h1, h2⟩ := this
      refine ⟨d', (hmem _).2 (Or.inl ?_), by omega⟩
      rw [hb.split, List.mem_append] at h1
      rcases h1 with h1 | h1
      · exact h1
      · exact (h.gone_below hb h1 hr (Or.inl ⟨y, hy, h2⟩)).elim

theorem next (h : Stepping life c base name p p' s n0 n st) {env : Env} {w1 w2 : World}
    {s1 s2 : RrdpState} {kept gone : List DeltaState} {new l : List DeprecatedFile}
    (hb : Absorbed env w1 w2 s st s1 kept gone new) (h2 : s2 = { s1 with deprecated := l })
    (hl : ∀ e ∈ l, e ∈ s1.deprecated) (hs2 : Sane c base name s2)
    (ho : Descending (s2.held base)) : Proper life c base name p' s2 := by
  have hsn : s2.snapshot = some st.snapshot := by rw [h2]; exact hb.snapshot
  have hdl : s2.deltas = mergeDeltas kept st.deltas := by rw [h2]; exact hb.deltas
  have hmem : ∀ d, d ∈ s2.deltas ↔ d ∈ kept ∨ d ∈ st.deltas := by
    intro d
    rw [hdl, (mergeDeltas_perm _ _).mem_iff, List.mem_append]
  have hkept : ∀ d ∈ kept, d ∈ s.deltas ∧ SameSession s n := by
    intro d hd
    refine ⟨by rw [hb.split]; exact List.mem_append_left _ hd, ?_⟩
    rw [← h.reset]
    cases hr : st.sessionReset with
    | false => rfl
    | true => rw [hb.reset hr] at hd; cases hd
  have hgone : ∀ d ∈ gone, d ∈ s.deltas := fun d hd => by
    rw [hb.split]; exact List.mem_append_right _ hd
  have hsess := h.staged.snapSession
  have hser := h.staged.snapSerial
  -- what is scheduled
  have hsched : ∀ e ∈ s2.deprecated, e ∈ s.deprecated ∨
      ((∃ x, s.snapshot = some x ∧ e.path = c.pubPath x.relPath) ∨
        ∃ x ∈ gone, e.path = c.pubPath x.relPath) := by
    intro e he
    have he1 : e ∈ s1.deprecated := hl e (by rw [h2] at he; exact he)
    rw [hb.deprecated, List.mem_append] at he1
    exact he1.imp id (scheduled_new h.proper.sane hb)
  refine ⟨hs2, ho, ?_, ?_, ?_, ?_, ?_⟩
  · rw [h2]
    show s1.source.etag = none
    rw [hb.source]; exact h.proper.etag
  · intro x hx
    rw [hsn] at hx; cases hx
    rw [hsess, hser]
    exact ⟨h.roleSnap, h.bounded⟩
  · intro d hd
    refine ⟨_, hsn, ?_⟩
    rw [hsess]
    rcases (hmem d).1 hd with hd | hd
    · obtain ⟨h3, h4⟩ := hkept d hd
      obtain ⟨x, h5, h6⟩ := h.proper.deltas d h3
      rw [h6, h4 x h5]
    · exact (h.delta hd).2.2
  · intro e he
    rcases hsched e he with h3 | ⟨x, h3, h4⟩ | ⟨d, h3, h4⟩
    · obtain ⟨rel, x, h4, h5, h6⟩ := h.proper.gone e h3
      refine ⟨rel, _, h4, hsn, ?_⟩
      rcases h6 with ⟨h6, h7⟩ | h6
      · refine Or.inl ⟨h6, ?_⟩
        rw [hsess, hser]
        rcases h.later_version h5 with h8 | ⟨h8, h9⟩
        · rcases h7 with h7 | ⟨h7, _⟩
          · left; omega
          · left; rw [h7]; exact h8
        · rcases h7 with h7 | ⟨h7, h7'⟩
          · left; rw [← h8]; exact h7
          · right; exact ⟨h7.trans h8, by omega⟩
      · refine Or.inr ⟨h6.1, ?_⟩
        rcases h6.2 with h7 | ⟨h7, h8⟩
        · left
          rcases h.later with h9 | ⟨h9, _⟩ <;> omega
        · rcases h.later with h9 | ⟨h9, _, h9'⟩
          · left; omega
          · rcases h8 with h8 | ⟨h8, d', h10, h11⟩
            · exact Or.inr ⟨h7.trans h9, Or.inl (by omega)⟩
            · rw [h8]
              rcases h.later_version h5 with h12 | ⟨h12, _⟩
              · left
                rcases h.bounded with h13 | ⟨h13, _⟩ <;> omega
              · refine Or.inr ⟨by rw [← h8]; exact h7.trans h9, ?_⟩
                have hr : st.sessionReset = false := h.reset.2 (fun y hy => by
                  rw [h5] at hy; cases hy; exact h12)
                unfold GivenUp
                rw [hsess, hdl]
                rw [hb.split, List.mem_append] at h10
                rcases h10 with h10 | h10
                · exact Or.inr (⟨h8.trans h12, d', by
                    rw [(mergeDeltas_perm _ _).mem_iff, List.mem_append]; exact Or.inl h10, h11⟩)
                · rcases h.gone_given_up hb h10 hr with ⟨d2, k1, k2⟩ | k1
                  · exact Or.inr ⟨h8.trans h12, d2, k1, by omega⟩
                  · have ha := h.notAfter
                    unfold SourceLife.NotAfter at ha
                    rw [← h.limited.session, ← h12, ← h8, h7, ← h9] at ha
                    rcases ha with ha | ⟨_, _, ha⟩
                    · omega
                    · exact Or.inl (Nat.lt_trans h11 (ha _ k1))
    · refine ⟨x.relPath, _, h4, hsn, Or.inl ?_⟩
      rw [(h.proper.snapshot x h3).1, hsess, hser]
      refine ⟨rfl, ?_⟩
      dsimp only
      rcases h.later_version h3 with h8 | ⟨h8, h9⟩
      · exact Or.inl h8
      · exact Or.inr ⟨h8, by omega⟩
    · refine ⟨d.relPath, _, h4, hsn, Or.inr ?_⟩
      obtain ⟨x, h5, h6⟩ := h.proper.deltas d (hgone d h3)
      rw [h6]
      refine ⟨rfl, ?_⟩
      dsimp only
      cases hr : st.sessionReset with
      | true =>
        have hns : ¬ SameSession s n := by rw [← h.reset, hr]; simp
        have hne : x.session ≠ n.session := fun he => hns (fun y hy => by
          rw [h5] at hy; cases hy; exact he)
        rcases h.later_version h5 with h8 | ⟨h8, _⟩
        · left
          rcases h.bounded with h9 | ⟨h9, _⟩ <;> omega
        · exact absurd h8 hne
      | false =>
        have hx := h.reset.1 hr x h5
        have ha := h.notAfter
        unfold SourceLife.NotAfter at ha
        rw [← h.limited.session, ← hx] at ha
        rcases ha with ha | ⟨ha, _, ha'⟩
        · exact Or.inl ha
        · refine Or.inr ⟨ha, ?_⟩
          unfold GivenUp
          rw [hsess, hdl]
          rcases h.gone_given_up hb h3 hr with k1 | k1
          · exact Or.inr ⟨hx, k1⟩
          · exact Or.inl (ha' _ k1)
  · intro e he href
    -- what is referred to: staged, or kept
    have href' : (∃ r ∈ st.refs, e.path = c.pubPath r.1) ∨ ∃ d ∈ kept, e.path = c.pubPath d.relPath := by
      rcases href with ⟨x, hx, h3⟩ | ⟨d, hd, h3⟩
      · rw [hsn] at hx; cases hx
        exact Or.inl ⟨_, List.mem_cons_self .., h3⟩
      · rcases (hmem d).1 hd with hd | hd
        · exact Or.inr ⟨d, hd, h3⟩
        · exact Or.inl ⟨_, List.mem_cons_of_mem _ (List.mem_map.2 ⟨d, hd, rfl⟩), h3⟩
    have hrefers : ∀ d ∈ kept, s.Refers c (c.pubPath d.relPath) := fun d hd =>
      Or.inr ⟨d, (hkept d hd).1, rfl⟩
    rcases href' with ⟨r, hr, h3⟩ | ⟨d, hd, h3⟩
    · obtain ⟨f1, f2⟩ := h.fresh r hr
      rcases hsched e he with h4 | ⟨x, h4, h5⟩ | ⟨d, h4, h5⟩
      · exact f2 e h4 h3
      · exact f1 (Or.inl ⟨x, h4, h3.symm.trans h5⟩)
      · exact f1 (Or.inr ⟨d, hgone d h4, h3.symm.trans h5⟩)
    · obtain ⟨x0, k1, k2⟩ := h.proper.deltas d (hkept d hd).1
      rcases hsched e he with h4 | ⟨x, h4, h5⟩ | ⟨d', h4, h5⟩
      · exact h.proper.apart e h4 (h3 ▸ hrefers d hd)
      · have hc := pubPath_inj (h3.symm.trans h5)
        rw [hc, (h.proper.snapshot x h4).1] at k2
        cases k2
      · have hc := pubPath_inj (h3.symm.trans h5)
        obtain ⟨x1, k3, k4⟩ := h.proper.deltas d' (hgone d' h4)
        rw [hc, k4] at k2
        injection k2 with _ _ k5 _
        have := h.kept_gone hb hd h4
        omega

end Stepping

end KSync
