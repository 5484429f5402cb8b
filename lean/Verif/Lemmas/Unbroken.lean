import Verif.Lemmas.StateHistory

/-! # Sequences of deltas without gaps -/

set_option linter.unusedSectionVars false
set_option linter.unusedVariables false

namespace KSync

theorem Descending.unbroken {l : List DeltaInfo} (h : Descending l) {lo top : Nat}
    (h1 : ∀ d ∈ l, lo ≤ d.serial ∧ d.serial ≤ top)
    (h2 : ∀ k, lo ≤ k → k ≤ top → ∃ d ∈ l, d.serial = k) : Unbroken l top := by
  induction l generalizing top with
  | nil => intro i hi; exact absurd hi (Nat.not_lt_zero _)
  | cons x xs ih =>
    obtain ⟨hx, hxs⟩ := List.pairwise_cons.1 h
    obtain ⟨a1, a2⟩ := h1 x List.mem_cons_self
    have htop : x.serial = top := by
      obtain ⟨d, hd, he⟩ := h2 top (by omega) (Nat.le_refl _)
      rcases List.mem_cons.1 hd with rfl | hd
      · exact he
      · have := hx d hd; omega
    intro i hi
    match i with
    | 0 => exact htop
    | i + 1 =>
      have hi' : i < xs.length := by simpa using hi
      have hm : xs[i] ∈ xs := List.getElem_mem hi'
      have hlt := hx _ hm
      have := ih hxs (top := top - 1) (fun d hd => by
          have b1 := hx d hd
          have b2 := (h1 d (List.mem_cons_of_mem _ hd)).1
          exact ⟨b2, by omega⟩)
        (fun k k1 k2 => by
          obtain ⟨d, hd, he⟩ := h2 k k1 (by omega)
          rcases List.mem_cons.1 hd with rfl | hd
          · omega
          · exact ⟨d, hd, he⟩) i hi'
      show xs[i].serial + (i + 1) = top
      omega

theorem Unbroken.mem {l : List DeltaInfo} {top : Nat} (h : Unbroken l top) {d : DeltaInfo}
    (hd : d ∈ l) : d.serial ≤ top := by
  obtain ⟨i, hi, rfl⟩ := List.mem_iff_getElem.1 hd
  have := h i hi
  omega

/-- Between the lowest and the highest, nothing is missing. -/
theorem Unbroken.has {l : List DeltaInfo} {top : Nat} (h : Unbroken l top) {d : DeltaInfo}
    (hd : d ∈ l) {k : Nat} (h1 : d.serial ≤ k) (h2 : k ≤ top) : ∃ e ∈ l, e.serial = k := by
  obtain ⟨i, hi, rfl⟩ := List.mem_iff_getElem.1 hd
  have h3 := h i hi
  have hj : top - k < l.length := by omega
  refine ⟨l[top - k], List.getElem_mem hj, ?_⟩
  have := h (top - k) hj
  omega

/-- Consecutive serials, from the lowest up. -/
theorem IsLimit.serial {max : Option Nat} {ds ds' : List DeltaInfo} (h : IsLimit max ds ds') :
    ∀ i (hi : i < ds'.length),
      (ds'[i]'hi).serial = (ds'[0]'(Nat.lt_of_le_of_lt (Nat.zero_le _) hi)).serial + i := by
  intro i
  induction i with
  | zero => intro hi; rfl
  | succ i ih =>
    intro hi
    rw [h.contig i hi, ih (Nat.lt_of_succ_lt hi)]
    omega

/-- The limited list of a source that lists deltas up to its serial. -/
theorem IsLimit.ends {max : Option Nat} {n : Notif} {ds' : List DeltaInfo}
    (h : IsLimit max n.deltas ds') (he : ReachesSerial n) (hne : ds' ≠ []) :
    ∃ lo, lo + ds'.length = n.serial + 1 ∧ (∀ d ∈ ds', lo ≤ d.serial ∧ d.serial ≤ n.serial) ∧
      ∀ k, lo ≤ k → k ≤ n.serial → ∃ d ∈ ds', d.serial = k := by
  have hpos : 0 < ds'.length := List.length_pos_iff.2 hne
  obtain ⟨older, hp, ho⟩ := h.split
  have hsub : ∀ d ∈ ds', d ∈ n.deltas := fun d hd => hp.subset (List.mem_append_right _ hd)
  have hs := h.serial
  have hle : ∀ d ∈ ds', d.serial ≤ n.serial := fun d hd => he.1 d (hsub d hd)
  -- the last one is the one for the serial of the notification
  have hlast : (ds'[ds'.length - 1]'(by omega)).serial = n.serial := by
    have hne' : n.deltas ≠ [] := by
      intro e
      have := hsub _ (List.getElem_mem hpos)
      rw [e] at this
      cases this
    obtain ⟨d, hd, hser⟩ := he.2 hne'
    have hlm := List.getElem_mem (l := ds') (n := ds'.length - 1) (by omega)
    have h1 := hle _ hlm
    rcases List.mem_append.1 (hp.symm.subset hd) with hd | hd
    · have := ho d hd _ hlm
      omega
    · obtain ⟨i, hi, rfl⟩ := List.mem_iff_getElem.1 hd
      have h2 := hs i hi
      have h3 := hs (ds'.length - 1) (by omega)
      omega
  have h3 := hs (ds'.length - 1) (by omega)
  refine ⟨(ds'[0]'hpos).serial, by omega, fun d hd => ⟨?_, hle d hd⟩, fun k k1 k2 => ?_⟩
  · obtain ⟨i, hi, rfl⟩ := List.mem_iff_getElem.1 hd
    have := hs i hi
    omega
  · have hi : k - (ds'[0]'hpos).serial < ds'.length := by omega
    refine ⟨_, List.getElem_mem hi, ?_⟩
    have := hs _ hi
    omega

variable [Ext]

/-- The deltas held go from the serial held down. -/
def UnbrokenState (base : Str) (s : RrdpState) : Prop :=
  Descending (s.held base) ∧ (s.snapshot = none → s.deltas = []) ∧
    ∀ x, s.snapshot = some x → Unbroken (s.held base) x.serial

theorem UnbrokenState.persisted {base : Str} {s : RrdpState} (h : UnbrokenState base s) :
    UnbrokenState base s.persisted := h

theorem freshState_unbroken {c : Config} {base name : Str} :
    UnbrokenState base (freshState c base name) :=
  ⟨freshState_ordered, fun _ => rfl, fun x hx => by cases hx⟩

/-- An update over a source that lists deltas up to its serial. -/
theorem Update.unbroken {c : Config} {base : Str} {s : RrdpState} {n0 n n' : Notif}
    (h : Update base s n n') (hs : UnbrokenState base s) (hv : NewVersion s n)
    (hl : Limited c n0 n) (he : ReachesSerial n0) :
    Unbroken n'.deltas n'.serial ∧ n'.deltas.length ≤ n.deltas.length := by
  obtain ⟨ds, hlim, rfl⟩ := hl
  obtain ⟨hs1, hs2, hs3⟩ := hs
  have hser : n'.serial = n0.serial := h.version.serial
  -- what is kept is below the new serial
  have hheld : ∀ x ∈ s.held base, SameSession s { n0 with deltas := ds } → x.serial < n0.serial := by
    intro x hx hsess
    cases hsn : s.snapshot with
    | none =>
      have hd := hs2 hsn
      unfold RrdpState.held at hx
      rw [hd] at hx
      cases hx
    | some y =>
      have h1 := (hs3 y hsn).mem hx
      rcases hv y hsn with h2 | h2
      · exact absurd (hsess y hsn) h2
      · have : y.serial < n0.serial := h2
        omega
  by_cases hne : ds = []
  · subst hne
    have : n'.deltas = [] := by
      refine List.eq_nil_iff_forall_not_mem.2 (fun x hx => ?_)
      rcases (h.deltas x).1 hx with ⟨h1, _⟩ | ⟨h1, h2, h3⟩
      · cases h1
      · have := hheld x h1 h2
        rcases h3 with ⟨d, hd, _⟩ | ⟨_, h3⟩
        · cases hd
        · have h4 : n0.serial ≤ x.serial := h3
          omega
    rw [this]
    exact ⟨fun i hi => absurd hi (Nat.not_lt_zero _), Nat.le_refl _⟩
  obtain ⟨lo, hlen, hlo, hall⟩ := hlim.ends he hne
  have hlow : ∀ x ∈ n'.deltas, lo ≤ x.serial ∧ x.serial ≤ n0.serial := by
    intro x hx
    rcases (h.deltas x).1 hx with ⟨h1, _⟩ | ⟨h1, h2, h3⟩
    · exact hlo x h1
    · have := hheld x h1 h2
      rcases h3 with ⟨d, hd, h4⟩ | ⟨h3, _⟩
      · have := (hlo d hd).1
        exact ⟨by omega, by omega⟩
      · exact absurd h3 hne
  -- the lowest published
  have hub : Unbroken n'.deltas n0.serial := by
    by_cases hcase : SameSession s { n0 with deltas := ds } ∧ ∃ e ∈ s.held base, True
    · obtain ⟨hsess, e0, he0, _⟩ := hcase
      cases hsn : s.snapshot with
      | none =>
        have hd := hs2 hsn
        unfold RrdpState.held at he0
        rw [hd] at he0
        cases he0
      | some y =>
        have hu := hs3 y hsn
        have hyn : y.serial < n0.serial := by
          rcases hv y hsn with h2 | h2
          · exact absurd (hsess y hsn) h2
          · exact h2
        have hlenpos : 0 < (s.held base).length := List.length_pos_iff.2 (List.ne_nil_of_mem he0)
        have hlast := hu ((s.held base).length - 1) (by omega)
        let l := ((s.held base)[(s.held base).length - 1]'(by omega)).serial
        have hl0 : ∀ x ∈ s.held base, l ≤ x.serial := by
          intro x hx
          obtain ⟨i, hi, rfl⟩ := List.mem_iff_getElem.1 hx
          have := hu i hi
          show ((s.held base)[(s.held base).length - 1]'(by omega)).serial ≤ _
          omega
        refine h.order.unbroken (lo := Nat.max lo l) (fun x hx => ⟨?_, (hlow x hx).2⟩) (fun k k1 k2 => ?_)
        · refine Nat.max_le.2 ⟨(hlow x hx).1, ?_⟩
          rcases (h.deltas x).1 hx with ⟨_, h2⟩ | ⟨h1, _, _⟩
          · rcases h2 with h2 | h2
            · exact absurd hsess h2
            · obtain ⟨d, hd, rfl⟩ := List.mem_map.1 he0
              have h3 := h2 d hd
              have h4 := hl0 _ he0
              dsimp only at h4
              omega
          · exact hl0 x h1
        · obtain ⟨k3, k4⟩ := Nat.max_le.1 k1
          by_cases hk : k ≤ y.serial
          · obtain ⟨e, h1, h2⟩ := hu.has (List.getElem_mem (by omega)) k4 hk
            refine ⟨e, (h.deltas e).2 (Or.inr ⟨h1, hsess, Or.inl ?_⟩), h2⟩
            obtain ⟨d, d1, d2⟩ := hall k k3 k2
            exact ⟨d, d1, by omega⟩
          · obtain ⟨d, d1, d2⟩ := hall k k3 k2
            refine ⟨d, (h.deltas d).2 (Or.inl ⟨d1, Or.inr (fun e he => ?_)⟩), d2⟩
            have := hu.mem (List.mem_map.2 ⟨e, he, rfl⟩)
            dsimp only at this
            omega
    · refine h.order.unbroken (lo := lo) hlow (fun k k1 k2 => ?_)
      obtain ⟨d, d1, d2⟩ := hall k k1 k2
      refine ⟨d, (h.deltas d).2 (Or.inl ⟨d1, ?_⟩), d2⟩
      by_cases hsess : SameSession s { n0 with deltas := ds }
      · right
        intro e he
        exact absurd ⟨hsess, _, List.mem_map.2 ⟨e, he, rfl⟩, trivial⟩ hcase
      · exact Or.inl hsess
  refine ⟨hser ▸ hub, ?_⟩
  show n'.deltas.length ≤ ds.length
  by_cases hz : n'.deltas.length = 0
  · omega
  · have h1 := hub (n'.deltas.length - 1) (by omega)
    have h2 := (hlow _ (List.getElem_mem (l := n'.deltas) (n := n'.deltas.length - 1) (by omega))).1
    omega

end KSync
