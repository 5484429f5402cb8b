import Verif.Lemmas.Party
import Verif.Props.Delay
import Verif.Spec.Cluster

/-! # Several servers (C84) -/

set_option linter.unusedSectionVars false
set_option linter.unusedVariables false

namespace KSync

variable [Ext]

theorem AtMost.refl (a : Option Nat) : AtMost a a := fun m' h => ⟨m', h, Nat.le_refl _⟩

theorem IsLimit.shorter {a b : Option Nat} {l ds ds' : List DeltaInfo} (hab : AtMost a b) (ha : a ≠ some 0)
    (hb : b ≠ some 0) (h : IsLimit a l ds) (h' : IsLimit b l ds') : ds.length ≤ ds'.length := by
  have h1 := h.length
  have h2 := h'.length
  cases b with
  | none =>
    rw [show ds'.length = l.length from h2]
    obtain ⟨older, hp, _⟩ := h.split
    have := hp.length_eq
    rw [List.length_append] at this
    omega
  | some m' =>
    obtain ⟨m, rfl, hm⟩ := hab m' rfl
    match m, m', ha, hb, h1, h2 with
    | 0, _, ha, _, _, _ => exact absurd rfl ha
    | _, 0, _, hb, _, _ => exact absurd rfl hb
    | m + 1, m' + 1, _, _, h1, h2 =>
      rw [show ds.length = min (m + 1) l.length from h1, show ds'.length = min (m' + 1) l.length from h2]
      omega

/-- Under a stricter limit nothing is listed that is not under the other. -/
theorem IsLimit.below {a b : Option Nat} {n : Notif} {ds ds' : List DeltaInfo} (hab : AtMost a b)
    (ha : a ≠ some 0) (hb : b ≠ some 0) (hr : ReachesSerial n)
    (hu : ∀ d ∈ n.deltas, ∀ d' ∈ n.deltas, d.serial = d'.serial → d = d')
    (h : IsLimit a n.deltas ds) (h' : IsLimit b n.deltas ds') : ∀ d ∈ ds, d ∈ ds' := by
  intro d hd
  have hle := h.shorter hab ha hb h'
  have hne : ds ≠ [] := fun he => by rw [he] at hd; cases hd
  have hne' : ds' ≠ [] := by
    intro he
    rw [he] at hle
    exact hne (List.eq_nil_of_length_eq_zero (Nat.le_zero.1 hle))
  obtain ⟨lo, e1, e2, e3⟩ := h.ends hr hne
  obtain ⟨lo', e1', e2', e3'⟩ := h'.ends hr hne'
  obtain ⟨d', d1, d2⟩ := e3' d.serial (by have := e2 d hd; omega) (by have := e2 d hd; omega)
  rw [hu d (h.subset d hd) d' (h'.subset d' d1) d2.symm]
  exact d1

/-- What a server that has the version announces, or will announce, and its files. -/
theorem HasVersion.files {σ : Nat → Notif} {life : SourceLife} {c : Config} {base name : Str} {session : Uuid}
    {serial : Nat} {f : FS} (hl : Layout c base name)
    (ho : c.rsyncEnabled = true → CleanObjects c.rsyncIncludeHost) (hσ : FollowsRfc σ)
    (h : HasVersion σ life c base name session serial f) :
    ∃ n k, n.session = session ∧ n.serial = serial ∧ Mirrors c (σ k) n ∧
      ∀ r ∈ n.refs, ∃ rel, r.1 = base ++ rel ∧ FileHas f (c.pubPath rel) r.2 := by
  cases h with
  | @announced i p f0 _ n t0 h1 h2 h3 h4 h5 =>
    obtain ⟨k, _, hm⟩ := h1.mirrors hl ho hσ h2
    obtain ⟨t, h2⟩ := h2
    exact ⟨n, k, h3, h4, hm,
      C74_listed_files_stay_partial life c base name i.1 p f0 f n t t0 hl ho h1.lifetime h2 h5⟩
  | @waiting i j depth env f0 f1 _ n before h1 h2 h3 h4 h5 h6 h7 h8 h9 h10 =>
    have h1' : Mirroring σ life c base name j f1 := History.run h1 ⟨h3, h4⟩ h6
    obtain ⟨k, _, hm⟩ := h1'.mirrors hl ho hσ h7
    obtain ⟨t, h7⟩ := h7
    obtain ⟨g, before', g1, _, g3⟩ := C57_files_there_during_delay life c base name i.1 j.1 f0 hl ho h1.lifetime
      depth env h3 h2 f1 h6 n t h7 h8
    rw [h5] at g1
    cases g1
    exact ⟨n, k, h9, h10, hm, g3⟩

end KSync
