import Verif.Lemmas.Unbroken
import Verif.Lemmas.Success
import Verif.Spec.Mirror

/-! # Following a source -/

set_option linter.unusedSectionVars false
set_option linter.unusedVariables false

namespace KSync

/-- A strictly descending list is determined by its members. -/
theorem Descending.unique {l l' : List DeltaInfo} (h : Descending l) (h' : Descending l')
    (hm : ∀ x, x ∈ l ↔ x ∈ l') : l = l' := by
  induction l generalizing l' with
  | nil =>
    cases l' with
    | nil => rfl
    | cons y ys => exact absurd ((hm y).2 List.mem_cons_self) (by simp)
  | cons x xs ih =>
    cases l' with
    | nil => exact absurd ((hm x).1 List.mem_cons_self) (by simp)
    | cons y ys =>
      obtain ⟨hx, hxs⟩ := List.pairwise_cons.1 h
      obtain ⟨hy, hys⟩ := List.pairwise_cons.1 h'
      have hxy : x = y := by
        rcases List.mem_cons.1 ((hm x).1 List.mem_cons_self) with e | e
        · exact e
        rcases List.mem_cons.1 ((hm y).2 List.mem_cons_self) with e' | e'
        · exact e'.symm
        have := hy x e
        have := hx y e'
        omega
      subst hxy
      rw [ih hxs hys (fun z => ?_)]
      constructor
      · intro hz
        rcases List.mem_cons.1 ((hm z).1 (List.mem_cons_of_mem _ hz)) with rfl | e
        · exact absurd (hx z hz) (Nat.lt_irrefl _)
        · exact e
      · intro hz
        rcases List.mem_cons.1 ((hm z).2 (List.mem_cons_of_mem _ hz)) with rfl | e
        · exact absurd (hy z hz) (Nat.lt_irrefl _)
        · exact e

theorem IsLimit.reverse_descending [Ext] {max : Option Nat} {ds ds' : List DeltaInfo}
    (h : IsLimit max ds ds') : Descending ds'.reverse :=
  List.pairwise_reverse.2 h.ascending

theorem IsLimit.subset {max : Option Nat} {ds ds' : List DeltaInfo} (h : IsLimit max ds ds') :
    ∀ d ∈ ds', d ∈ ds := by
  obtain ⟨older, hp, _⟩ := h.split
  exact fun d hd => hp.subset (List.mem_append_right _ hd)

/-- What is left out of a list that is not emptied is too old for the maximum. -/
theorem IsLimit.left_out {max : Option Nat} {n : Notif} {ds : List DeltaInfo}
    (h : IsLimit max n.deltas ds) (he : ReachesSerial n)
    (hu : ∀ d ∈ n.deltas, ∀ d' ∈ n.deltas, d.serial = d'.serial → d = d') (hne : ds ≠ [])
    {x : DeltaInfo} (hx : x ∈ n.deltas) (hn : x ∉ ds) :
    ∃ m, max = some m ∧ 0 < m ∧ x.serial + m ≤ n.serial := by
  obtain ⟨lo, e1, e2, e3⟩ := h.ends he hne
  have hlow : x.serial < lo := by
    refine Nat.lt_of_not_le (fun hle => ?_)
    obtain ⟨d, d1, d2⟩ := e3 x.serial hle (he.1 x hx)
    exact hn (hu d (h.subset d d1) x hx d2 ▸ d1)
  have hlen : ds.length < n.deltas.length := by
    obtain ⟨older, hp, _⟩ := h.split
    have h1 := hp.length_eq
    rw [List.length_append] at h1
    rcases List.mem_append.1 (hp.symm.subset hx) with h2 | h2
    · have := List.length_pos_of_mem h2
      omega
    · exact absurd h2 hn
  match max, h with
  | none, h => exact absurd h.length (Nat.ne_of_lt hlen)
  | some 0, h =>
    rcases h.length with hl | hl
    · exact absurd hl (Nat.ne_of_lt hlen)
    · exact absurd hl hne
  | some (m + 1), h =>
    refine ⟨m + 1, rfl, Nat.succ_pos _, ?_⟩
    have hl : ds.length = min (m + 1) n.deltas.length := h.length
    omega

/-- With a maximum other than 0, there is one way to limit a list. -/
theorem IsLimit.unique [Ext] {max : Option Nat} {n : Notif} {ds ds' : List DeltaInfo}
    (h : IsLimit max n.deltas ds) (h' : IsLimit max n.deltas ds') (he : ReachesSerial n)
    (hu : ∀ d ∈ n.deltas, ∀ d' ∈ n.deltas, d.serial = d'.serial → d = d') (hm : max ≠ some 0) :
    ds = ds' := by
  have hlen : ds.length = ds'.length := by
    have h1 := h.length
    have h2 := h'.length
    match max, hm, h1, h2 with
    | none, _, h1, h2 => exact h1.trans h2.symm
    | some 0, hm, _, _ => exact absurd rfl hm
    | some (m + 1), _, h1, h2 => exact h1.trans h2.symm
  by_cases hne : ds = []
  · subst hne
    exact (List.length_eq_zero_iff.1 hlen.symm).symm
  have hne' : ds' ≠ [] := by
    rintro rfl
    exact hne (List.length_eq_zero_iff.1 hlen)
  obtain ⟨lo, e1, e2, e3⟩ := h.ends he hne
  obtain ⟨lo', e1', e2', e3'⟩ := h'.ends he hne'
  have hlo : lo = lo' := by omega
  subst hlo
  have : ds.reverse = ds'.reverse := by
    refine h.reverse_descending.unique h'.reverse_descending (fun x => ?_)
    rw [List.mem_reverse, List.mem_reverse]
    constructor
    · intro hx
      obtain ⟨d, d1, d2⟩ := e3' x.serial (e2 x hx).1 (e2 x hx).2
      exact hu d (h'.subset d d1) x (h.subset x hx) d2 ▸ d1
    · intro hx
      obtain ⟨d, d1, d2⟩ := e3 x.serial (e2' x hx).1 (e2' x hx).2
      exact hu d (h.subset d d1) x (h'.subset x hx) d2 ▸ d1
  exact List.reverse_inj.1 this

variable [Ext]

/-- The state is that of a notification of the source. -/
def MirrorState (σ : Nat → Notif) (c : Config) (base : Str) (i : Nat) (s : RrdpState) : Prop :=
  Descending (s.held base) ∧ (s.snapshot = none → s.deltas = []) ∧
    ∀ x, s.snapshot = some x → ∃ k ≤ i, x.session = (σ k).session ∧ x.serial = (σ k).serial ∧
      ∃ ds, IsLimit c.rrdpMaxDeltas (σ k).deltas ds ∧ s.held base = ds.reverse

theorem Update.mirrors {σ : Nat → Notif} {c : Config} {base : Str} {i k : Nat} {s : RrdpState}
    {n n' : Notif} (hσ : FollowsRfc σ) (h : Update base s n n') (hs : MirrorState σ c base i s)
    (hik : i ≤ k) (hv : NewVersion s n) (hl : Limited c (σ k) n) : Mirrors c (σ k) n' := by
  obtain ⟨ds, hlim, rfl⟩ := hl
  refine ⟨ds, hlim, ?_⟩
  have hd : n'.deltas = ds.reverse := by
    refine h.order.unique hlim.reverse_descending (fun x => ?_)
    rw [h.deltas x, List.mem_reverse]
    -- what is held
    have held : ∀ x ∈ s.held base, SameSession s { σ k with deltas := ds } →
        ∃ k0 ds0, k0 ≤ k ∧ (σ k0).session = (σ k).session ∧ (σ k0).serial < (σ k).serial ∧
          IsLimit c.rrdpMaxDeltas (σ k0).deltas ds0 ∧ s.held base = ds0.reverse := by
      intro x hx hsess
      cases hsn : s.snapshot with
      | none =>
        have hd := hs.2.1 hsn
        unfold RrdpState.held at hx
        rw [hd] at hx
        cases hx
      | some y =>
        obtain ⟨k0, hk0, a1, a2, ds0, a3, a4⟩ := hs.2.2 y hsn
        refine ⟨k0, ds0, Nat.le_trans hk0 hik, a1.symm.trans (hsess y hsn), ?_, a3, a4⟩
        rcases hv y hsn with h2 | h2
        · exact absurd (hsess y hsn) h2
        · rw [← a2]; exact h2
    constructor
    · rintro (⟨h1, _⟩ | ⟨h1, h2, h3⟩)
      · exact h1
      · obtain ⟨k0, ds0, b1, b2, b3, b4, b5⟩ := held x h1 h2
        rw [b5, List.mem_reverse] at h1
        have hx0 := b4.subset x h1
        have hle := (hσ.reaches k0).1 x hx0
        rcases h3 with ⟨d, h3, h4⟩ | ⟨_, h3⟩
        · have hne : ds ≠ [] := List.ne_nil_of_mem h3
          obtain ⟨lo, e1, e2, e3⟩ := hlim.ends (hσ.reaches k) hne
          have := (e2 d h3).1
          obtain ⟨e, f1, f2⟩ := e3 x.serial (by omega) (by omega)
          have := hσ.keeps k0 k b1 b2 e (hlim.subset e f1) (by omega)
          exact hσ.once k0 e this x hx0 f2 ▸ f1
        · have : (σ k).serial ≤ x.serial := h3
          omega
    · intro hx
      by_cases hnew : NewDelta s { σ k with deltas := ds } x.serial
      · exact Or.inl ⟨hx, hnew⟩
      right
      unfold NewDelta at hnew
      have hsess : SameSession s { σ k with deltas := ds } := by
        by_cases hc : SameSession s { σ k with deltas := ds }
        · exact hc
        · exact absurd (Or.inl hc) hnew
      have hex : ∃ d ∈ s.deltas, x.serial ≤ d.serial := by
        by_cases hc : ∃ d ∈ s.deltas, x.serial ≤ d.serial
        · exact hc
        · refine absurd (Or.inr (fun d hd => Nat.lt_of_not_le (fun hle => hc ⟨d, hd, hle⟩))) hnew
      obtain ⟨d, d1, d2⟩ := hex
      have hd : (⟨d.serial, base ++ d.relPath, d.hash⟩ : DeltaInfo) ∈ s.held base :=
        List.mem_map.2 ⟨d, d1, rfl⟩
      obtain ⟨k0, ds0, b1, b2, b3, b4, b5⟩ := held _ hd hsess
      refine ⟨?_, hsess, Or.inl ⟨x, hx, Nat.le_refl _⟩⟩
      rw [b5, List.mem_reverse] at hd ⊢
      have h1 := (hσ.reaches k0).1 _ (b4.subset _ hd)
      dsimp only at h1
      have hx0 := hσ.keeps k0 k b1 b2 x (hlim.subset x hx) (by omega)
      by_cases hin : x ∈ ds0
      · exact hin
      obtain ⟨m, m1, m2, m3⟩ := b4.left_out (hσ.reaches k0) (hσ.once k0) (List.ne_nil_of_mem hd) hx0 hin
      obtain ⟨lo, e1, e2, _⟩ := hlim.ends (hσ.reaches k) (List.ne_nil_of_mem hx)
      rw [m1] at hlim
      match m, m2 with
      | m + 1, _ =>
        have hlen : ds.length = min (m + 1) (σ k).deltas.length := hlim.length
        have := (e2 x hx).1
        omega
  have hv := h.version
  cases n' with
  | mk a b d e g =>
    have h1 : a = (σ k).session := hv.session
    have h2 : b = (σ k).serial := hv.serial
    have h3 : d = (σ k).snapUri := hv.snapUri
    have h4 : e = (σ k).snapHash := hv.snapHash
    have h5 : g = ds.reverse := hd
    subst h1 h2 h3 h4 h5
    rfl

theorem following_key {σ : Nat → Notif} {c : Config} {base name : Str} (hσ : FollowsRfc σ)
    (hl : Layout c base name) {env : Env} {f : FS} {depth i j : Nat} {s0 s : RrdpState} {st : StagedChanges}
    {w : World} {n n0 : Notif} (hr : FollowingRun σ c base name i j depth env f)
    (h1 : MirrorState σ c base i s0) (hv : ∃ v, s = { s0 with validator := v })
    (h2 : Offers c env f s0.source.etag n0) (h3 : Limited c n0 n)
    (h4 : n.deltas.Pairwise (fun a b => a.serial < b.serial))
    (h5 : AtPublish depth c base name env (World.start f) s st w n) :
    ∃ k, i ≤ k ∧ k ≤ j ∧ Mirrors c (σ k) (newNotif s st) := by
  obtain ⟨v, rfl⟩ := hv
  obtain ⟨k, k1, k2, rfl⟩ := hr.offers _ _ h2
  have hu := newNotif_update hl.uri h5.sane h5.staged h4 h5.prepared.decided h1.1
  exact ⟨k, k1, k2, hu.mirrors hσ h1 k1 (decide_reset h5.prepared.decided).2 h3⟩

theorem following_inductive {σ : Nat → Notif} {c : Config} {base name : Str} (hσ : FollowsRfc σ)
    (hl : Layout c base name) : Inductive c base name (FollowingRun σ c base name)
      (MirrorState σ c base) (fun i n => ∃ k ≤ i, Mirrors c (σ k) n) := by
  refine ⟨fun _ _ _ _ _ h => h.source, fun _ => ⟨freshState_ordered, fun _ => rfl, fun x hx => by cases hx⟩,
    fun _ s h => h, ?_, ?_, ?_, ?_⟩
  · rintro i j depth env f s hr ⟨h1, h2, h3⟩
    refine ⟨h1, h2, fun x hx => ?_⟩
    obtain ⟨k, hk, h4⟩ := h3 x hx
    exact ⟨k, Nat.le_trans hk hr.later, h4⟩
  · rintro i j depth env f n hr ⟨k, hk, h⟩
    exact ⟨k, Nat.le_trans hk hr.later, h⟩
  · intro _ _ _ _ _ _ _ _ _ _ _ hok h1 _ h2 h3 h4 h5 h6
    obtain ⟨k, _, k2, k3⟩ := following_key hσ hl hok h1 h2 h3 h4 h5 h6
    exact ⟨k, k2, k3⟩
  · intro i j depth env f s0 s s2 st w n n0 hok h1 _ h2 h3 h4 h5 h6 h7
    obtain ⟨k, _, hk, ds, a1, a2⟩ := following_key hσ hl hok h1 h2 h3 h4 h5 h6
    obtain ⟨x, x1, x2, x3, _⟩ := h7.describes.snapshot
    have hd := h7.describes.deltas
    rw [a2] at hd x2 x3
    refine ⟨?_, fun h => ?_, fun y hy => ?_⟩
    · rw [← hd]; exact a1.reverse_descending
    · rw [x1] at h; cases h
    · rw [x1] at hy
      cases hy
      exact ⟨k, hk, x2.symm, x3.symm, ds, a1, hd.symm⟩

theorem following_invariant {σ : Nat → Notif} {c : Config} {base name : Str} (hσ : FollowsRfc σ)
    (hl : Layout c base name) (ho : c.rsyncEnabled = true → CleanObjects c.rsyncIncludeHost)
    {i : Nat} {f : FS} (h : Following σ c base name i f) :
    Invariant c base name (MirrorState σ c base) (fun i n => ∃ k ≤ i, Mirrors c (σ k) n) i f :=
  History.invariant hl ho (following_inductive hσ hl) h

/-- One run: what is published is what was, or what the source has meanwhile. -/
theorem following_run {σ : Nat → Notif} {c : Config} {base name : Str} (hσ : FollowsRfc σ)
    (hl : Layout c base name) (ho : c.rsyncEnabled = true → CleanObjects c.rsyncIncludeHost)
    {i j depth : Nat} {env : Env} {f f' : FS}
    (h : Invariant c base name (MirrorState σ c base) (fun i n => ∃ k ≤ i, Mirrors c (σ k) n) i f)
    (hr : FollowingRun σ c base name i j depth env f)
    (hf : f' ∈ (process depth c env (World.start f)).2.crashPoints) :
    f'.leaf (c.notifPath name) = f.leaf (c.notifPath name) ∨ ∃ k, i ≤ k ∧ k ≤ j ∧ ∃ n t, Mirrors c (σ k) n ∧
      f'.leaf (c.notifPath name) = some (.file (Ext.writeNotif n) t) := by
  rcases (run_records hl (h.conds hl ho hr.source) f' hf).2 with ⟨_, h1⟩ | ⟨s, st, w, n, t, h1, h2, _⟩
  · exact Or.inl h1
  · right
    obtain ⟨s0, n0, a1, a2, a3, a4, a5⟩ := h1.origin
    have hq : MirrorState σ c base i s0 := by
      rcases a1 with a1 | ⟨_, rfl⟩
      · exact (h.state s0 a1).2
      · exact (following_inductive hσ hl).fresh i
    obtain ⟨k, k1, k2, k3⟩ := following_key hσ hl hr hq a2 a3 a4 a5 h1
    exact ⟨k, k1, k2, _, t, k3, h2⟩

/-- One run that completes, and changes something, when the source has notification `m` only. -/
theorem following_done {σ : Nat → Notif} {c : Config} {base name : Str} (hσ : FollowsRfc σ)
    (hl : Layout c base name) (ho : c.rsyncEnabled = true → CleanObjects c.rsyncIncludeHost)
    {m depth : Nat} {env : Env} {f : FS} {w' : World}
    (h : Invariant c base name (MirrorState σ c base) (fun i n => ∃ k ≤ i, Mirrors c (σ k) n) m f)
    (hr : FollowingRun σ c base name m m depth env f)
    (hok : process depth c env (World.start f) = (.ok (), w')) (hch : w'.crashPoints ≠ [f]) :
    ∃ n t, Mirrors c (σ m) n ∧ w'.cur.leaf (c.notifPath name) = some (.file (Ext.writeNotif n) t) := by
  have hc := h.conds hl ho hr.source
  rcases run_ok (w := World.start f) hc hok with ⟨h1, _⟩ | ⟨s, st, w1, n1, h1, h2⟩
  · refine absurd ?_ hch
    unfold World.crashPoints; rw [h1.1, h1.2]; rfl
  · obtain ⟨s0, n0, a1, a2, a3, a4, a5⟩ := h1.origin
    have hq : MirrorState σ c base m s0 := by
      rcases a1 with a1 | ⟨_, rfl⟩
      · exact (h.state s0 a1).2
      · exact (following_inductive hσ hl).fresh m
    obtain ⟨k, k1, k2, k3⟩ := following_key hσ hl hr hq a2 a3 a4 a5 h1
    obtain rfl : k = m := Nat.le_antisymm k2 k1
    obtain ⟨wa, wb, wc, s1, s2, kept, gone, new, hd⟩ := publish_done hl (h1.pubPre hc) h1.wf h2
    obtain ⟨t, ht⟩ := hd.notif
    exact ⟨_, t, k3, by unfold FS.leaf; rw [ht]⟩

/-- Later the source has had no less. -/
theorem mirrored_later {σ : Nat → Notif} {c : Config} {base name : Str} {i j : Nat} {f : FS} (hij : i ≤ j)
    (h : Invariant c base name (MirrorState σ c base) (fun i n => ∃ k ≤ i, Mirrors c (σ k) n) i f) :
    Invariant c base name (MirrorState σ c base) (fun i n => ∃ k ≤ i, Mirrors c (σ k) n) j f := by
  refine ⟨h.wf, h.noLink, fun s hs => ?_, h.notif.imp id ?_⟩
  · obtain ⟨a, b, b', b''⟩ := h.state s hs
    refine ⟨a, b, b', fun x hx => ?_⟩
    obtain ⟨k, hk, e⟩ := b'' x hx
    exact ⟨k, Nat.le_trans hk hij, e⟩
  · rintro ⟨n, t, a, k, hk, e⟩
    exact ⟨n, t, a, k, Nat.le_trans hk hij, e⟩

end KSync
