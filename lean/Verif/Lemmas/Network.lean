import Verif.Spec.Network
import Verif.Lemmas.Chain
import Verif.Lemmas.Timeline

/-! # Mirrors that get their files from each other over the network (C89) -/

set_option linter.unusedSectionVars false
set_option linter.unusedVariables false

namespace KSync

variable [Ext]

section

variable {κ : Type} [DecidableEq κ] {σ : Nat → Notif} {cs : κ → Config} {parent : κ → Option κ}
  {lim : κ → Option Nat} {base name : Str}

/-- What is needed of the installations and of the source. -/
structure Net (σ : Nat → Notif) (cs : κ → Config) (parent : κ → Option κ) (lim : κ → Option Nat)
    (base name : Str) : Prop extends MirrorNet cs parent lim base name where
  irrefl : ∀ k, parent k ≠ some k
  posLim : ∀ k, lim k ≠ some 0
  rfc : FollowsRfc σ
  gapless : ∀ m, Gapless (σ m).deltas
  good : ∀ m, GoodNotif base name (σ m)

omit [DecidableEq κ] in
theorem MirrorNet.net (h : MirrorNet cs parent lim base name) (hσ : FollowsRfc σ)
    (hg : ∀ m, Gapless (σ m).deltas) (hn : ∀ m, GoodNotif base name (σ m)) :
    Net σ cs parent lim base name := by
  obtain ⟨rank, hrank⟩ := h.noCycle
  refine ⟨h, fun k hk => Nat.lt_irrefl _ (hrank k k hk), fun k => ?_, hσ, hg, hn⟩
  generalize hr : rank k = r
  induction r using Nat.strongRecOn generalizing k with
  | _ r ih =>
    cases hp : parent k with
    | none => rw [h.top k hp]; exact h.positive k
    | some p =>
      rw [h.below k p hp]
      exact minLimit_ne (ih _ (hr ▸ hrank k p hp) p rfl) (h.positive k)

omit [DecidableEq κ] in
theorem Net.seen_rfc (h : Net σ cs parent lim base name) (k : κ) : FollowsRfc (seen σ parent lim k) := by
  unfold seen
  split
  · exact h.rfc
  · exact h.rfc.mirrored (h.posLim _) h.gapless

omit [DecidableEq κ] in
theorem Net.mirrors (h : Net σ cs parent lim base name) {k : κ} {m : Nat} {n : Notif}
    (hm : Mirrors (cs k) (seen σ parent lim k m) n) : n = mirrored (lim k) (σ m) := by
  obtain ⟨ds, h1, rfl⟩ := hm
  unfold seen at *
  cases hp : parent k with
  | none =>
    rw [hp] at h1
    rw [mirrored_eq (h.posLim k) (h.rfc.reaches m) (h.rfc.once m) ((h.top k hp).symm ▸ h1)]
  | some p =>
    rw [hp] at h1
    dsimp only at *
    obtain ⟨ds1, a1, a2⟩ := mirrored_spec (h.posLim p) (h.gapless m)
    rw [a2] at h1 ⊢
    have := a1.trans (h.posLim p) (h.positive k) h1
    rw [← h.below k p hp] at this
    rw [mirrored_eq (h.posLim k) (h.rfc.reaches m) (h.rfc.once m) this]

/-! ## One installation -/

/-- The instants of a disk with the notifications of the source that are published there. -/
structure Tagged (ν : Nat → Notif) (c : Config) (name : Str) (i : Nat) (H : List (FS × Nat)) : Prop where
  order : H.Pairwise (fun later earlier => earlier.2 ≤ later.2)
  bound : ∀ x ∈ H, x.2 ≤ i
  shows : ∀ x ∈ H, x.1.leaf (c.notifPath name) = none ∨ Published c name x.1 (ν x.2)
  stays : H.Pairwise (fun later earlier => later.1.leaf (c.notifPath name) = none →
    earlier.1.leaf (c.notifPath name) = none)

/-- The invariant of an installation. -/
def NodeInv (ν : Nat → Notif) (c : Config) (base name : Str) : Nat → FS → Prop :=
  Invariant c base name (MirrorState ν c base) (fun i n => ∃ m ≤ i, Mirrors c (ν m) n)

open Classical in
/-- The instants of a run can be tagged. -/
theorem run_tags {ν μ : Nat → Notif} {c : Config} {i j m0 depth : Nat} {env : Env} {f g : FS}
    {unreached rest : List FS} (hν : FollowsRfc ν) (hl : Layout c base name) (ho : ∀ host, CleanObjects host)
    (hμ : ∀ m n, Mirrors c (ν m) n → n = μ m) (hinv : NodeInv ν c base name i f)
    (hr : FollowingRun ν c base name i j depth env f) (hm0 : m0 ≤ i)
    (h0 : f.leaf (c.notifPath name) = none ∨ Published c name f (μ m0))
    (hcp : (process depth c env (World.start f)).2.crashPoints = unreached ++ g :: rest) :
    ∃ T : List (FS × Nat), T.map Prod.fst = g :: rest ∧
      Tagged μ c name j T ∧ ∀ x ∈ T, m0 ≤ x.2 ∧ (x.1.leaf (c.notifPath name) = none →
        f.leaf (c.notifPath name) = none) := by
  have hc := hinv.conds hl (fun _ => ho _) hr.source
  have hmem : ∀ y ∈ g :: rest, y ∈ (process depth c env (World.start f)).2.crashPoints :=
    fun y hy => by rw [hcp]; exact List.mem_append_right _ hy
  -- as at the start
  let Old : FS → Prop := fun y => y.leaf (c.notifPath name) = none ∨
    ∃ n, Published c name f n ∧ Published c name y n
  have hpub : ∀ y ∈ g :: rest, ¬ Old y → ∃ m, i ≤ m ∧ m ≤ j ∧ Published c name y (μ m) := by
    intro y hy hne
    rcases following_run hν hl (fun _ => ho _) hinv hr (hmem y hy) with h1 | ⟨m, m1, m2, n, t, h1, h2⟩
    · refine absurd ?_ hne
      rcases h0 with h0 | h0
      · exact Or.inl (h1.trans h0)
      · exact Or.inr ⟨_, h0, h0.of_leaf h1⟩
    · exact ⟨m, m1, m2, hμ m n h1 ▸ ⟨t, h2⟩⟩
  have hpair : (g :: rest).Pairwise (fun y x => ¬ Old x → ∃ n, Published c name x n ∧ Published c name y n) := by
    obtain ⟨l0, hlast⟩ := crashPoints_last depth hc
    have key : AnyTwo (fun x y => ¬ Old x → ∃ n, Published c name x n ∧ Published c name y n)
        (process depth c env (World.start f)).2.crashPoints := by
      have old0 : Old f := h0.imp id fun h => ⟨_, h, h⟩
      rcases run_anyTwo (depth := depth) hl hc with h1 | ⟨s, st, m, _, h1⟩
      · refine List.Pairwise.imp_of_mem ?_ h1
        intro y x hy hx k hne
        refine absurd ?_ hne
        have e := k.2.2
        rcases h0 with h0 | h0
        · exact Or.inl (e.trans h0)
        · exact Or.inr ⟨_, h0, h0.of_leaf e⟩
      · refine (h1.withFirst hlast).imp ?_
        rintro y x ⟨k, k'⟩ hne
        rcases k' with rfl | k'
        · exact absurd old0 hne
        rcases k'.notif with e | e
        · refine absurd ?_ hne
          rcases h0 with h0 | h0
          · exact Or.inl (e.trans h0)
          · exact Or.inr ⟨_, h0, h0.of_leaf e⟩
        · refine ⟨_, e, ?_⟩
          rcases k.notif with e' | e'
          · exact Published.of_leaf e e'
          · exact e'
    rw [hcp] at key
    exact (List.pairwise_append.1 key).2.1
  -- the new one
  obtain ⟨m1, hm1, hnew⟩ : ∃ m1, (i ≤ m1 ∧ m1 ≤ j) ∧ ∀ y ∈ g :: rest, ¬ Old y → Published c name y (μ m1) := by
    by_cases hex : ∃ y ∈ g :: rest, ¬ Old y
    · obtain ⟨y, hy, hne⟩ := hex
      obtain ⟨m, a1, a2, a3⟩ := hpub y hy hne
      refine ⟨m, ⟨a1, a2⟩, fun z hz hnz => ?_⟩
      obtain ⟨m', _, _, b3⟩ := hpub z hz hnz
      have hyz : y = z ∨ ∃ n, Published c name y n ∧ Published c name z n := by
        have sym : ∀ {l : List FS}, l.Pairwise (fun y x => ¬ Old x → ∃ n, Published c name x n ∧
            Published c name y n) → ∀ y ∈ l, ∀ z ∈ l, ¬ Old y → ¬ Old z →
            y = z ∨ ∃ n, Published c name y n ∧ Published c name z n := by
          intro l hp
          induction hp with
          | nil => intro y hy; cases hy
          | cons h _ ih =>
            intro y hy z hz hy' hz'
            rcases List.mem_cons.1 hy with hy1 | hy1
            · rcases List.mem_cons.1 hz with hz1 | hz1
              · exact Or.inl (hy1.trans hz1.symm)
              · obtain ⟨n, e1, e2⟩ := h z hz1 hz'
                exact Or.inr ⟨n, hy1 ▸ e2, e1⟩
            · rcases List.mem_cons.1 hz with hz1 | hz1
              · obtain ⟨n, e1, e2⟩ := h y hy1 hy'
                exact Or.inr ⟨n, e1, hz1 ▸ e2⟩
              · exact ih y hy1 z hz1 hy' hz'
        exact sym hpair y hy z hz hne hnz
      rcases hyz with rfl | ⟨n, e1, e2⟩
      · exact a3
      · rw [← e1.unique a3]; exact e2
    · exact ⟨i, ⟨Nat.le_refl _, hr.later⟩, fun y hy hne => absurd ⟨y, hy, hne⟩ hex⟩
  let tag : FS → Nat := fun y => if Old y then m0 else m1
  have hgone : ∀ y ∈ g :: rest, y.leaf (c.notifPath name) = none → f.leaf (c.notifPath name) = none := by
    intro y hy e
    rcases following_run hν hl (fun _ => ho _) hinv hr (hmem y hy) with h1 | ⟨m, m1, m2, n, t, h1, h2⟩
    · exact h1.symm.trans e
    · rw [e] at h2; cases h2
  refine ⟨(g :: rest).map (fun y => (y, tag y)), ?_, ⟨?_, ?_, ?_, ?_⟩, ?_⟩
  · rw [List.map_map]
    exact List.map_id _
  · refine List.pairwise_map.2 (hpair.imp ?_)
    intro y x k
    show tag x ≤ tag y
    dsimp only [tag]
    by_cases hx : Old x
    · rw [if_pos hx]
      split
      · exact Nat.le_refl _
      · exact Nat.le_trans hm0 hm1.1
    · have hy : ¬ Old y := by
        obtain ⟨n, e1, e2⟩ := k hx
        rintro (e | ⟨n', e3, e4⟩)
        · obtain ⟨t, e2⟩ := e2
          rw [e] at e2; cases e2
        · exact hx (Or.inr ⟨n', e3, by rw [e4.unique e2]; exact e1⟩)
      rw [if_neg hx, if_neg hy]
      exact Nat.le_refl _
  · intro x hx
    obtain ⟨y, _, rfl⟩ := List.mem_map.1 hx
    show tag y ≤ j
    dsimp only [tag]
    split
    · exact Nat.le_trans hm0 hr.later
    · exact hm1.2
  · intro x hx
    obtain ⟨y, hy, rfl⟩ := List.mem_map.1 hx
    show y.leaf _ = none ∨ Published c name y (μ (tag y))
    dsimp only [tag]
    by_cases hO : Old y
    · rw [if_pos hO]
      rcases hO with e | ⟨n, e1, e2⟩
      · exact Or.inl e
      · refine Or.inr ?_
        rcases h0 with h0 | h0
        · obtain ⟨t, e1⟩ := e1
          rw [h0] at e1; cases e1
        · rw [← e1.unique h0]; exact e2
    · rw [if_neg hO]
      exact Or.inr (hnew y hy hO)
  · refine List.pairwise_map.2 (hpair.imp_of_mem ?_)
    intro y x hy hx k e
    by_cases hO : Old x
    · rcases hO with e1 | ⟨n, ⟨t, e1⟩, _⟩
      · exact e1
      · rw [hgone y hy e] at e1; cases e1
    · obtain ⟨n, _, t, e2⟩ := k hO
      rw [show y.leaf _ = none from e] at e2; cases e2
  · intro x hx
    obtain ⟨y, hy, rfl⟩ := List.mem_map.1 hx
    refine ⟨?_, hgone y hy⟩
    show m0 ≤ tag y
    dsimp only [tag]
    split
    · exact Nat.le_refl _
    · exact Nat.le_trans hm0 hm1.1

theorem Tagged.extend {ν : Nat → Notif} {c : Config} {name : Str} {i j : Nat} {y : FS × Nat}
    {T B : List (FS × Nat)} (h : Tagged ν c name i (y :: B)) (hT : Tagged ν c name j T) (hij : i ≤ j)
    (hm : ∀ x ∈ T, y.2 ≤ x.2 ∧ (x.1.leaf (c.notifPath name) = none → y.1.leaf (c.notifPath name) = none)) :
    Tagged ν c name j (T ++ B) := by
  refine ⟨List.pairwise_append.2 ⟨hT.order, (List.pairwise_cons.1 h.order).2, fun x hx b hb => ?_⟩, ?_, ?_,
    List.pairwise_append.2 ⟨hT.stays, (List.pairwise_cons.1 h.stays).2, fun x hx b hb e => ?_⟩⟩
  · exact Nat.le_trans ((List.pairwise_cons.1 h.order).1 b hb) (hm x hx).1
  · intro x hx
    rcases List.mem_append.1 hx with hx | hx
    · exact hT.bound x hx
    · exact Nat.le_trans (h.bound x (List.mem_cons_of_mem _ hx)) hij
  · intro x hx
    rcases List.mem_append.1 hx with hx | hx
    · exact hT.shows x hx
    · exact h.shows x (List.mem_cons_of_mem _ hx)
  · exact (List.pairwise_cons.1 h.stays).1 b hb ((hm x hx).2 e)

/-! ## All of them -/

/-- The invariant of a network. -/
structure NetInv (σ : Nat → Notif) (cs : κ → Config) (parent : κ → Option κ) (lim : κ → Option Nat)
    (base name : Str) (idx : κ → Nat) (h : κ → List FS) (last : κ → Nat) (H : κ → List (FS × Nat)) : Prop where
  hist : ∀ k, (H k).map Prod.fst = h k
  tagged : ∀ k, Tagged (fun m => mirrored (lim k) (σ m)) (cs k) name (idx k) (H k)
  nonempty : ∀ k, h k ≠ []
  now : ∀ k f l, h k = f :: l → NodeInv (seen σ parent lim k) (cs k) base name (idx k) f
  read : ∀ k p, parent k = some p → last k < (h p).length
  above : ∀ k p, parent k = some p → ∀ A y B, H p = A ++ y :: B → last k ≤ B.length → idx k ≤ y.2

omit [DecidableEq κ] in
theorem NetInv.head {idx : κ → Nat} {h : κ → List FS} {last : κ → Nat} {H : κ → List (FS × Nat)}
    (hi : NetInv σ cs parent lim base name idx h last H) (k : κ) : ∃ y B, H k = y :: B := by
  cases e : H k with
  | nil =>
    refine absurd ?_ (hi.nonempty k)
    rw [← hi.hist k, e]; rfl
  | cons y B => exact ⟨y, B, rfl⟩

omit [DecidableEq κ] in
theorem NetInv.ahead {idx : κ → Nat} {h : κ → List FS} {last : κ → Nat} {H : κ → List (FS × Nat)}
    (hi : NetInv σ cs parent lim base name idx h last H) {k p : κ} (hp : parent k = some p) {y : FS × Nat}
    {B : List (FS × Nat)} (hy : H p = y :: B) : idx k ≤ y.2 := by
  refine hi.above k p hp [] y B hy ?_
  have := hi.read k p hp
  rw [← hi.hist p, hy] at this
  simp only [List.map_cons, List.length_cons, List.length_map] at this
  omega

omit [DecidableEq κ] in
theorem NetInv.root {idx : κ → Nat} {h : κ → List FS} {last : κ → Nat} {H : κ → List (FS × Nat)}
    (hi : NetInv σ cs parent lim base name idx h last H) {k r : κ} (hr : RootOf parent k r) :
    idx k ≤ idx r := by
  induction hr with
  | here _ => exact Nat.le_refl _
  | @up _ p _ h1 _ ih =>
    obtain ⟨y, B, e⟩ := hi.head p
    exact Nat.le_trans (Nat.le_trans (hi.ahead h1 e) ((hi.tagged p).bound y (e ▸ List.mem_cons_self))) ih

theorem put_same {α : Type} (h : κ → α) (k : κ) (a : α) : put h k a k = a := if_pos rfl

theorem put_other {α : Type} (h : κ → α) {k l : κ} (a : α) (e : l ≠ k) : put h k a l = h l := if_neg e

theorem put_self {α : Type} (h : κ → α) (k : κ) : put h k (h k) = h := by
  funext l
  by_cases e : l = k
  · rw [e, put_same]
  · rw [put_other _ _ e]

/-- From the instant on before which there are `pos` others, no number is less than `m`. -/
def From (L : List (FS × Nat)) (pos m : Nat) : Prop :=
  pos < L.length ∧ ∀ A y B, L = A ++ y :: B → pos ≤ B.length → m ≤ y.2

theorem From.grow {y : FS × Nat} {B T : List (FS × Nat)} {pos m : Nat} (h : From (y :: B) pos m)
    (hT : T ≠ []) (hy : ∀ x ∈ T, y.2 ≤ x.2) : From (T ++ B) pos m := by
  have hlen := h.1
  rw [List.length_cons] at hlen
  have hTl := List.length_pos_iff.2 hT
  refine ⟨by rw [List.length_append]; omega, fun A z C hz hpos => ?_⟩
  rcases List.append_eq_append_iff.1 hz with ⟨as, a1, a2⟩ | ⟨bs, a1, a2⟩
  · exact h.2 (y :: as) z C (by rw [a2]; rfl) hpos
  · cases bs with
    | nil =>
      rw [List.nil_append] at a2
      exact h.2 [y] z C (by rw [← a2]; rfl) hpos
    | cons b bs =>
      rw [List.cons_append] at a2
      injection a2 with a2 _
      refine Nat.le_trans (h.2 [] y B rfl (by omega)) (hy z ?_)
      rw [a1, a2]; simp

/-- The numbers have not gone down. -/
def OnTop (H H' : κ → List (FS × Nat)) : Prop := ∀ k pos m, From (H k) pos m → From (H' k) pos m

theorem NetInv.step {idx : κ → Nat} {h : κ → List FS} {last : κ → Nat} {H : κ → List (FS × Nat)}
    (hn : Net σ cs parent lim base name) (ho : ∀ host, CleanObjects host)
    (hi : NetInv σ cs parent lim base name idx h last H) {k : κ} {f g : FS} {l unreached rest : List FS}
    {j depth lk : Nat} {env : Env} (hf : h k = f :: l)
    (hr : FollowingRun (seen σ parent lim k) (cs k) base name (idx k) j depth env f)
    (hj : ∀ p, parent k = some p → lk < (h p).length ∧
      ∀ A y B, H p = A ++ y :: B → lk ≤ B.length → j ≤ y.2)
    (hcp : (process depth (cs k) env (World.start f)).2.crashPoints = unreached ++ g :: rest) :
    ∃ H', NetInv σ cs parent lim base name (put idx k j) (put h k (g :: (rest ++ l))) (put last k lk) H' ∧
      OnTop H H' := by
  obtain ⟨y, B, e⟩ := hi.head k
  have e1 : y.1 = f ∧ B.map Prod.fst = l := by
    have := hi.hist k
    rw [hf, e, List.map_cons] at this
    injection this with a b
    exact ⟨a, b⟩
  have hy : y ∈ H k := e ▸ List.mem_cons_self
  have hnow := hi.now k f l hf
  obtain ⟨T, t1, t2, t3⟩ := run_tags (μ := fun m => mirrored (lim k) (σ m)) (hn.seen_rfc k) (hn.layout k) ho
    (fun m n hm => hn.mirrors hm) hnow hr ((hi.tagged k).bound y hy) (e1.1 ▸ (hi.tagged k).shows y hy) hcp
  have hg : g ∈ (process depth (cs k) env (World.start f)).2.crashPoints := by rw [hcp]; simp
  have hT : T ≠ [] := fun a => by rw [a] at t1; cases t1
  refine ⟨put H k (T ++ B), ⟨fun l' => ?_, fun l' => ?_, fun l' => ?_, fun l' f' r' hl' => ?_,
    fun q p hp => ?_, fun q p hp => ?_⟩, fun l' pos m hF => ?_⟩
  · by_cases hl : l' = k
    · subst hl
      rw [put_same, put_same, List.map_append, t1, e1.2]; rfl
    · rw [put_other _ _ hl, put_other _ _ hl]; exact hi.hist l'
  · by_cases hl : l' = k
    · subst hl
      rw [put_same, put_same]
      exact Tagged.extend (e ▸ hi.tagged l') t2 hr.later (fun x hx => e1.1 ▸ t3 x hx)
    · rw [put_other _ _ hl, put_other _ _ hl]; exact hi.tagged l'
  · by_cases hl : l' = k
    · subst hl
      rw [put_same]; exact List.cons_ne_nil _ _
    · rw [put_other _ _ hl]; exact hi.nonempty l'
  · by_cases hl : l' = k
    · subst hl
      rw [put_same] at hl' ⊢
      injection hl' with a _
      exact a ▸ hnow.run (hn.layout l') (fun _ => ho _) (following_inductive (hn.seen_rfc l') (hn.layout l')) hr hg
    · rw [put_other _ _ hl] at hl' ⊢; exact hi.now l' f' r' hl'
  · by_cases hq : q = k
    · subst hq
      have hpq : p ≠ q := fun a => hn.irrefl q (a ▸ hp)
      rw [put_same, put_other _ _ hpq]
      exact (hj p hp).1
    · rw [put_other _ _ hq]
      have hrd := hi.read q p hp
      by_cases hpk : p = k
      · subst hpk
        rw [put_same]
        rw [hf] at hrd
        simp only [List.length_cons, List.length_append] at hrd ⊢
        omega
      · rw [put_other _ _ hpk]; exact hrd
  · by_cases hq : q = k
    · subst hq
      have hpq : p ≠ q := fun a => hn.irrefl q (a ▸ hp)
      rw [put_same, put_same, put_other _ _ hpq]
      exact (hj p hp).2
    · rw [put_other _ _ hq, put_other _ _ hq]
      by_cases hpk : p = k
      · subst hpk
        rw [put_same]
        refine (From.grow (y := y) (B := B) ⟨?_, e ▸ hi.above q p hp⟩ hT (fun x hx => (t3 x hx).1)).2
        have := hi.read q p hp
        rwa [← hi.hist p, e, List.length_map] at this
      · rw [put_other _ _ hpk]
        exact hi.above q p hp
  · by_cases hl : l' = k
    · subst hl
      rw [put_same]
      rw [e] at hF
      exact hF.grow hT (fun x hx => (t3 x hx).1)
    · rw [put_other _ _ hl]
      exact hF

/-- What one with a parent is offered is something of the source, as far as the parent shows it. -/
theorem NetInv.child {idx : κ → Nat} {h : κ → List FS} {last : κ → Nat} {H : κ → List (FS × Nat)}
    (hn : Net σ cs parent lim base name) (hi : NetInv σ cs parent lim base name idx h last H) {k p : κ}
    (hp : parent k = some p) {x f : FS} {newer older : List FS} (hx : h p = newer ++ x :: older)
    (hlast : last k ≤ older.length) {depth : Nat} {env : Env}
    (hoff : ∀ etag n, Offers (cs k) env f etag n → Published (cs p) name x n) :
    ∃ j, FollowingRun (seen σ parent lim k) (cs k) base name (idx k) j depth env f ∧
      older.length < (h p).length ∧ (∀ A y B, H p = A ++ y :: B → older.length ≤ B.length → j ≤ y.2) ∧
      ∀ n, Published (cs p) name x n → n = seen σ parent lim k j := by
  have hlen : older.length < (h p).length := by
    rw [hx]; simp only [List.length_append, List.length_cons]; omega
  have hH := hi.hist p
  rw [hx, List.map_eq_append_iff] at hH
  obtain ⟨A, C, c1, c2, c3⟩ := hH
  rw [List.map_eq_cons_iff] at c3
  obtain ⟨y, B, rfl, c4, c5⟩ := c3
  have hyB : B.length = older.length := by rw [← c5, List.length_map]
  have hle := hi.above k p hp A y B c1 (hyB ▸ hlast)
  have hmem : y ∈ H p := by rw [c1]; simp
  have hseen : ∀ m, seen σ parent lim k m = mirrored (lim p) (σ m) := fun m => by unfold seen; rw [hp]
  rcases (hi.tagged p).shows y hmem with h1 | h1
  · rw [c4] at h1
    have hnone : ∀ n, ¬ Published (cs p) name x n := by
      rintro n ⟨t, ht⟩
      rw [h1] at ht; cases ht
    exact ⟨idx k, ⟨fun etag n ho => absurd (hoff etag n ho) (hnone n), Nat.le_refl _,
      fun etag n ho => absurd (hoff etag n ho) (hnone n)⟩, hlen,
      fun A' z C hz hl => hi.above k p hp A' z C hz (Nat.le_trans hlast hl), fun n h => absurd h (hnone n)⟩
  · rw [c4] at h1
    have key : ∀ n, Published (cs p) name x n → n = mirrored (lim p) (σ y.2) := fun n h => h.unique h1
    refine ⟨y.2, ⟨fun etag n ho => ?_, hle, fun etag n ho => ⟨y.2, hle, Nat.le_refl _, ?_⟩⟩, hlen, ?_, ?_⟩
    · rw [key n (hoff etag n ho)]
      exact mirrored_good (hn.good _)
    · rw [key n (hoff etag n ho), hseen]
    · intro A' z C hz hl
      have hord := (hi.tagged p).order
      rw [c1] at hz
      rcases List.append_eq_append_iff.1 hz with ⟨as, a1, a2⟩ | ⟨bs, a1, a2⟩
      · cases as with
        | nil =>
          rw [List.nil_append] at a2
          injection a2 with a2 _
          rw [a2]; exact Nat.le_refl _
        | cons b as =>
          rw [List.cons_append] at a2
          injection a2 with _ a2
          have := congrArg List.length a2
          simp only [List.length_append, List.length_cons] at this
          omega
      · cases bs with
        | nil =>
          rw [List.nil_append] at a2
          injection a2 with a2 _
          rw [a2]; exact Nat.le_refl _
        | cons b bs =>
          rw [List.cons_append] at a2
          injection a2 with a2 a3
          subst a2
          have hz' : H p = A' ++ z :: (bs ++ y :: B) := by rw [c1, a1]; simp
          rw [hz'] at hord
          have := (List.pairwise_append.1 hord).2.1
          exact (List.pairwise_cons.1 this).1 y (by simp)
    · intro n h
      rw [key n h, hseen]

theorem NetStep.inv {i i' : κ → Nat} {h h' : κ → List FS} {last last' : κ → Nat}
    (hn : Net σ cs parent lim base name) (ho : ∀ host, CleanObjects host) {idx : κ → Nat}
    {H : κ → List (FS × Nat)} (e : ∀ k, parent k = none → idx k = i k)
    (hi : NetInv σ cs parent lim base name idx h last H)
    (hs : NetStep σ cs parent base name i h last i' h' last') :
    ∃ idx' H', (∀ k, parent k = none → idx' k = i' k) ∧ NetInv σ cs parent lim base name idx' h' last' H' ∧
      OnTop H H' := by
  cases hs with
  | @fromSource k j depth env f g l unreached rest hp hf hr hcp =>
    rw [← e k hp] at hr
    obtain ⟨H', h1, h2⟩ := hi.step hn ho (j := j) (lk := last k) hf (by unfold seen; rw [hp]; exact hr)
      (fun p hq => by rw [hp] at hq; cases hq) hcp
    rw [put_self] at h1
    refine ⟨_, H', fun l hl => ?_, h1, h2⟩
    by_cases hlk : l = k
    · rw [hlk, put_same, put_same]
    · rw [put_other _ _ hlk, put_other _ _ hlk]; exact e l hl
  | @fromParent k p depth env f g x l unreached rest newer older hp hf hx hlast hoff hcp =>
    obtain ⟨j, a1, a2, a3, _⟩ := hi.child hn hp hx hlast (depth := depth) hoff
    obtain ⟨H', h1, h2⟩ := hi.step hn ho hf a1 (fun q hq => by rw [hp] at hq; cases hq; exact ⟨a2, a3⟩) hcp
    refine ⟨_, H', fun l hl => ?_, h1, h2⟩
    have hlk : l ≠ k := fun a => by rw [a, hp] at hl; cases hl
    rw [put_other _ _ hlk]; exact e l hl

theorem Network.inv {i : κ → Nat} {h : κ → List FS} {last : κ → Nat} (hn : Net σ cs parent lim base name)
    (ho : ∀ host, CleanObjects host) (hw : Network σ cs parent base name i h last) :
    ∃ idx H, (∀ k, parent k = none → idx k = i k) ∧ NetInv σ cs parent lim base name idx h last H := by
  induction hw with
  | @start d hd =>
    refine ⟨fun _ => 0, fun k => [(d k, 0)], fun _ _ => rfl, fun _ => rfl, fun k => ⟨?_, ?_, ?_, ?_⟩,
      fun _ => List.cons_ne_nil _ _, fun k f l e => ?_, fun _ _ _ => Nat.one_pos, fun _ _ _ _ _ _ _ _ => Nat.zero_le _⟩
    · exact List.pairwise_singleton _ _
    · intro x hx
      rw [List.mem_singleton.1 hx]; exact Nat.le_refl _
    · intro x hx
      rw [List.mem_singleton.1 hx]; exact Or.inl (hd k).noNotification
    · exact List.pairwise_singleton _ _
    · injection e with e _
      exact e ▸ .start (hd k)
  | step _ hs ih =>
    obtain ⟨idx, H, e, hi⟩ := ih
    obtain ⟨idx', H', e', hi', _⟩ := hs.inv hn ho e hi
    exact ⟨idx', H', e', hi'⟩

/-- One that completes has what its parent had. -/
theorem NetInv.done {idx : κ → Nat} {h : κ → List FS} {last : κ → Nat} {H : κ → List (FS × Nat)}
    (hn : Net σ cs parent lim base name) (ho : ∀ host, CleanObjects host)
    (hi : NetInv σ cs parent lim base name idx h last H) {k p : κ}
    (hp : parent k = some p) {x f : FS} {l newer older : List FS} (hf : h k = f :: l)
    (hx : h p = newer ++ x :: older) (hlast : last k ≤ older.length) {depth : Nat} {env : Env}
    (hoff : ∀ etag n, Offers (cs k) env f etag n → Published (cs p) name x n) {w' : World} {n : Notif}
    (hpub : Published (cs p) name x n)
    (hok : process depth (cs k) env (World.start f) = (.ok (), w')) (hch : w'.crashPoints ≠ [f]) :
    ∃ n', Mirrors (cs k) n n' ∧ Published (cs k) name w'.cur n' := by
  obtain ⟨j, a1, _, _, a4⟩ := hi.child hn hp hx hlast (depth := depth) hoff
  have hr : FollowingRun (seen σ parent lim k) (cs k) base name j j depth env f :=
    ⟨a1.source, Nat.le_refl _, fun etag n ho => ⟨j, Nat.le_refl _, Nat.le_refl _, a4 n (hoff etag n ho)⟩⟩
  obtain ⟨n', t, b1, b2⟩ := following_done (hn.seen_rfc k) (hn.layout k) (fun _ => ho _)
    (mirrored_later a1.later (hi.now k f l hf)) hr hok hch
  rw [← a4 n hpub] at b1
  exact ⟨n', b1, t, b2⟩

end

end KSync
