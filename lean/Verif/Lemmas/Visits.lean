import Verif.Spec.Visits
import Verif.Lemmas.Network
import Verif.Lemmas.Polling

/-! # Relying parties that use the mirrors of a network (C90) -/

set_option linter.unusedSectionVars false
set_option linter.unusedVariables false

namespace KSync

variable [Ext] {κ : Type} [DecidableEq κ] {σ : Nat → Notif} {cs : κ → Config} {parent : κ → Option κ}
  {lim : κ → Option Nat} {base name : Str}

/-- Whoever gets what is published at an instant gets the version with the number of the instant. -/
theorem Tagged.gets {content : Uuid → Nat → Objects} {c : Config} {l : Option Nat} {i : Nat}
    {H : List (FS × Nat)} (h : Tagged (fun m => mirrored l (σ m)) c name i H) (hl : l ≠ some 0)
    (hg : ∀ m, Gapless (σ m).deltas) (ht : ∀ m, Truthful content (σ m)) {y : FS × Nat} (hy : y ∈ H) {n : Notif}
    (hn : Published c name y.1 n) {get : Str → Option Bytes} {p : Option Party} {q : Party}
    (hp : ∀ p', p = some p' → p'.Genuine content) (hq : Party.Gets get n p q) : q.Has content σ y.2 := by
  rcases h.shows y hy with a | a
  · obtain ⟨t, hn⟩ := hn
    rw [a] at hn; cases hn
  · obtain ⟨ds, a1, a2⟩ := mirrored_spec hl (hg y.2)
    exact hq.has (c := { c with rrdpMaxDeltas := l }) (ht y.2) ⟨ds, a1, (hn.unique a).trans a2⟩ hp

/-- From an instant on, no number is less than that of the instant. -/
theorem Tagged.from {ν : Nat → Notif} {c : Config} {i : Nat} {A B : List (FS × Nat)} {y : FS × Nat}
    (h : Tagged ν c name i (A ++ y :: B)) : From (A ++ y :: B) B.length y.2 := by
  refine ⟨by simp; omega, fun A' z C hz hl => ?_⟩
  have hord := h.order
  rcases List.append_eq_append_iff.1 hz with ⟨as, a1, a2⟩ | ⟨bs, a1, a2⟩
  · cases as with
    | nil =>
      rw [List.nil_append] at a2
      injection a2 with a2 _
      rw [a2]; exact Nat.le_refl _
    | cons b as =>
      rw [List.cons_append] at a2
      injection a2 with _ a2
      have := congrArg List.length a2
      simp only [List.length_append, List.length_cons] at this
      omega
  · cases bs with
    | nil =>
      rw [List.nil_append] at a2
      injection a2 with a2 _
      rw [a2]; exact Nat.le_refl _
    | cons b bs =>
      rw [List.cons_append] at a2
      injection a2 with a2 a3
      subst a2
      have hz' : A ++ y :: B = A' ++ z :: (bs ++ y :: B) := by rw [a1]; simp
      rw [hz'] at hord
      have := (List.pairwise_append.1 hord).2.1
      exact (List.pairwise_cons.1 this).1 y (by simp)

theorem Visiting.inv {content : Uuid → Nat → Objects} {i : κ → Nat} {h : κ → List FS} {last : κ → Nat} {k : κ}
    {pos : Nat} {ps : List Party} (hn : Net σ cs parent lim base name) (ho : ∀ host, CleanObjects host)
    (ht : ∀ m, Truthful content (σ m)) (hv : Visiting σ cs parent base name i h last k pos ps) :
    ∃ idx H, (∀ k, parent k = none → idx k = i k) ∧ NetInv σ cs parent lim base name idx h last H ∧
      ∃ m, Party.InOrder content σ m ps ∧ From (H k) pos m := by
  induction hv with
  | @start i h last k hw =>
    obtain ⟨idx, H, e, hi⟩ := hw.inv hn ho
    refine ⟨idx, H, e, hi, 0, .none, ?_, fun _ _ _ _ _ => Nat.zero_le _⟩
    obtain ⟨y, B, hy⟩ := hi.head k
    rw [hy]; exact Nat.succ_pos _
  | goes _ hs ih =>
    obtain ⟨idx, H, e, hi, m, h1, h2⟩ := ih
    obtain ⟨idx', H', e', hi', htop⟩ := hs.inv hn ho e hi
    exact ⟨idx', H', e', hi', m, h1, htop _ _ _ h2⟩
  | @poll i h last k pos ps f newer older n get q _ hf hpos hp hq ih =>
    obtain ⟨idx, H, e, hi, m, h1, h2⟩ := ih
    have hH := hi.hist k
    rw [hf, List.map_eq_append_iff] at hH
    obtain ⟨A, C, c1, c2, c3⟩ := hH
    rw [List.map_eq_cons_iff] at c3
    obtain ⟨y, B, rfl, c4, c5⟩ := c3
    have hyB : B.length = older.length := by rw [← c5, List.length_map]
    have hq' := (hi.tagged k).gets (hn.posLim k) hn.gapless ht (y := y) (by rw [c1]; simp) (c4.symm ▸ hp)
      (fun p' hp' => by
        obtain ⟨_, _, hk⟩ := h1.each p' (List.mem_of_head? hp')
        exact hk.genuine) hq
    refine ⟨idx, H, e, hi, y.2, .one (Nat.le_refl _) hq' (h1.later (h2.2 A y B c1 (hyB ▸ hpos))), ?_⟩
    have := hi.tagged k
    rw [c1] at this ⊢
    exact hyB ▸ this.from
  | @up i h last k p pos ps _ hp ih =>
    obtain ⟨idx, H, e, hi, m, h1, h2⟩ := ih
    obtain ⟨z, C, hz⟩ := hi.head k
    have hm : m ≤ idx k := by
      refine Nat.le_trans (h2.2 [] z C hz ?_) ((hi.tagged k).bound z (hz ▸ List.mem_cons_self))
      have := h2.1
      rw [hz, List.length_cons] at this
      omega
    refine ⟨idx, H, e, hi, m, h1, ?_, fun A y B hy hl => Nat.le_trans hm (hi.above k p hp A y B hy hl)⟩
    have := hi.read k p hp
    rwa [← hi.hist p, List.length_map] at this

end KSync
