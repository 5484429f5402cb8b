import Verif.Model.Basic

/-! # Facts about sorting -/

namespace KSync

variable {α : Type} (k : α → Nat)

theorem insertBy_perm (a : α) (l : List α) : (insertBy k a l).Perm (a :: l) := by
  induction l with
  | nil => exact List.Perm.refl _
  | cons b l ih =>
    unfold insertBy
    split
    · exact List.Perm.refl _
    · exact (List.Perm.cons b ih).trans (List.Perm.swap a b l)

theorem sortBy_perm (l : List α) : (sortBy k l).Perm l := by
  induction l with
  | nil => exact List.Perm.refl _
  | cons a l ih => exact (insertBy_perm k a _).trans (List.Perm.cons a ih)

@[simp] theorem mem_sortBy {k : α → Nat} {a : α} {l : List α} : a ∈ sortBy k l ↔ a ∈ l :=
  (sortBy_perm k l).mem_iff

@[simp] theorem length_sortBy (l : List α) : (sortBy k l).length = l.length :=
  (sortBy_perm k l).length_eq

theorem insertBy_sorted (a : α) {l : List α} (h : l.Pairwise (fun x y => k x ≤ k y)) :
    (insertBy k a l).Pairwise (fun x y => k x ≤ k y) := by
  induction l with
  | nil => simp [insertBy]
  | cons b l ih =>
    unfold insertBy
    rw [List.pairwise_cons] at h
    split
    · rename_i hab
      refine List.pairwise_cons.2 ⟨fun x hx => ?_, List.pairwise_cons.2 h⟩
      rcases List.mem_cons.1 hx with rfl | hx
      · exact hab
      · exact Nat.le_trans hab (h.1 x hx)
    · rename_i hab
      refine List.pairwise_cons.2 ⟨fun x hx => ?_, ih h.2⟩
      rcases List.mem_cons.1 ((insertBy_perm k a l).mem_iff.1 hx) with rfl | hx
      · omega
      · exact h.1 x hx

theorem sortBy_sorted (l : List α) : (sortBy k l).Pairwise (fun x y => k x ≤ k y) := by
  induction l with
  | nil => simp [sortBy]
  | cons a l ih => exact insertBy_sorted k a ih

theorem insertBy_of_le (a : α) {l : List α} (h : ∀ b ∈ l, k a ≤ k b) :
    insertBy k a l = a :: l := by
  cases l with
  | nil => rfl
  | cons b l => unfold insertBy; rw [if_pos (h b (by simp))]

/-- A sorted list is left as it is. -/
theorem sortBy_of_sorted {l : List α} (h : l.Pairwise (fun x y => k x ≤ k y)) :
    sortBy k l = l := by
  induction l with
  | nil => rfl
  | cons a l ih =>
    rw [List.pairwise_cons] at h
    unfold sortBy
    rw [ih h.2]
    exact insertBy_of_le k a h.1

/-- Two strictly sorted lists with the same elements are equal. -/
theorem eq_of_perm_of_sorted {l l' : List α} (hp : l.Perm l')
    (h : l.Pairwise (fun x y => k x < k y)) (h' : l'.Pairwise (fun x y => k x < k y)) :
    l = l' :=
  hp.eq_of_pairwise (fun a b _ _ h1 h2 => by omega) h h'

end KSync
