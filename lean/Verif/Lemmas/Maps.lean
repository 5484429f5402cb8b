import Verif.Model.Types

/-! # Hash maps as association lists -/

set_option linter.unusedSectionVars false

namespace KSync

variable {κ ν : Type} [DecidableEq κ]

/-- Each key occurs once. -/
def Keys (m : List (κ × ν)) : Prop := (m.map (·.1)).Nodup

theorem mapGet_nil (k : κ) : mapGet ([] : List (κ × ν)) k = none := rfl

theorem mapGet_cons (e : κ × ν) (m : List (κ × ν)) (k : κ) :
    mapGet (e :: m) k = if k = e.1 then some e.2 else mapGet m k := by
  unfold mapGet
  obtain ⟨a, b⟩ := e
  rw [List.lookup_cons]
  by_cases h : k = a
  · rw [if_pos h]; simp [h]
  · rw [if_neg h]
    have : (k == a) = false := by simpa using h
    rw [this]

theorem mapGet_erase (m : List (κ × ν)) (k k' : κ) :
    mapGet (mapErase m k) k' = if k' = k then none else mapGet m k' := by
  induction m with
  | nil => simp [mapErase, mapGet_nil]
  | cons e m ih =>
    unfold mapErase at ih ⊢
    rw [List.filter_cons]
    by_cases h : e.1 = k
    · rw [if_neg (by simp [h]), ih, mapGet_cons]
      by_cases h' : k' = k
      · rw [if_pos h', if_pos h']
      · rw [if_neg h', if_neg h', if_neg (by rw [h]; exact h')]
    · rw [if_pos (by simp [h]), mapGet_cons, mapGet_cons, ih]
      by_cases h' : k' = e.1
      · rw [if_pos h', if_pos h', if_neg (by rw [h']; exact h)]
      · rw [if_neg h', if_neg h']

theorem mapGet_insert (m : List (κ × ν)) (k k' : κ) (v : ν) :
    mapGet (mapInsert m k v) k' = if k' = k then some v else mapGet m k' := by
  show mapGet ((k, v) :: mapErase m k) k' = _
  rw [mapGet_cons, mapGet_erase]
  by_cases h : k' = k
  · rw [if_pos h, if_pos h]
  · rw [if_neg h, if_neg h, if_neg h]

theorem mem_of_mapGet {m : List (κ × ν)} {k : κ} {v : ν} (h : mapGet m k = some v) :
    (k, v) ∈ m := by
  induction m with
  | nil => cases h
  | cons e m ih =>
    rw [mapGet_cons] at h
    by_cases hk : k = e.1
    · rw [if_pos hk] at h
      cases h; subst hk
      exact List.mem_cons_self ..
    · rw [if_neg hk] at h
      exact List.mem_cons_of_mem _ (ih h)

theorem mapGet_none {m : List (κ × ν)} {k : κ} : mapGet m k = none ↔ k ∉ m.map (·.1) := by
  induction m with
  | nil => simp [mapGet_nil]
  | cons e m ih =>
    rw [mapGet_cons]
    by_cases hk : k = e.1
    · rw [if_pos hk]; simp [hk]
    · rw [if_neg hk, ih]; simp [hk]

theorem Keys.mapGet {m : List (κ × ν)} (h : Keys m) {k : κ} {v : ν} :
    mapGet m k = some v ↔ (k, v) ∈ m := by
  refine ⟨mem_of_mapGet, fun hm => ?_⟩
  induction m with
  | nil => cases hm
  | cons e m ih =>
    have hn := List.nodup_cons.1 (show ((e.1 :: m.map (·.1)) : List κ).Nodup from h)
    rw [mapGet_cons]
    rcases List.mem_cons.1 hm with rfl | hm
    · rw [if_pos rfl]
    · have : k ∈ m.map (·.1) := List.mem_map.2 ⟨_, hm, rfl⟩
      rw [if_neg (fun he : k = e.1 => hn.1 (he ▸ this))]
      exact ih hn.2 hm

theorem Keys.erase {m : List (κ × ν)} (h : Keys m) (k : κ) : Keys (mapErase m k) := by
  unfold Keys mapErase
  exact h.sublist (List.filter_sublist.map _)

theorem Keys.insert {m : List (κ × ν)} (h : Keys m) (k : κ) (v : ν) : Keys (mapInsert m k v) := by
  show (k :: (mapErase m k).map (·.1)).Nodup
  refine List.nodup_cons.2 ⟨fun hm => ?_, h.erase k⟩
  have := mapGet_erase m k k
  rw [if_pos rfl] at this
  exact mapGet_none.1 this hm

theorem keys_nil : Keys ([] : List (κ × ν)) := List.nodup_nil

theorem keys_foldl {α : Type} (f : List (κ × ν) → α → List (κ × ν))
    (hf : ∀ m a, Keys m → Keys (f m a)) (l : List α) (m : List (κ × ν)) (h : Keys m) :
    Keys (l.foldl f m) := by
  induction l generalizing m with
  | nil => exact h
  | cons a l ih => exact ih _ (hf m a h)

theorem keys_ofList (l : List (κ × ν)) : Keys (mapOfList l) :=
  keys_foldl _ (fun _ _ h => h.insert _ _) l _ keys_nil

theorem mapGet_foldl_insert (l m : List (κ × ν)) (k : κ) :
    mapGet (l.foldl (fun m e => mapInsert m e.1 e.2) m) k =
      (mapGet l.reverse k).or (mapGet m k) := by
  induction l generalizing m with
  | nil => rfl
  | cons e l ih =>
    rw [List.foldl_cons, ih, mapGet_insert, List.reverse_cons]
    have happ : ∀ a b : List (κ × ν), mapGet (a ++ b) k = (mapGet a k).or (mapGet b k) := by
      intro a b
      induction a with
      | nil => rfl
      | cons x a ih =>
        rw [List.cons_append, mapGet_cons, mapGet_cons]
        by_cases h : k = x.1
        · rw [if_pos h, if_pos h]; rfl
        · rw [if_neg h, if_neg h, ih]
    rw [happ, Option.or_assoc]
    congr 1
    rw [mapGet_cons]
    by_cases h : k = e.1
    · rw [if_pos h, if_pos h]; rfl
    · rw [if_neg h, if_neg h, mapGet_nil]; rfl

/-- The last entry with the key wins. -/
theorem mapGet_ofList (l : List (κ × ν)) (k : κ) : mapGet (mapOfList l) k = mapGet l.reverse k := by
  unfold mapOfList
  rw [mapGet_foldl_insert, mapGet_nil, Option.or_none]

theorem mem_mapOfList {l : List (κ × ν)} {e : κ × ν} (h : e ∈ mapOfList l) : e ∈ l := by
  have := (keys_ofList l).mapGet.2 (show (e.1, e.2) ∈ mapOfList l from h)
  rw [mapGet_ofList] at this
  exact List.mem_reverse.1 (mem_of_mapGet this)

end KSync
