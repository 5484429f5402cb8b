import Verif.Spec.Validation
import Verif.Lemmas.Maps
import Verif.Lemmas.Paths

/-! # The vocabulary for the validator in terms of the model's functions -/

set_option linter.unusedSectionVars false

namespace KSync

variable [Ext]

theorem caInfo_of {c : ResCert} {i : CaInfo} : CaInfo.ofCert c = some i ↔ i.Of c := by
  constructor
  · intro h
    unfold CaInfo.ofCert at h
    split at h
    · cases h
    · rename_i ca h1
      split at h
      · cases h
      · rename_i mft h2
        cases h
        exact ⟨h1, h2, rfl, rfl⟩
  · intro h
    unfold CaInfo.ofCert
    rw [h.files, h.manifest]
    dsimp only
    rw [h.rrdp, h.rest]

theorem caInfo_none {c : ResCert} (h : CaInfo.ofCert c = none) : c.siaCa = none ∨ c.siaMft = none := by
  unfold CaInfo.ofCert at h
  split at h
  · rename_i h1; exact .inl h1
  · split at h
    · rename_i h2; exact .inr h2
    · cases h

theorem CaInfo.Of.unique {c : ResCert} {i j : CaInfo} (h : i.Of c) (h' : j.Of c) : i = j := by
  have := (caInfo_of.2 h).symm.trans (caInfo_of.2 h')
  exact Option.some.inj this

theorem extension_iff {s e : Str} (he : e ≠ []) : extension s = e ↔ HasExtension s e := by
  have split : ∀ l : Str, '.' ∈ l → ∃ t, l = l.takeWhile (fun c => decide (c ≠ '.')) ++ '.' :: t := by
    intro l
    induction l with
    | nil => intro h; cases h
    | cons a l ih =>
      intro h
      by_cases ha : a = '.'
      · subst ha; exact ⟨l, by simp⟩
      · obtain ⟨t, ht⟩ := ih ((List.mem_cons.1 h).resolve_left (fun h => ha h.symm))
        refine ⟨t, ?_⟩
        rw [List.takeWhile_cons_of_pos (by simpa using ha), List.cons_append, ← ht]
  unfold extension
  constructor
  · intro h
    by_cases hd : '.' ∈ s
    · rw [if_pos hd] at h
      obtain ⟨t, ht⟩ := split s.reverse (List.mem_reverse.2 hd)
      refine ⟨fun hm => ?_, t.reverse, ?_⟩
      · rw [← h, List.mem_reverse] at hm
        have := List.all_eq_true.1 (List.all_takeWhile (l := s.reverse)
          (p := fun c => decide (c ≠ '.'))) _ hm
        simp at this
      · have h2 := congrArg List.reverse ht
        rw [List.reverse_reverse, List.reverse_append, List.reverse_cons, h] at h2
        rw [h2]
        simp
    · rw [if_neg hd] at h
      exact absurd h.symm he
  · rintro ⟨h1, stem, rfl⟩
    rw [if_pos (by simp)]
    rw [List.reverse_append, List.reverse_cons, List.append_assoc]
    rw [List.takeWhile_append_of_pos (by
      intro a ha
      simp only [decide_eq_true_eq]
      rintro rfl
      exact h1 (List.mem_reverse.1 ha))]
    simp

theorem HasExtension.unique {s e e' : Str} (h : HasExtension s e) (h' : HasExtension s e') :
    e = e' := by
  by_cases he : e = []
  · by_cases he' : e' = []
    · rw [he, he']
    · have h2 := (extension_iff he').2 h'
      obtain ⟨_, stem, hs⟩ := h
      subst he
      unfold extension at h2
      rw [if_pos (by rw [hs]; simp)] at h2
      rw [← h2, hs]
      simp
  · by_cases he' : e' = []
    · have h2 := (extension_iff he).2 h
      obtain ⟨_, stem, hs⟩ := h'
      subst he'
      unfold extension at h2
      rw [if_pos (by rw [hs]; simp)] at h2
      rw [← h2, hs]
      simp
    · exact ((extension_iff he).2 h).symm.trans ((extension_iff he').2 h')

theorem make_states (uri : Str) (p : RoaPayload) : (ValidatedRoa.make uri p).States uri p := by
  refine ⟨rfl, ?_, ?_, ?_⟩
  · intro v hv
    rcases List.mem_append.1 hv with h | h
    · obtain ⟨x, _, rfl⟩ := List.mem_map.1 h; rfl
    · obtain ⟨x, _, rfl⟩ := List.mem_map.1 h; rfl
  · simp [ValidatedRoa.make, List.filter_append, List.filter_map, Function.comp_def]
    rw [List.filter_eq_self.2 (by simp), List.filter_eq_nil_iff.2 (by simp), List.append_nil]
  · simp [ValidatedRoa.make, List.filter_append, List.filter_map, Function.comp_def]
    rw [List.filter_eq_nil_iff.2 (by simp), List.filter_eq_self.2 (by simp), List.nil_append]

theorem Fetcher.locates_iff {f : Fetcher} {uri : Str} {src : FetchSource} :
    f.resolve uri = .ok src ↔ f.Locates uri src := by
  unfold Fetcher.resolve
  cases hm : f.fetchMap with
  | none =>
    constructor
    · intro h; cases h; exact .direct hm
    · intro h
      cases h with
      | direct => rfl
      | mappedUri base u m rel h1 => rw [hm] at h1; cases h1
      | mappedDir base p rel h1 => rw [hm] at h1; cases h1
  | some mp =>
    dsimp only
    unfold FetchMap.source
    obtain ⟨base, bf⟩ := mp
    constructor
    · intro h
      match hs : stripPrefix base uri with
      | none => simp only [hs] at h; cases h
      | some rel =>
        simp only [hs] at h
        cases h
        cases bf with
        | file p => exact .mappedDir base p rel hm (stripPrefix_some.1 hs)
        | uri u m => exact .mappedUri base u m rel hm (stripPrefix_some.1 hs)
    · intro h
      cases h with
      | direct h1 => rw [hm] at h1; cases h1
      | mappedUri base' u m rel h1 h2 =>
        rw [hm] at h1; cases h1; subst h2; simp [FetchSource.join]
      | mappedDir base' p rel h1 h2 =>
        rw [hm] at h1; cases h1; subst h2; simp [FetchSource.join]

theorem mapGet_eq_find {κ ν : Type} [DecidableEq κ] (m : List (κ × ν)) (k : κ) :
    mapGet m k = (m.find? (fun e => decide (e.1 = k))).map (·.2) := by
  induction m with
  | nil => rfl
  | cons e m ih =>
    rw [mapGet_cons, List.find?_cons]
    by_cases h : e.1 = k
    · rw [if_pos h.symm]; simp [h]
    · rw [if_neg (fun h' => h h'.symm), ih]; simp [h]

theorem Visited.getFetcher_eq (v : Visited) (u : Str) : v.getFetcher u = v.fetcherOf u := by
  unfold Visited.getFetcher Visited.fetcherOf
  rw [mapGet_eq_find]
  cases v.fetchers.find? (fun e => decide (e.1 = u)) <;> rfl

end KSync
