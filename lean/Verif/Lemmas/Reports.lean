import Verif.Lemmas.Maps
import Verif.Lemmas.Run
import Verif.Spec.Validation

/-! # Validation reports -/

set_option linter.unusedSectionVars false
set_option linter.unusedVariables false

namespace KSync

theorem Report.casOf_append (a b : List ValidatedCa) (m m' m'' : List (Str × RepoReport)) (u : Str) :
    (⟨a ++ b, m⟩ : Report).casOf u = (⟨a, m'⟩ : Report).casOf u ++ (⟨b, m''⟩ : Report).casOf u := by
  unfold Report.casOf
  exact List.filter_append ..

theorem Report.casOf_single (ca : ValidatedCa) (m : List (Str × RepoReport)) (u : Str) :
    (⟨[ca], m⟩ : Report).casOf u = if ca.Names u then [ca] else [] := by
  unfold Report.casOf
  rw [List.filter_cons]
  by_cases h : ca.Names u
  · rw [if_pos h, if_pos (by simpa using h)]; rfl
  · rw [if_neg h, if_neg (by simpa using h)]; rfl

theorem RepoReport.Sums.zero : RepoReport.zero.Sums [] := ⟨rfl, rfl, rfl, rfl, rfl, rfl⟩

theorem length_flatMap_vrps (l : List ValidatedRoa) :
    (l.flatMap (·.vrps)).length = (l.map (fun roa => roa.vrps.length)).sum := by
  induction l with
  | nil => rfl
  | cons a l ih => rw [List.flatMap_cons, List.length_append, ih, List.map_cons, List.sum_cons]

theorem RepoReport.Sums.processCert {r : RepoReport} {l : List ValidatedCa} (h : r.Sums l)
    (ca : ValidatedCa) : (r.processCert ca).Sums (l ++ [ca]) := by
  refine ⟨?_, ?_, ?_, ?_, ?_, ?_⟩
  · simp only [RepoReport.processCert, h.caCerts, List.map_append, List.sum_append]; simp
  · simp only [RepoReport.processCert, h.roas, List.map_append, List.sum_append]; simp
  · simp only [RepoReport.processCert, h.vrps, List.map_append, List.sum_append,
      length_flatMap_vrps]; simp
  · simp only [RepoReport.processCert, h.aspas, List.map_append, List.sum_append]; simp
  · simp only [RepoReport.processCert, h.routers, List.map_append, List.sum_append]; simp
  · simp only [RepoReport.processCert, h.issues, List.flatMap_append]
    by_cases hi : ca.issues = []
    · rw [if_pos hi]; simp [hi]
    · rw [if_neg hi]; simp

theorem RepoReport.Sums.addOther {r o : RepoReport} {l l' : List ValidatedCa} (h : r.Sums l)
    (h' : o.Sums l') : (r.addOther o).Sums (l ++ l') := by
  refine ⟨?_, ?_, ?_, ?_, ?_, ?_⟩
  · simp only [RepoReport.addOther, h.caCerts, h'.caCerts, List.map_append, List.sum_append]
  · simp only [RepoReport.addOther, h.roas, h'.roas, List.map_append, List.sum_append]
  · simp only [RepoReport.addOther, h.vrps, h'.vrps, List.map_append, List.sum_append]
  · simp only [RepoReport.addOther, h.aspas, h'.aspas, List.map_append, List.sum_append]
  · simp only [RepoReport.addOther, h.routers, h'.routers, List.map_append, List.sum_append]
  · simp only [RepoReport.addOther, h.issues, h'.issues, List.flatMap_append]

/-- The invariant kept while a report is put together. -/
structure Report.Ok (rep : Report) : Prop where
  keys : Keys rep.repos
  adds : rep.Adds

theorem Report.Ok.zero : Report.zero.Ok :=
  ⟨keys_nil, ⟨fun u => ⟨fun _ => rfl, fun _ => rfl⟩, fun u r h => by cases h⟩⟩

theorem Report.Ok.addCert {rep : Report} (h : rep.Ok) (ca : ValidatedCa) : (rep.addCert ca).Ok := by
  unfold Report.addCert
  match hs : ca.info.siaRrdp with
  | none =>
    have hn : ∀ u, ¬ ca.Names u := fun u hu => by unfold ValidatedCa.Names at hu; rw [hs] at hu; cases hu
    have hc : ∀ u, (⟨rep.certs ++ [ca], rep.repos⟩ : Report).casOf u = rep.casOf u := by
      intro u
      rw [Report.casOf_append rep.certs [ca] _ rep.repos rep.repos, Report.casOf_single, if_neg (hn u),
        List.append_nil]
    refine ⟨h.keys, ⟨fun u => ?_, fun u r hr => ?_⟩⟩
    · show mapGet rep.repos u = none ↔ _
      rw [hc u]; exact h.adds.seen u
    · rw [hc u]; exact h.adds.sums u r hr
  | some v =>
    refine ⟨h.keys.insert _ _, ⟨fun u => ?_, fun u r hr => ?_⟩⟩
    · show mapGet (mapInsert _ _ _) u = none ↔ _
      rw [Report.casOf_append rep.certs [ca] _ rep.repos rep.repos, Report.casOf_single, mapGet_insert]
      by_cases hu : u = v
      · have hn : ca.Names u := by unfold ValidatedCa.Names; rw [hs, hu]
        rw [if_pos hu, if_pos hn]; simp
      · have hn : ¬ ca.Names u := fun hu' => hu (by
          unfold ValidatedCa.Names at hu'; rw [hs] at hu'; cases hu'; rfl)
        rw [if_neg hu, if_neg hn, List.append_nil]; exact h.adds.seen u
    · change mapGet (mapInsert _ _ _) u = some r at hr
      rw [Report.casOf_append rep.certs [ca] _ rep.repos rep.repos, Report.casOf_single]
      rw [mapGet_insert] at hr
      by_cases hu : u = v
      · have hn : ca.Names u := by unfold ValidatedCa.Names; rw [hs, hu]
        rw [if_pos hn]
        rw [if_pos hu] at hr
        cases hr
        refine RepoReport.Sums.processCert ?_ ca
        rw [← hu]
        match hg : mapGet rep.repos u with
        | none =>
          rw [show (⟨rep.certs, rep.repos⟩ : Report).casOf u = [] from (h.adds.seen u).1 hg]
          exact RepoReport.Sums.zero
        | some r => exact h.adds.sums u r hg
      · have hn : ¬ ca.Names u := fun hu' => hu (by
          unfold ValidatedCa.Names at hu'; rw [hs] at hu'; cases hu'; rfl)
        rw [if_neg hu] at hr
        rw [if_neg hn, List.append_nil]
        exact h.adds.sums u r hr

theorem mergeRepo_get (m : List (Str × RepoReport)) (e : Str × RepoReport) (u : Str) :
    mapGet (mergeRepo m e) u =
      if u = e.1 then some (match mapGet m e.1 with | some x => x.addOther e.2 | none => e.2)
      else mapGet m u := by
  unfold mergeRepo
  match h : mapGet m e.1 with
  | some x => exact mapGet_insert ..
  | none => exact mapGet_insert ..

theorem mergeRepo_keys (m : List (Str × RepoReport)) (e : Str × RepoReport) (h : Keys m) :
    Keys (mergeRepo m e) := by
  unfold mergeRepo
  split <;> exact h.insert _ _

theorem merge_get (o m : List (Str × RepoReport)) (ho : Keys o) (u : Str) :
    mapGet (o.foldl mergeRepo m) u =
      match mapGet m u, mapGet o u with
      | some x, some y => some (x.addOther y)
      | none, some y => some y
      | x, none => x := by
  induction o generalizing m with
  | nil =>
    rw [mapGet_nil]
    show mapGet m u = _
    cases mapGet m u <;> rfl
  | cons e o ih =>
    have hn := List.nodup_cons.1 (show ((e.1 :: o.map (·.1)) : List Str).Nodup from ho)
    rw [List.foldl_cons, ih _ hn.2, mergeRepo_get, mapGet_cons]
    by_cases hu : u = e.1
    · have hg : mapGet o u = none := mapGet_none.2 (hu ▸ hn.1)
      rw [if_pos hu, if_pos hu, hg, hu]
      match mapGet m e.1 with
      | some x => rfl
      | none => rfl
    · rw [if_neg hu, if_neg hu]

theorem Report.Ok.addOther {rep o : Report} (h : rep.Ok) (h' : o.Ok) : (rep.addOther o).Ok := by
  unfold Report.addOther
  refine ⟨keys_foldl _ mergeRepo_keys _ _ h.keys, ⟨fun u => ?_, fun u r hr => ?_⟩⟩
  · show mapGet (o.repos.foldl mergeRepo rep.repos) u = none ↔ _
    rw [Report.casOf_append rep.certs o.certs _ rep.repos o.repos, merge_get _ _ h'.keys,
      List.append_eq_nil_iff]
    have h1 : mapGet rep.repos u = none ↔ (⟨rep.certs, rep.repos⟩ : Report).casOf u = [] :=
      h.adds.seen u
    have h2 : mapGet o.repos u = none ↔ (⟨o.certs, o.repos⟩ : Report).casOf u = [] :=
      h'.adds.seen u
    rw [← h1, ← h2]
    cases mapGet rep.repos u <;> cases mapGet o.repos u <;> simp
  · change mapGet (o.repos.foldl mergeRepo rep.repos) u = some r at hr
    rw [Report.casOf_append rep.certs o.certs _ rep.repos o.repos]
    rw [merge_get _ _ h'.keys] at hr
    have h1 : mapGet rep.repos u = none ↔ (⟨rep.certs, rep.repos⟩ : Report).casOf u = [] :=
      h.adds.seen u
    have h2 : mapGet o.repos u = none ↔ (⟨o.certs, o.repos⟩ : Report).casOf u = [] :=
      h'.adds.seen u
    match hx : mapGet rep.repos u, hy : mapGet o.repos u with
    | some x, some y =>
      rw [hx, hy] at hr
      cases hr
      exact (h.adds.sums u x hx).addOther (h'.adds.sums u y hy)
    | none, some y =>
      rw [hx, hy] at hr
      cases hr
      rw [h1.1 hx]
      exact h'.adds.sums u _ hy
    | some x, none =>
      rw [hx, hy] at hr
      cases hr
      rw [h2.1 hy, List.append_nil]
      exact h.adds.sums u _ hx
    | none, none =>
      rw [hx, hy] at hr
      cases hr

end KSync
