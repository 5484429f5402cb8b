import Verif.Props.Names
import Verif.Spec.Configure

/-! # Lemmas about the configuration (for property C71) -/

namespace KSync

/-- A path that has more than its leading slash splits after the slash. -/
theorem httpsPath_split {u : Str} (h : ¬ (httpsPath u = [] ∨ httpsPath u = ['/'])) :
    ∃ a x r, u.drop schemeLen = a ++ '/' :: x :: r ∧ '/' ∉ a := by
  unfold httpsPath at h
  generalize u.drop schemeLen = v at h
  induction v with
  | nil => exact absurd (Or.inl rfl) h
  | cons c v ih =>
    by_cases hc : c = '/'
    · subst hc
      cases v with
      | nil => exact absurd (Or.inr rfl) h
      | cons x r => exact ⟨[], x, r, rfl, by simp⟩
    · rw [List.dropWhile_cons, if_pos (by simpa using hc)] at h
      obtain ⟨a, x, r, h1, h2⟩ := ih h
      exact ⟨c :: a, x, r, by rw [h1]; rfl, by
        intro hm
        rcases List.mem_cons.1 hm with hm | hm
        · exact hc hm.symm
        · exact h2 hm⟩

theorem httpsPath_more {u base name : Str} (h1 : u = base ++ name) (h2 : base.getLast? = some '/')
    (h3 : schemeLen < base.length) (h4 : name ≠ []) :
    ¬ (httpsPath u = [] ∨ httpsPath u = ['/']) := by
  obtain ⟨l, hl⟩ := List.getLast?_eq_some_iff.1 h2
  have hlen : schemeLen ≤ l.length := by
    rw [hl] at h3; simp at h3; omega
  have e : u.drop schemeLen = l.drop schemeLen ++ '/' :: name := by
    rw [h1, hl, List.append_assoc, List.drop_append_of_le_length hlen]
    rfl
  unfold httpsPath
  rw [e]
  have key : ∀ m : Str, ∃ r, (m ++ '/' :: name).dropWhile (fun c => c ≠ '/') = '/' :: r ∧ r ≠ [] := by
    intro m
    induction m with
    | nil => exact ⟨name, by simp, h4⟩
    | cons a m ih =>
      by_cases ha : a = '/'
      · subst ha
        exact ⟨m ++ '/' :: name, by simp, by simp⟩
      · rw [List.cons_append, List.dropWhile_cons, if_pos (by simpa using ha)]
        exact ih
  obtain ⟨r, hr, hne⟩ := key (l.drop schemeLen)
  rw [hr]
  rintro (h | h)
  · cases h
  · injection h with _ h
    exact hne h

theorem httpsParent_iff {u : Str} : (∃ b, httpsParent u = some b) ↔ ∃ base name, InDirectory u base name := by
  constructor
  · rintro ⟨b, h⟩
    unfold httpsParent at h
    by_cases hp : httpsPath u = [] ∨ httpsPath u = ['/']
    · rw [if_pos hp] at h; cases h
    · obtain ⟨a, x, r, h1, _⟩ := httpsPath_split hp
      have e : u = (u.take schemeLen ++ a ++ ['/']) ++ x :: r := by
        conv => lhs; rw [← List.take_append_drop schemeLen u, h1]
        simp
      have hl : schemeLen ≤ u.length := by
        have := congrArg List.length h1
        simp only [List.length_drop, List.length_append, List.length_cons] at this
        omega
      refine ⟨_, x :: r, e, by simp, ?_, by simp⟩
      simp only [List.length_append, List.length_take, List.length_cons, List.length_nil]
      unfold schemeLen at hl ⊢
      omega
  · rintro ⟨base, name, h⟩
    unfold httpsParent
    rw [if_neg (httpsPath_more h.eq h.slash h.host h.nonempty)]
    exact ⟨_, rfl⟩

theorem effectiveSource_usable (fs : FS) (i : Bool) (o : Option FetchSource) :
    (∀ s, effectiveSource i o = some s → s.isDir fs = true) ↔ ∀ s, o = some s → UsableBase fs s := by
  cases o with
  | none => simp [effectiveSource]
  | some s =>
    cases s with
    | file p => simp [effectiveSource, FetchSource.isDir, UsableBase]
    | uri u m =>
      simp only [effectiveSource, Option.some.injEq, forall_eq', FetchSource.isDir, UsableBase,
        decide_eq_true_eq]
      exact List.getLast?_eq_some_iff

theorem postConfigure_run (r : RawConfig) (env : Env) (w : World) :
    postConfigure r env w = (match httpsParent r.rest.notificationUri with
      | none => (.error .noParent, w)
      | some base =>
        match effectiveSource r.rest.insecure r.rest.sourceUriBase with
        | none => (.ok { r.rest with
            stateDir := joinPath [] r.stateDir, rrdpDir := joinPath [] (followDirs r).1
            rsyncDir := joinPath [] (followDirs r).2, sourceUriBase := none
            fetchMap := r.rest.fetchMap }, w)
        | some s => if s.isDir w.cur = true then (.ok { r.rest with
            stateDir := joinPath [] r.stateDir, rrdpDir := joinPath [] (followDirs r).1
            rsyncDir := joinPath [] (followDirs r).2, sourceUriBase := some s
            fetchMap := some ⟨base, s⟩ }, w) else (.error .badSource, w)) := by
  unfold postConfigure
  cases httpsParent r.rest.notificationUri with
  | none => rfl
  | some base =>
    dsimp only
    cases effectiveSource r.rest.insecure r.rest.sourceUriBase with
    | none => rfl
    | some s =>
      dsimp only
      have e : ∀ (i : Bool) (k : Option FetchMap → Config),
          (M.bind (if i = true then pure (some ⟨base, s⟩) else M.throw .badSource)
            (fun m => pure (k m)) : M Config) env w =
          if i = true then (.ok (k (some ⟨base, s⟩)), w) else (.error .badSource, w) := by
        intro i k; cases i <;> rfl
      exact e _ _

end KSync
