import Verif.Spec.Restart
import Verif.Lemmas.Tidy
import Verif.Lemmas.RsyncParts

/-! # The plan of an installation -/

set_option linter.unusedSectionVars false
set_option linter.unusedVariables false

namespace KSync

variable [Ext]

/-- The places, by name. -/
inductive Place where
  | state
  | rsyncState
  | staging
  | rrdp
  | rsync

namespace Place

def root (c : Config) : Place → Path
  | .state => c.rrdpStatePath
  | .rsyncState => c.rsyncStatePath
  | .staging => c.stagingDir
  | .rrdp => c.rrdpDir
  | .rsync => c.rsyncDir

/-- Names of files in a place. -/
def Holds (T : SourceTree) (name : Str) : Place → Path → Prop
  | .state, r => r = []
  | .rsyncState, r => r = []
  | .staging, r => T.files r ∨ r = [name] ∨ r = [name ++ ".tmp".toList]
  | .rrdp, r => T.files r ∨ r = [name] ∨ r = [name ++ ".tmp".toList]
  | .rsync, r => ∃ (rev : RsyncRevision) (o : Path), T.objects rev o ∧ r = rev.dirName :: o

end Place

/-- Where things are meant to be. -/
def planOf (T : SourceTree) (c : Config) (name : Str) : Plan where
  file q := ∃ (i : Place) (r : Path), i.Holds T name r ∧ q = i.root c ++ r
  dir q := (∃ p, (∃ (i : Place) (r : Path), i.Holds T name r ∧ p = i.root c ++ r) ∧ q <+: p ∧ q ≠ p) ∨
    ∃ rev : RsyncRevision, q <+: rev.path c
  link q := q = c.rsyncCurrent ∨ q = c.rsyncTmp
  tmp := c.rsyncTmp
  hold := c.rsyncDir

theorem prefix_total {a b q : Path} (h1 : a <+: q) (h2 : b <+: q) : a <+: b ∨ b <+: a := by
  rcases Nat.le_total a.length b.length with h | h
  · exact Or.inl (List.prefix_of_prefix_length_le h1 h2 h)
  · exact Or.inr (List.prefix_of_prefix_length_le h2 h1 h)

theorem Place.apart {c : Config} {base name : Str} (hl : Layout c base name) {i j : Place} {q : Path}
    (h1 : i.root c <+: q) (h2 : j.root c <+: q) : i = j := by
  have st : ∀ {a b : Name}, a ≠ b → c.stateDir ++ [a] <+: q → c.stateDir ++ [b] <+: q → False :=
    fun hn h h' => hn (child_prefix h h')
  match i, j, h1, h2 with
  | .state, .state, _, _ => exact rfl
  | .rsyncState, .rsyncState, _, _ => exact rfl
  | .staging, .staging, _, _ => exact rfl
  | .rrdp, .rrdp, _, _ => exact rfl
  | .rsync, .rsync, _, _ => exact rfl
  | .state, .rsyncState, h1, h2 => exact (st (by decide) h1 h2).elim
  | .rsyncState, .state, h1, h2 => exact (st (by decide) h1 h2).elim
  | .state, .staging, h1, h2 => exact (st (by decide) h1 h2).elim
  | .staging, .state, h1, h2 => exact (st (by decide) h1 h2).elim
  | .rsyncState, .staging, h1, h2 => exact (st (by decide) h1 h2).elim
  | .staging, .rsyncState, h1, h2 => exact (st (by decide) h1 h2).elim
  | .rrdp, .staging, h1, h2 => exact (hl.rrdpStaging.not_both h1 h2).elim
  | .staging, .rrdp, h1, h2 => exact (hl.rrdpStaging.not_both h2 h1).elim
  | .rrdp, .rsync, h1, h2 => exact (hl.rrdpRsync.not_both h1 h2).elim
  | .rsync, .rrdp, h1, h2 => exact (hl.rrdpRsync.not_both h2 h1).elim
  | .rsync, .staging, h1, h2 => exact (hl.rsyncStaging.not_both h1 h2).elim
  | .staging, .rsync, h1, h2 => exact (hl.rsyncStaging.not_both h2 h1).elim
  | .rrdp, .state, h1, h2 => exact (hl.rrdpState.not_both h1 h2).elim
  | .state, .rrdp, h1, h2 => exact (hl.rrdpState.not_both h2 h1).elim
  | .rrdp, .rsyncState, h1, h2 => exact (hl.rrdpRsyncState.not_both h1 h2).elim
  | .rsyncState, .rrdp, h1, h2 => exact (hl.rrdpRsyncState.not_both h2 h1).elim
  | .rsync, .state, h1, h2 => exact (hl.rsyncState.not_both h1 h2).elim
  | .state, .rsync, h1, h2 => exact (hl.rsyncState.not_both h2 h1).elim
  | .rsync, .rsyncState, h1, h2 => exact (hl.rsyncRsyncState.not_both h1 h2).elim
  | .rsyncState, .rsync, h1, h2 => exact (hl.rsyncRsyncState.not_both h2 h1).elim

theorem Place.prefixFree {T : SourceTree} {name : Str} (hT : T.Tidy name) (i : Place) :
    PrefixFree (i.Holds T name) := by
  cases i with
  | state => rintro p q rfl rfl _; rfl
  | rsyncState => rintro p q rfl rfl _; rfl
  | staging => exact hT.files
  | rrdp => exact hT.files
  | rsync =>
    rintro p q ⟨r, o, h1, rfl⟩ ⟨r', o', h2, rfl⟩ h
    obtain ⟨h3, h4⟩ := List.cons_prefix_cons.1 h
    have := RsyncRevision.dirName_inj h3
    subst this
    rw [hT.objects r o o' h1 h2 h4]

section
variable {T : SourceTree} {c : Config} {base name : Str}

theorem planOf_file_free (hT : T.Tidy name) (hl : Layout c base name) {p q : Path}
    (hp : (planOf T c name).file p) (hq : (planOf T c name).file q) (h : p <+: q) : p = q := by
  obtain ⟨i, r, h1, rfl⟩ := hp
  obtain ⟨j, r', h2, rfl⟩ := hq
  have := Place.apart hl ((List.prefix_append (i.root c) r).trans h) (List.prefix_append (j.root c) r')
  subst this
  rw [List.prefix_append_right_inj] at h
  rw [Place.prefixFree hT i r r' h1 h2 h]

/-- A file in the rsync directory is in the directory of a revision. -/
theorem planOf_file_rsync (hT : T.Tidy name) (hl : Layout c base name) {q : Path}
    (hq : (planOf T c name).file q) (h : c.rsyncDir <+: q) :
    ∃ (rev : RsyncRevision) (a : Name) (o : Path), q = c.rsyncDir ++ rev.dirName :: a :: o := by
  obtain ⟨i, r, h1, rfl⟩ := hq
  have := Place.apart (i := i) (j := .rsync) hl (List.prefix_append (i.root c) r) h
  subst this
  obtain ⟨rev, o, h2, rfl⟩ := h1
  cases o with
  | nil => exact (hT.named rev h2).elim
  | cons a o => exact ⟨rev, a, o, rfl⟩

theorem planOf_file_ne (hT : T.Tidy name) (hl : Layout c base name) {q : Path} {t : Name}
    (hq : (planOf T c name).file q) : ¬ q <+: c.rsyncDir ++ [t] := by
  intro h
  obtain ⟨i, r, h1, rfl⟩ := hq
  have := Place.apart (i := i) (j := .rsync) hl ((List.prefix_append (i.root c) r).trans h)
    (List.prefix_append _ _)
  subst this
  obtain ⟨rev, o, h2, rfl⟩ := h1
  cases o with
  | nil => exact (hT.named rev h2).elim
  | cons a o =>
    have := h.length_le
    simp [Place.root] at this

theorem rsyncCurrent_eq : c.rsyncCurrent = c.rsyncDir ++ ["current".toList] := rfl

theorem planOf_dir_link (hT : T.Tidy name) (hl : Layout c base name) {t : Name}
    (ht : ∀ rev : RsyncRevision, rev.dirName ≠ t) : ¬ (planOf T c name).dir (c.rsyncDir ++ [t]) := by
  rintro (⟨p, h1, h2, h3⟩ | ⟨rev, h⟩)
  · obtain ⟨rev, a, o, rfl⟩ := planOf_file_rsync hT hl h1 ((List.prefix_append _ _).trans h2)
    rw [List.prefix_append_right_inj] at h2
    exact ht rev (List.cons_prefix_cons.1 h2).1.symm
  · unfold RsyncRevision.path at h
    rw [List.prefix_append_right_inj] at h
    exact ht rev (List.cons_prefix_cons.1 h).1.symm

theorem planOf_sound (hT : T.Tidy name) (hl : Layout c base name) : (planOf T c name).Sound where
  nonempty := by
    rintro p ⟨i, r, h1, rfl⟩
    cases i with
    | state => simp [Place.root, Config.rrdpStatePath]
    | rsyncState => simp [Place.root, Config.rsyncStatePath]
    | staging => simp [Place.root, Config.stagingDir]
    | rrdp =>
      intro h
      obtain ⟨h2, h3⟩ := List.append_eq_nil_iff.1 h
      subst h3
      have := hT.files [] [name] h1 (Or.inr (Or.inl rfl)) (List.nil_prefix)
      cases this
    | rsync =>
      obtain ⟨rev, o, _, rfl⟩ := h1
      simp
  parent := by
    intro p hp
    refine Or.inl ⟨p, hp, List.dropLast_prefix p, fun h => ?_⟩
    have h0 : p ≠ [] := by
      obtain ⟨i, r, h1, rfl⟩ := hp
      cases i with
      | state => simp [Place.root, Config.rrdpStatePath]
      | rsyncState => simp [Place.root, Config.rsyncStatePath]
      | staging => simp [Place.root, Config.stagingDir]
      | rrdp =>
        intro h
        obtain ⟨h2, h3⟩ := List.append_eq_nil_iff.1 h
        subst h3
        have := hT.files [] [name] h1 (Or.inr (Or.inl rfl)) (List.nil_prefix)
        cases this
      | rsync =>
        obtain ⟨rev, o, _, rfl⟩ := h1
        simp
    have h1 := congrArg List.length h
    rw [List.length_dropLast] at h1
    have := List.length_pos_iff.2 h0
    omega
  up := by
    rintro p q (⟨x, h1, h2, h3⟩ | ⟨rev, h⟩) hq
    · refine Or.inl ⟨x, h1, hq.trans h2, ?_⟩
      rintro rfl
      exact h3 (h2.eq_of_length_le hq.length_le)
    · exact Or.inr ⟨rev, hq.trans h⟩
  fileDir := by
    rintro p hp (⟨x, h1, h2, h3⟩ | ⟨rev, h⟩)
    · exact h3 (planOf_file_free hT hl hp h1 h2)
    · exact planOf_file_ne hT hl hp h
  fileLink := by
    rintro p hp (rfl | rfl)
    · exact planOf_file_ne hT hl hp (List.prefix_refl _)
    · exact planOf_file_ne hT hl hp (List.prefix_refl _)
  dirLink := by
    rintro p hp (rfl | rfl)
    · exact planOf_dir_link hT hl rev_ne_current hp
    · exact planOf_dir_link hT hl rev_ne_tmp hp
  linkRoot := by
    rintro p (rfl | rfl)
    · simp [rsyncCurrent_eq]
    · simp [Config.rsyncTmp]
  tmp := Or.inr rfl
  hold := fun t h => planOf_file_ne hT hl h (List.prefix_refl _)

theorem Untouched.good {f : FS} (hl : Layout c base name) (h : Untouched c f) :
    (planOf T c name).Good f := by
  have mem : ∀ i : Place, i.root c ∈ c.places := by
    intro i
    cases i <;> simp [Place.root, Config.places]
  have empty : ∀ (i : Place) q, i.root c <+: q → f.get q = none := fun i q hq => h.empty _ (mem i) q hq
  refine ⟨fun q n hq => ⟨?_, ?_, ?_⟩, fun t ht => ?_⟩
  · rintro ⟨i, r, _, rfl⟩
    rw [empty i _ (List.prefix_append _ _)] at hq; cases hq
  · have key : ∀ (i : Place) (x : Path), i.root c <+: x → q <+: x → n = .dir := by
      intro i x h1 h2
      rcases prefix_total h1 h2 with h3 | h3
      · rw [empty i _ h3] at hq; cases hq
      · by_cases h4 : q = i.root c
        · rw [h4, empty i _ (List.prefix_refl _)] at hq; cases hq
        · rcases h.above _ (mem i) q h3 h4 with h5 | h5
          · rw [hq] at h5; cases h5
          · rw [hq] at h5; cases h5; rfl
    rintro (⟨x, ⟨i, r, _, rfl⟩, h2, _⟩ | ⟨rev, h2⟩)
    · exact key i _ (List.prefix_append _ _) h2
    · exact key .rsync _ (List.prefix_append _ _) h2
  · rintro (rfl | rfl)
    · rw [empty .rsync c.rsyncCurrent (List.prefix_append _ _)] at hq; cases hq
    · rw [empty .rsync c.rsyncTmp (List.prefix_append _ _)] at hq; cases hq
  · have : f.get c.rsyncTmp = none := empty .rsync _ (List.prefix_append _ _)
    rw [show (planOf T c name).tmp = c.rsyncTmp from rfl, this] at ht
    cases ht

end

end KSync
