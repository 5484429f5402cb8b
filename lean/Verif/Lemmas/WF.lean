import Verif.Lemmas.Frame

/-! # The directory tree stays a tree -/

set_option linter.unusedSectionVars false
set_option linter.unusedSimpArgs false
set_option linter.unusedVariables false

namespace KSync

namespace FS

theorem dropLast_ne {p : Path} (h : p ≠ []) : p.dropLast ≠ p := by
  intro he
  have h1 := congrArg List.length he
  have h2 : p.length ≠ 0 := fun h' => h (List.length_eq_zero_iff.1 h')
  rw [List.length_dropLast] at h1
  omega

/-- Everything above an entry is a directory. -/
theorem WF.above {fs : FS} (h : fs.WF) {p q : Path} (hpq : p <+: q) (hne : p ≠ q)
    (hq : fs.get q ≠ none) : fs.get p = some .dir := by
  obtain ⟨t, rfl⟩ := hpq
  have : ∀ (t : Path) (p : Path), t ≠ [] → fs.get (p ++ t) ≠ none → fs.get p = some .dir := by
    intro t
    induction t with
    | nil => intro p h0; exact absurd rfl h0
    | cons a t ih =>
      intro p _ hg
      by_cases ht : t = []
      · subst ht; exact h p a hg
      · have h1 := ih (p ++ [a]) ht (by simpa using hg)
        exact h p a (by simp [h1])
  refine this t p (fun h0 => ?_) hq
  subst h0; simp at hne

theorem WF.none_below {fs : FS} (h : fs.WF) {p q : Path} (hpq : p <+: q) (hne : p ≠ q)
    (hp : fs.get p ≠ some .dir) : fs.get q = none := by
  by_cases hq : fs.get q = none
  · exact hq
  · exact absurd (h.above hpq hne hq) hp

theorem WF.dropLast {fs : FS} (h : fs.WF) {p : Path} (hp : fs.get p ≠ none) :
    fs.get p.dropLast = some .dir := by
  by_cases h0 : p = []
  · subst h0; simp
  · refine h.above (List.dropLast_prefix p) (fun he => ?_) hp
    exact dropLast_ne h0 he

/-- Adding a leaf or directory where the parent is a directory. -/
theorem WF.set {fs : FS} (h : fs.WF) {p : Path} {n : Node} (hp : p ≠ [])
    (hd : fs.get p.dropLast = some .dir) (hn : n = .dir ∨ fs.hasChild p = false) :
    (fs.set p n).WF := by
  intro q a hq
  rw [get_set fs hp] at hq ⊢
  by_cases h1 : q = p
  · subst h1
    simp only [if_true]
    rcases hn with rfl | hn
    · rfl
    · exfalso
      rw [if_neg (by simp)] at hq
      exact hq ((hasChild_false_iff _ _).1 hn _ (List.prefix_append _ _) (by simp))
  · rw [if_neg h1]
    by_cases h2 : q ++ [a] = p
    · subst h2; simpa using hd
    · rw [if_neg h2] at hq; exact h q a hq

theorem WF.hasChild_of_leaf {fs : FS} (h : fs.WF) {p : Path}
    (hp : fs.get p ≠ some .dir) : fs.hasChild p = false := by
  rw [hasChild_false_iff]
  intro q h1 h2
  exact h.none_below h1 (Ne.symm h2) hp

theorem WF.del {fs : FS} (h : fs.WF) {p : Path} (hn : fs.hasChild p = false) :
    (fs.del p).WF := by
  intro q a hq
  rw [get_del] at hq ⊢
  by_cases h1 : q ++ [a] = p
  · subst h1; simp at hq
  · rw [if_neg (by simp [h1])] at hq
    by_cases h2 : q = p ∧ q ≠ []
    · obtain ⟨rfl, h3⟩ := h2
      exfalso
      exact hq ((hasChild_false_iff _ _).1 hn _ (List.prefix_append _ _) (by simp))
    · rw [if_neg h2]; exact h q a hq

theorem prefix_snoc {d q : Path} {a : Name} (h : d <+: q ++ [a]) : d <+: q ∨ d = q ++ [a] := by
  rcases List.prefix_concat_iff.1 h with h | h
  · exact Or.inr h
  · exact Or.inl h

theorem WF.moveTree {fs : FS} (h : fs.WF) {src dst : Path} (hs : src ≠ []) (hd : dst ≠ [])
    (hp : fs.get dst.dropLast = some .dir) (hsrc : fs.get src = some .dir)
    (h1 : ¬ src <+: dst) (h2 : ¬ dst <+: src) : (fs.moveTree src dst).WF := by
  intro q a hq
  rw [get_moveTree fs hs hd] at hq ⊢
  by_cases c : dst <+: q ++ [a]
  · rw [if_pos c] at hq
    rcases prefix_snoc c with c | c
    · rw [if_pos c]
      obtain ⟨t, rfl⟩ := c
      simp only [List.append_assoc, List.drop_left] at hq ⊢
      rw [← List.append_assoc] at hq
      exact h _ _ hq
    · subst c
      have hnd : ¬ (q ++ [a]) <+: q := by
        intro hc
        have := hc.length_le
        simp at this
        omega
      have hns : ¬ src <+: q := fun hc => h1 (hc.trans (List.prefix_append _ _))
      rw [if_neg hnd, if_neg hns]
      simpa using hp
  · rw [if_neg c] at hq
    have c' : ¬ dst <+: q := fun hc => c (hc.trans (List.prefix_append _ _))
    rw [if_neg c']
    by_cases e : src <+: q ++ [a]
    · rw [if_pos e] at hq; exact absurd rfl hq
    · rw [if_neg e] at hq
      have e' : ¬ src <+: q := fun hc => e (hc.trans (List.prefix_append _ _))
      rw [if_neg e']
      exact h q a hq

end FS

/-- A change that keeps the tree a tree. -/
def KeepsWF (f f' : FS) : Prop := f.WF → f'.WF

theorem KeepsWF.refl (f : FS) : KeepsWF f f := id

theorem mkdir1_wf (p : Path) : Does KeepsWF (mkdir1 p) := by
  intro env w
  unfold mkdir1
  rw [getFs_bind]
  match h : w.cur.get p with
  | some .dir => exact Steps.refl
  | some (.file _ _) => exact Steps.refl
  | some (.link _) => exact Steps.refl
  | none =>
    dsimp only
    rw [io_bind]
    split
    · exact .same rfl rfl
    · refine Steps.trans (w1 := { w with tick := w.tick + 1 }) (.same rfl rfl) ?_
      split
      · rename_i hd
        have hp : p ≠ [] := by rintro rfl; simp at h
        exact Steps.of_push (env := env) (fun hw => FS.WF.set hw hp hd (Or.inl rfl))
      · exact Steps.refl

theorem createDirAll_wf (p : Path) : Does KeepsWF (createDirAll p) :=
  Rel.forEach (fun q _ => mkdir1_wf q)

theorem createPathForFile_wf (p : Path) : Does KeepsWF (createPathForFile p) := by
  unfold createPathForFile
  split
  · exact Rel.throw _
  · exact createDirAll_wf _

theorem fileCreate_wf (p : Path) : Does KeepsWF (fileCreate p) := by
  unfold fileCreate
  refine io_getFs_does (fun n env w => ?_)
  by_cases h : p = [] ∨ w.cur.get p.dropLast ≠ some .dir
  · rw [if_pos h]; exact Steps.refl
  · rw [if_neg h]
    simp only [not_or, Decidable.not_not] at h
    split
    · exact Steps.refl
    · exact Steps.refl
    · rename_i h1 h2
      exact Steps.of_push (env := env) (fun hw => FS.WF.set hw h.1 h.2
        (Or.inr (hw.hasChild_of_leaf h1)))

/-- `writeAll` on a path that holds a regular file. -/
theorem writeAll_steps {R : FS → FS → Prop} (p : Path) (b : Bytes) (env : Env) (w : World)
    (hR : ∀ f i t, f = w.cur ∨ (∃ j t', f = w.cur.set p (.file (b.take j) t')) →
      R f (w.cur.set p (.file (b.take i) t))) :
    Steps R w (writeAll p b env w).2 := by
  rw [writeAll_run]
  refine Steps.trans (w1 := { w with tick := w.tick + 1 }) (.same rfl rfl) ?_
  have key : ∀ k, Steps R { w with tick := w.tick + 1 } (pushAll (writeStates w.cur p b
      (env.clock w.tick) k) env { w with tick := w.tick + 1 }).2 := by
    intro k
    refine pushAll_steps (fun f hf f' hf' => ?_)
    obtain ⟨i, _, rfl⟩ := mem_writeStates.1 hf
    refine hR f' i _ ?_
    rcases List.mem_cons.1 hf' with rfl | hf'
    · exact Or.inl rfl
    · obtain ⟨j, _, rfl⟩ := mem_writeStates.1 hf'
      exact Or.inr ⟨j, _, rfl⟩
  split
  · exact key _
  · exact key _

theorem fileCreate_ok {p : Path} {env : Env} {w w' : World}
    (h : fileCreate p env w = (.ok (), w')) :
    p ≠ [] ∧ w.cur.get p.dropLast = some .dir ∧ w.cur.get p ≠ some .dir ∧
    ∃ t, w'.cur = w.cur.set p (.file [] t) := by
  unfold fileCreate at h
  rw [io_bind] at h
  split at h
  · simp at h
  rw [getFs_bind] at h
  dsimp only at h
  by_cases h0 : p = [] ∨ w.cur.get p.dropLast ≠ some .dir
  · rw [if_pos h0] at h; simp at h
  rw [if_neg h0] at h
  simp only [not_or, Decidable.not_not] at h0
  match hg : w.cur.get p with
  | some .dir => rw [hg] at h; simp at h
  | some (.link _) => rw [hg] at h; simp at h
  | none =>
    rw [hg] at h
    simp only [askEnv_bind, push_run] at h
    cases h
    exact ⟨h0.1, h0.2, by simp, _, rfl⟩
  | some (.file _ _) =>
    rw [hg] at h
    simp only [askEnv_bind, push_run] at h
    cases h
    exact ⟨h0.1, h0.2, by simp, _, rfl⟩

/-- Writing a file keeps the tree a tree when the parent is a directory and the path is
not a directory. -/
theorem writeAll_wf {p : Path} {b : Bytes} {env : Env} {w : World} (hp : p ≠ [])
    (hd : w.cur.get p.dropLast = some .dir) (hn : w.cur.get p ≠ some .dir) :
    Steps KeepsWF w (writeAll p b env w).2 := by
  refine writeAll_steps p b env w (fun f i t hf hw => ?_)
  -- every intermediate tree is well formed iff the first one is
  have base : w.cur.WF := by
    rcases hf with rfl | ⟨j, t', rfl⟩
    · exact hw
    · intro q a hq
      by_cases h1 : q ++ [a] = p
      · subst h1
        have := hw q a (by rw [FS.get_set_self _ hp]; simp)
        rw [FS.get_set_ne _ _ (by simp)] at this
        exact this
      · have := hw q a (by rw [FS.get_set_ne _ _ h1]; exact hq)
        by_cases h2 : q = p
        · subst h2; rw [FS.get_set_self _ hp] at this; cases this
        · rw [FS.get_set_ne _ _ h2] at this; exact this
  exact FS.WF.set base hp hd (Or.inr (base.hasChild_of_leaf hn))

theorem fileCreate_writeAll_wf (p : Path) (b : Bytes) :
    Does KeepsWF (fileCreate p >>= fun _ => writeAll p b) := by
  refine Rel.bindOk (fileCreate_wf p) (fun env w a w1 h => ?_)
  obtain ⟨h1, h2, h3, t, h4⟩ := fileCreate_ok h
  refine writeAll_wf h1 ?_ ?_
  · rw [h4, FS.get_set_ne _ _ ?_]
    · exact h2
    · exact FS.dropLast_ne h1
  · rw [h4, FS.get_set_self _ h1]; simp

theorem M.bind_assoc (m : M α) (f : α → M β) (g : β → M γ) :
    (m >>= f) >>= g = m >>= fun a => f a >>= g := by
  show M.bind (M.bind m f) g = M.bind m (fun a => M.bind (f a) g)
  unfold M.bind
  congr
  funext env w
  dsimp only
  cases h : m.run env w with
  | mk r w1 => cases r <;> simp

theorem writeBuf_wf (p : Path) (b : Bytes) : Does KeepsWF (writeBuf p b) := by
  unfold writeBuf createFile
  rw [M.bind_assoc]
  exact Rel.bind (createPathForFile_wf p) (fun _ => fileCreate_writeAll_wf p b)

theorem removeFile_wf (p : Path) : Does KeepsWF (removeFile p) := by
  unfold removeFile
  refine io_getFs_does (fun n env w => ?_)
  split
  · rename_i h
    exact Steps.of_push (env := env) (fun hw => FS.WF.del hw (hw.hasChild_of_leaf (by simp [h])))
  · rename_i h
    exact Steps.of_push (env := env) (fun hw => FS.WF.del hw (hw.hasChild_of_leaf (by simp [h])))
  · exact Steps.refl

theorem removeDir_wf (p : Path) : Does KeepsWF (removeDir p) := by
  unfold removeDir
  refine io_getFs_does (fun n env w => ?_)
  split
  · rename_i h
    exact Steps.of_push (env := env) (fun hw => FS.WF.del hw h.2.2)
  · exact Steps.refl

theorem rename_wf (src dst : Path) : Does KeepsWF (rename src dst) := by
  intro env w
  have h := rename_end src dst env w
  generalize rename src dst env w = r at h
  cases h with
  | failed e => exact .same rfl rfl
  | noop => exact .same rfl rfl
  | movedDir h1 h2 h3 h4 h5 h6 h7 =>
    exact .push .refl (fun hw => FS.WF.moveTree hw h1 h2 h3 h4 h5 h6) rfl
  | movedFile n h1 h2 h3 h4 h5 h6 h7 =>
    refine .push .refl (fun hw => ?_) rfl
    have hs : w.cur.get src ≠ some .dir := by rw [h4]; simpa using h5
    have hw' := FS.WF.del hw (hw.hasChild_of_leaf hs)
    refine FS.WF.set hw' h2 ?_ (Or.inr (hw'.hasChild_of_leaf ?_))
    · rw [FS.get_del_ne _ (fun he => hs (by rw [← he]; exact h3))]; exact h3
    · rw [FS.get_del_ne _ (Ne.symm h7)]; exact h6

theorem logCopy_same (p : Path) : Rel Same (logCopy p) := fun _ _ => ⟨rfl, rfl⟩

theorem copyFile_wf (src dst : Path) : Does KeepsWF (copyFile src dst) := by
  unfold copyFile
  exact Rel.bind (logCopy_same dst).quiet (fun _ => Rel.bind (readFile_same src).quiet
    (fun b => fileCreate_writeAll_wf dst b))

theorem symlink_wf (t : Name) (p : Path) : Does KeepsWF (symlink t p) := by
  unfold symlink
  refine io_getFs_does (fun n env w => ?_)
  by_cases h : p = [] ∨ w.cur.get p.dropLast ≠ some .dir
  · rw [if_pos h]; exact Steps.refl
  · rw [if_neg h]
    simp only [not_or, Decidable.not_not] at h
    split
    · exact Steps.refl
    · rename_i hn
      exact Steps.of_push (env := env) (fun hw => FS.WF.set hw h.1 h.2
        (Or.inr (hw.hasChild_of_leaf (by simp [hn]))))

theorem setMtime_wf (p : Path) (t : Time) : Does KeepsWF (setMtime p t) := by
  unfold setMtime
  refine io_getFs_does (fun n env w => ?_)
  split
  · rename_i b t' h
    have hp : p ≠ [] := by rintro rfl; simp at h
    exact Steps.of_push (env := env) (fun hw => FS.WF.set hw hp (hw.dropLast (by simp [h]))
      (Or.inr (hw.hasChild_of_leaf (by simp [h]))))
  · exact Steps.refl

theorem unlink1_wf (p : Path) : Does KeepsWF (unlink1 p) := by
  unfold unlink1
  refine io_getFs_does (fun n env w => ?_)
  split
  · exact Steps.refl
  · rename_i h
    exact Steps.of_push (env := env) (fun hw => FS.WF.del hw (by simpa using h))

theorem removeDirAll_wf (p : Path) : Does KeepsWF (removeDirAll p) := by
  unfold removeDirAll
  refine Rel.getFs_bind (fun env w => ?_)
  split
  · rw [tick_bind, askEnv_bind]
    refine Steps.trans (w1 := { w with tick := w.tick + 1 }) (.same rfl rfl) ?_
    exact Rel.forEach (T := Steps KeepsWF) (fun q hq => unlink1_wf q) env _
  · exact Steps.refl

theorem removeUp_wf (n : Nat) (p : Path) : Does KeepsWF (removeUp n p) := by
  induction n generalizing p with
  | zero =>
    unfold removeUp
    have h1 := removeFile_wf p
    have h2 := removeDir_wf p
    rel_auto
  | succ n ih =>
    unfold removeUp
    have h1 := removeFile_wf p
    have h2 := removeDir_wf p
    have h3 := ih p.dropLast
    rel_auto

theorem moveFile_wf (a b : Path) (r : Str) : Does KeepsWF (moveFile a b r) := by
  unfold moveFile
  have h1 := createPathForFile_wf (joinPath b r)
  have h2 := rename_wf (joinPath a r) (joinPath b r)
  have h3 := copyFile_wf (joinPath a r) (joinPath b r)
  have h4 := removeFile_wf (joinPath a r)
  rel_auto

end KSync
