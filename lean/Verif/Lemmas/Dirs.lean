import Verif.Lemmas.WF

/-!
# Which directories can appear or vanish
-/

set_option linter.unusedVariables false

namespace KSync

theorem prefix_of_mem_prefixes {p q : Path} (h : q ∈ prefixes p) : q <+: p := by
  unfold prefixes at h
  obtain ⟨k, _, rfl⟩ := List.mem_map.1 h
  exact List.take_prefix _ _

/-- Changes of directories: only on the way to, or among, the paths in `S` do directories appear or
vanish; and outside `S` they vanish only if in `R`. -/
def DirFrame (S R : Path → Prop) (f f' : FS) : Prop :=
  (∀ q, (∀ p, S p → ¬ q <+: p) → (f'.get q = some .dir ↔ f.get q = some .dir)) ∧
  ∀ q, ¬ S q → ¬ R q → f.get q = some .dir → f'.get q = some .dir

namespace DirFrame

theorem refl {S R : Path → Prop} (f : FS) : DirFrame S R f f := ⟨fun _ _ => Iff.rfl, fun _ _ _ h => h⟩

theorem trans {S R : Path → Prop} {a b c : FS} (h : DirFrame S R a b) (h' : DirFrame S R b c) :
    DirFrame S R a c :=
  ⟨fun q hq => (h'.1 q hq).trans (h.1 q hq), fun q h1 h2 h3 => h'.2 q h1 h2 (h.2 q h1 h2 h3)⟩

/-- More is allowed. -/
theorem weaken {S S' R R' : Path → Prop} (h : ∀ p, S p → S' p ∨ (R' p ∧ ∃ p', S' p' ∧ p <+: p'))
    (hr : ∀ p, R p → R' p) {f f' : FS}
    (hf : DirFrame S R f f') : DirFrame S' R' f f' := by
  refine ⟨fun q hq => hf.1 q (fun p hp hqp => ?_), fun q h1 h2 => hf.2 q (fun hs => ?_) (fun hr' => h2 (hr q hr'))⟩
  · rcases h p hp with h' | ⟨_, p', h', h''⟩
    · exact hq p h' hqp
    · exact hq p' h' (hqp.trans h'')
  · rcases h q hs with h' | ⟨h', _⟩
    · exact h1 h'
    · exact h2 h'

theorem mono {S S' R R' : Path → Prop} (h : ∀ p, S p → S' p) (hr : ∀ p, R p → R' p) {f f' : FS}
    (hf : DirFrame S R f f') : DirFrame S' R' f f' := hf.weaken (fun p hp => Or.inl (h p hp)) hr

/-- Where nothing changes but in `S`. -/
theorem of_get {S R : Path → Prop} {f f' : FS} (h : ∀ q, ¬ S q → f'.get q = f.get q) :
    DirFrame S R f f' :=
  ⟨fun q hq => by rw [h q (fun hs => hq q hs (List.prefix_refl _))],
    fun q hq _ hd => by rw [h q hq]; exact hd⟩

theorem mkdir {S R : Path → Prop} {f : FS} {p : Path} (hp : ∃ x, S x ∧ p <+: x) :
    DirFrame S R f (f.set p .dir) := by
  obtain ⟨x, hx, hpx⟩ := hp
  refine ⟨fun q hq => ?_, fun q _ _ hd => ?_⟩
  · rw [FS.get_set_ne _ _ (by rintro rfl; exact hq x hx hpx)]
  · by_cases he : q = p
    · subst he
      by_cases h0 : q = []
      · subst h0; unfold FS.get; simp
      · exact FS.get_set_self _ h0 _
    · rw [FS.get_set_ne _ _ he]; exact hd

theorem rmdir {S R : Path → Prop} {f : FS} {p : Path} (hp : ∃ x, S x ∧ p <+: x) (hr : R p) :
    DirFrame S R f (f.del p) := by
  obtain ⟨x, hx, hpx⟩ := hp
  refine ⟨fun q hq => ?_, fun q _ hq hd => ?_⟩
  · rw [FS.get_del_ne _ (by rintro rfl; exact hq x hx hpx)]
  · rw [FS.get_del_ne _ (by rintro rfl; exact hq hr)]; exact hd

end DirFrame

section
variable {S R : Path → Prop}

theorem mkdir1_dirs {p : Path} (hp : ∃ x, S x ∧ p <+: x) : Does (DirFrame S R) (mkdir1 p) := by
  intro env w
  unfold mkdir1
  rw [getFs_bind]
  match h : w.cur.get p with
  | some .dir => exact Steps.refl
  | some (.file _ _) => exact Steps.refl
  | some (.link _) => exact Steps.refl
  | none =>
    dsimp only
    rw [io_bind]
    split
    · exact .same rfl rfl
    · refine Steps.trans (w1 := { w with tick := w.tick + 1 }) (.same rfl rfl) ?_
      split
      · exact Steps.of_push (DirFrame.mkdir hp)
      · exact Steps.refl

theorem createDirAll_dirs {p : Path} (hp : ∃ x, S x ∧ p <+: x) :
    Does (DirFrame S R) (createDirAll p) := by
  unfold createDirAll
  refine Rel.forEach (fun q hq => mkdir1_dirs ?_)
  obtain ⟨x, hx, hpx⟩ := hp
  exact ⟨x, hx, (prefix_of_mem_prefixes hq).trans hpx⟩

theorem createPathForFile_dirs {p : Path} (hp : ∃ x, S x ∧ p <+: x) :
    Does (DirFrame S R) (createPathForFile p) := by
  unfold createPathForFile
  split
  · exact Rel.throw _
  · obtain ⟨x, hx, hpx⟩ := hp
    exact createDirAll_dirs ⟨x, hx, (List.dropLast_prefix p).trans hpx⟩

theorem fileCreate_dirs {p : Path} (hp : S p) : Does (DirFrame S R) (fileCreate p) := by
  unfold fileCreate
  refine io_getFs_does (fun n env w => ?_)
  by_cases h : p = [] ∨ w.cur.get p.dropLast ≠ some .dir
  · rw [if_pos h]; exact Steps.refl
  · rw [if_neg h]
    split
    · exact Steps.refl
    · exact Steps.refl
    · exact Steps.of_push (env := env)
        (DirFrame.of_get (fun q hq => FS.get_set_ne _ _ (fun he => hq (he ▸ hp))))

theorem writeAll_dirs {p : Path} (hp : S p) (b : Bytes) : Does (DirFrame S R) (writeAll p b) := by
  intro env w
  have key : ∀ (w : World) t k, ∀ f ∈ writeStates w.cur p b t k, ∀ f' ∈ w.cur :: writeStates w.cur p b t k,
      DirFrame S R f' f := by
    intro w t k f hf f' hf'
    refine DirFrame.of_get (fun q hq => ?_)
    have hne : q ≠ p := fun he => hq (he ▸ hp)
    obtain ⟨i, _, rfl⟩ := mem_writeStates.1 hf
    rw [FS.get_set_ne _ _ hne]
    rcases List.mem_cons.1 hf' with rfl | hf'
    · rfl
    · obtain ⟨j, _, rfl⟩ := mem_writeStates.1 hf'
      rw [FS.get_set_ne _ _ hne]
  rw [writeAll_run]
  refine Steps.trans (w1 := { w with tick := w.tick + 1 }) (.same rfl rfl) ?_
  split
  · exact pushAll_steps (key { w with tick := w.tick + 1 } _ _)
  · exact pushAll_steps (key { w with tick := w.tick + 1 } _ _)

theorem writeBuf_dirs {p : Path} (hp : S p) (b : Bytes) : Does (DirFrame S R) (writeBuf p b) := by
  unfold writeBuf createFile
  have h1 := createPathForFile_dirs (S := S) (R := R) ⟨p, hp, List.prefix_refl p⟩
  have h2 := fileCreate_dirs (R := R) hp
  have h3 := writeAll_dirs (R := R) hp b
  rel_auto

theorem removeFile_dirs {p : Path} (hp : S p) : Does (DirFrame S R) (removeFile p) := by
  unfold removeFile
  refine io_getFs_does (fun n env w => ?_)
  split
  · exact Steps.of_push (DirFrame.of_get (fun q hq => FS.get_del_ne _ (fun he => hq (he ▸ hp))))
  · exact Steps.of_push (DirFrame.of_get (fun q hq => FS.get_del_ne _ (fun he => hq (he ▸ hp))))
  · exact Steps.refl

theorem removeDir_dirs {p : Path} (hp : ∃ x, S x ∧ p <+: x) (hr : R p) :
    Does (DirFrame S R) (removeDir p) := by
  unfold removeDir
  refine io_getFs_does (fun n env w => ?_)
  split
  · exact Steps.of_push (DirFrame.rmdir hp hr)
  · exact Steps.refl

theorem rename_dirs {src dst : Path} (h : ∀ q, src <+: q ∨ dst <+: q → S q) :
    Does (DirFrame S R) (rename src dst) := by
  intro env w
  have h' := rename_end src dst env w
  generalize rename src dst env w = r at h'
  cases h' with
  | failed e => exact .same rfl rfl
  | noop => exact .same rfl rfl
  | movedDir h1 h2 _ h4 =>
    refine .push .refl (DirFrame.of_get (fun q hq => ?_)) rfl
    show (w.cur.moveTree src dst).get q = _
    rw [FS.get_moveTree _ h1 h2, if_neg (fun hp => hq (h q (Or.inr hp))),
      if_neg (fun hp => hq (h q (Or.inl hp)))]
  | movedFile n h1 h2 _ h4 h5 =>
    refine .push .refl (DirFrame.of_get (fun q hq => ?_)) rfl
    show ((w.cur.del src).set dst n).get q = _
    rw [FS.get_set_ne _ _ (by rintro rfl; exact hq (h _ (Or.inr (List.prefix_refl _)))),
      FS.get_del_ne _ (by rintro rfl; exact hq (h _ (Or.inl (List.prefix_refl _))))]

theorem copyFile_dirs {src dst : Path} (h : S dst) : Does (DirFrame S R) (copyFile src dst) := by
  unfold copyFile
  have h0 : Does (DirFrame S R) (logCopy dst) := fun _ _ => .same rfl rfl
  have h1 := (readFile_same src).quiet (R := DirFrame S R)
  exact Rel.bind h0 (fun _ => Rel.bind h1 (fun b => Rel.bind (fileCreate_dirs h)
    (fun _ => writeAll_dirs h b)))

theorem symlink_dirs {p : Path} (h : S p) (t : Name) : Does (DirFrame S R) (symlink t p) := by
  unfold symlink
  refine io_getFs_does (fun n env w => ?_)
  split
  · exact Steps.refl
  · split
    · exact Steps.refl
    · exact Steps.of_push (DirFrame.of_get (fun q hq => FS.get_set_ne _ _ (fun he => hq (he ▸ h))))

theorem setMtime_dirs {p : Path} (h : S p) (t : Time) : Does (DirFrame S R) (setMtime p t) := by
  unfold setMtime
  refine io_getFs_does (fun n env w => ?_)
  split
  · exact Steps.of_push (DirFrame.of_get (fun q hq => FS.get_set_ne _ _ (fun he => hq (he ▸ h))))
  · exact Steps.refl

theorem unlink1_dirs {p : Path} (h : S p) : Does (DirFrame S R) (unlink1 p) := by
  unfold unlink1
  refine io_getFs_does (fun n env w => ?_)
  split
  · exact Steps.refl
  · exact Steps.of_push (DirFrame.of_get (fun q hq => FS.get_del_ne _ (fun he => hq (he ▸ h))))

theorem removeDirAll_dirs {p : Path} (h : ∀ q, p <+: q → S q) :
    Does (DirFrame S R) (removeDirAll p) := by
  unfold removeDirAll
  refine Rel.getFs_bind (fun env w => ?_)
  split
  · rename_i h0
    rw [tick_bind, askEnv_bind]
    refine Steps.trans (w1 := { w with tick := w.tick + 1 }) (.same rfl rfl) ?_
    refine Rel.forEach (T := Steps (DirFrame S R)) (fun q hq => ?_) env _
    rw [List.mem_reverse, mem_sortBy] at hq
    exact unlink1_dirs (h q ((FS.mem_tree _ _ _ h0.1).1 hq).1)
  · exact Steps.refl

theorem removeUp_emptied (n : Nat) (p : Path) :
    Does (DirFrame (· = p) (· <+: p)) (removeUp n p) := by
  have h1 : Does (DirFrame (· = p) (· <+: p)) (removeFile p) := removeFile_dirs rfl
  have h2 : Does (DirFrame (· = p) (· <+: p)) (removeDir p) :=
    removeDir_dirs ⟨p, rfl, List.prefix_refl _⟩ (List.prefix_refl _)
  induction n generalizing p with
  | zero =>
    unfold removeUp
    rel_auto
  | succ n ih =>
    unfold removeUp
    have h3 : Does (DirFrame (· = p) (· <+: p)) (removeUp n p.dropLast) := by
      refine Does.mono (ih p.dropLast (removeFile_dirs rfl)
        (removeDir_dirs ⟨_, rfl, List.prefix_refl _⟩ (List.prefix_refl _))) (fun f f' h => h.weaken ?_ ?_)
      · rintro q rfl
        exact Or.inr ⟨List.dropLast_prefix p, p, rfl, List.dropLast_prefix p⟩
      · exact fun q hq => hq.trans (List.dropLast_prefix p)
    rel_auto

end

end KSync
