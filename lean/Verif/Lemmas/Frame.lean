import Verif.Lemmas.FSLemmas

/-!
# What the primitive operations change

For each operation: which files it can change (`Frame`), that the directory tree stays a
tree (`WF`), and what holds after success.
-/

set_option linter.unusedSectionVars false
set_option linter.unusedSimpArgs false
set_option linter.unusedVariables false

namespace KSync

/-! ## Operations that leave the file system alone -/

/-- No change of the file system. -/
def Same (w w' : World) : Prop := w'.cur = w.cur ∧ w'.past = w.past

instance : Tr Same :=
  ⟨fun _ => ⟨rfl, rfl⟩, fun h h' => ⟨h'.1.trans h.1, h'.2.trans h.2⟩⟩

theorem Same.steps {R : FS → FS → Prop} {w w' : World} (h : Same w w') : Steps R w w' :=
  .same h.1 h.2

theorem Rel.quiet {R : FS → FS → Prop} {m : M α} (h : Rel Same m) : Does R m :=
  fun env w => (h env w).steps

/-- One step in a proof that a computation relates the worlds before and after. -/
syntax "rel_step" : tactic
macro_rules | `(tactic| rel_step) => `(tactic| split)
macro_rules | `(tactic| rel_step) => `(tactic| with_reducible exact Rel.pure _)
macro_rules | `(tactic| rel_step) => `(tactic| with_reducible exact Rel.pure' _)
macro_rules | `(tactic| rel_step) => `(tactic| with_reducible exact Rel.throw _)
macro_rules | `(tactic| rel_step) => `(tactic| with_reducible exact Rel.getFs)
macro_rules | `(tactic| rel_step) => `(tactic| with_reducible exact Rel.askEnv)
macro_rules | `(tactic| rel_step) => `(tactic| with_reducible exact Rel.lift _)
macro_rules | `(tactic| rel_step) => `(tactic| with_reducible exact Rel.orThrow _ _)
macro_rules | `(tactic| rel_step) => `(tactic| with_reducible apply Rel.attempt)
macro_rules | `(tactic| rel_step) => `(tactic| with_reducible refine Rel.bind ?_ (fun _ => ?_))
macro_rules | `(tactic| rel_step) => `(tactic| with_reducible refine Rel.bind' ?_ (fun _ => ?_))
macro_rules | `(tactic| rel_step) => `(tactic| with_reducible solve_by_elim)

/-- Prove a `Rel` goal by following the structure of the program. -/
macro "rel_auto" : tactic => `(tactic| repeat' rel_step)

section Quiet

theorem io_same : Rel Same io := by
  intro env w
  by_cases h : env.fault w.tick <;> simp [io, h, Same]

theorem tick_same : Rel Same tick := fun _ _ => ⟨rfl, rfl⟩

theorem now_same : Rel Same now := fun _ _ => ⟨rfl, rfl⟩

theorem sleep_same (d : Nat) : Rel Same (sleep d) := fun _ _ => ⟨rfl, rfl⟩

theorem secondsAgo_same (s : Int) : Rel Same (secondsAgo s) := fun _ _ => ⟨rfl, rfl⟩

theorem httpGet_same (r : Req) : Rel Same (httpGet r) := fun _ _ => ⟨rfl, rfl⟩

theorem runScript_same (p : Path) : Rel Same (runScript p) := by
  unfold runScript
  have h1 := tick_same
  have h2 : Rel Same (logRan p) := fun _ _ => ⟨rfl, rfl⟩
  rel_auto

theorem readFile_same (p : Path) : Rel Same (readFile p) := by
  unfold readFile
  have := io_same
  rel_auto

end Quiet

/-! ## Which files can change -/

theorem Frame.refl {S : Path → Prop} (f : FS) : Frame S f f := fun _ _ => rfl

theorem Frame.trans {S : Path → Prop} {a b c : FS} (h : Frame S a b) (h' : Frame S b c) :
    Frame S a c := fun p hp => (h' p hp).trans (h p hp)

theorem Frame.mono {S S' : Path → Prop} (h : ∀ p, S p → S' p) {f f' : FS} (hf : Frame S f f') :
    Frame S' f f' := fun p hp => hf p (fun hs => hp (h p hs))

/-- The files changed by `m` are all in `S`. -/
abbrev Writes (S : Path → Prop) (m : M α) : Prop := Does (Frame S) m

theorem Writes.mono {S S' : Path → Prop} {m : M α} (h : Writes S m) (hs : ∀ p, S p → S' p) :
    Writes S' m := Does.mono h (fun _ _ => Frame.mono hs)

theorem mkdir1_writes (S : Path → Prop) (p : Path) : Writes S (mkdir1 p) := by
  intro env w
  unfold mkdir1
  rw [getFs_bind]
  match h : w.cur.get p with
  | some .dir => exact Steps.refl
  | some (.file _ _) => exact Steps.refl
  | some (.link _) => exact Steps.refl
  | none =>
    dsimp only
    rw [io_bind]
    split
    · exact .same rfl rfl
    · refine Steps.trans (w1 := { w with tick := w.tick + 1 }) (.same rfl rfl) ?_
      split
      · exact Steps.of_push (fun q _ => FS.leaf_mkdir _ h q)
      · exact Steps.refl

theorem createDirAll_writes (S : Path → Prop) (p : Path) : Writes S (createDirAll p) :=
  Rel.forEach (fun q _ => mkdir1_writes S q)

theorem createPathForFile_writes (S : Path → Prop) (p : Path) :
    Writes S (createPathForFile p) := by
  unfold createPathForFile
  split
  · exact Rel.throw _
  · exact createDirAll_writes _ _

/-- A primitive that looks at the file system and then changes it. -/
theorem io_getFs_does {R : FS → FS → Prop} {α : Type} {f : Nat → FS → M α}
    (h : ∀ n env w, Steps R w (f n w.cur env w).2) :
    Does R (io >>= fun n => getFs >>= fun fs => f n fs) := by
  refine Rel.bind (io_same.quiet) (fun n => Rel.getFs_bind (fun env w => h n env w))

theorem fileCreate_writes (p : Path) : Writes (· = p) (fileCreate p) := by
  unfold fileCreate
  refine io_getFs_does (fun n env w => ?_)
  by_cases h : p = [] ∨ w.cur.get p.dropLast ≠ some .dir
  · rw [if_pos h]; exact Steps.refl
  · rw [if_neg h]
    split
    · exact Steps.refl
    · exact Steps.refl
    · exact Steps.of_push (env := env) (fun q hq => FS.leaf_set_ne _ _ hq)

theorem pushAll_steps {R : FS → FS → Prop} {l : List FS} :
    ∀ {w : World} {env : Env}, (∀ f ∈ l, ∀ f' ∈ w.cur :: l, R f' f) →
    Steps R w (pushAll l env w).2 := by
  induction l with
  | nil => intro w env _; exact Steps.refl
  | cons a l ih =>
    intro w env h
    refine Steps.trans (Steps.of_push (env := env) (fs := a) (h a (by simp) w.cur (by simp))) ?_
    exact ih (fun f hf f' hf' => h f (by simp [hf]) f' (List.mem_cons_of_mem _ hf'))

theorem mem_writeStates {fs : FS} {p : Path} {b : Bytes} {t : Time} {k : Nat} {f : FS} :
    f ∈ writeStates fs p b t k ↔ ∃ i, i ≤ k ∧ f = fs.set p (.file (b.take i) t) := by
  unfold writeStates
  simp only [List.mem_map, List.mem_range]
  constructor
  · rintro ⟨i, hi, rfl⟩; exact ⟨i, by omega, rfl⟩
  · rintro ⟨i, hi, rfl⟩; exact ⟨i, by omega, rfl⟩

theorem pushAll_run (l : List FS) (env : Env) (w : World) :
    pushAll l env w = (.ok (), { w with
      cur := l.getLast?.getD w.cur
      past := (if l = [] then w.past else l.dropLast.reverse ++ w.cur :: w.past) }) := by
  induction l generalizing w with
  | nil => rfl
  | cons a l ih =>
    show pushAll l env _ = _
    rw [ih]
    cases l with
    | nil => rfl
    | cons b l =>
      have : (b :: l).getLast? ≠ none := by simp
      obtain ⟨x, hx⟩ := Option.ne_none_iff_exists'.1 this
      simp [List.getLast?_cons_cons, hx]

theorem frame_writeStates {p : Path} {b : Bytes} {t : Time} {k : Nat} {w : World} :
    ∀ f ∈ writeStates w.cur p b t k, ∀ f' ∈ w.cur :: writeStates w.cur p b t k,
      Frame (· = p) f' f := by
  intro f hf f' hf' q hq
  obtain ⟨i, _, rfl⟩ := mem_writeStates.1 hf
  rw [FS.leaf_set_ne _ _ hq]
  rcases List.mem_cons.1 hf' with rfl | hf'
  · rfl
  · obtain ⟨j, _, rfl⟩ := mem_writeStates.1 hf'
    rw [FS.leaf_set_ne _ _ hq]

theorem writeAll_run (p : Path) (b : Bytes) (env : Env) (w : World) :
    writeAll p b env w =
      if env.fault w.tick then
        (.error .io, (pushAll (writeStates w.cur p b (env.clock w.tick)
          (min (env.torn w.tick) b.length)) env { w with tick := w.tick + 1 }).2)
      else pushAll (writeStates w.cur p b (env.clock w.tick) b.length) env
        { w with tick := w.tick + 1 } := by
  unfold writeAll
  simp only [tick_bind, askEnv_bind, getFs_bind]
  split
  · rw [M.bind_of_ok (pushAll_run _ _ _), pushAll_run]; rfl
  · rfl

theorem writeAll_writes (p : Path) (b : Bytes) : Writes (· = p) (writeAll p b) := by
  intro env w
  rw [writeAll_run]
  refine Steps.trans (w1 := { w with tick := w.tick + 1 }) (.same rfl rfl) ?_
  split
  · exact pushAll_steps (frame_writeStates (w := { w with tick := w.tick + 1 }))
  · exact pushAll_steps (frame_writeStates (w := { w with tick := w.tick + 1 }))

theorem writeBuf_writes (p : Path) (b : Bytes) : Writes (· = p) (writeBuf p b) := by
  unfold writeBuf createFile
  have h1 := createPathForFile_writes (· = p) p
  have h2 := fileCreate_writes p
  have h3 := writeAll_writes p b
  rel_auto

theorem removeFile_writes (p : Path) : Writes (· = p) (removeFile p) := by
  unfold removeFile
  refine io_getFs_does (fun n env w => ?_)
  split
  · exact Steps.of_push (fun q hq => FS.leaf_del_ne _ hq)
  · exact Steps.of_push (fun q hq => FS.leaf_del_ne _ hq)
  · exact Steps.refl

theorem removeDir_writes (S : Path → Prop) (p : Path) : Writes S (removeDir p) := by
  unfold removeDir
  refine io_getFs_does (fun n env w => ?_)
  split
  · rename_i h
    exact Steps.of_push (fun q hq => FS.leaf_rmdir _ h.2.1 q)
  · exact Steps.refl

theorem FS.leaf_moveTree (fs : FS) {src dst : Path} (hs : src ≠ []) (hd : dst ≠ []) {q : Path}
    (h1 : ¬ src <+: q) (h2 : ¬ dst <+: q) : (fs.moveTree src dst).leaf q = fs.leaf q := by
  unfold FS.leaf
  rw [FS.get_moveTree fs hs hd]
  simp [h1, h2]

/-- How a rename ends. -/
inductive RenameEnd (src dst : Path) (w : World) : Except Err Unit × World → Prop
  | failed (e : Err) : RenameEnd src dst w (.error e, { w with tick := w.tick + 1 })
  | noop : src = dst → w.cur.get src ≠ none → w.cur.get src ≠ some .dir →
      RenameEnd src dst w (.ok (), { w with tick := w.tick + 1 })
  | movedDir : src ≠ [] → dst ≠ [] → w.cur.get dst.dropLast = some .dir →
      w.cur.get src = some .dir → ¬ src <+: dst → ¬ dst <+: src →
      (w.cur.get dst = none ∨ (w.cur.get dst = some .dir ∧ w.cur.hasChild dst = false)) →
      RenameEnd src dst w (.ok (), { w with
        tick := w.tick + 1, cur := w.cur.moveTree src dst, past := w.cur :: w.past })
  | movedFile (n : Node) : src ≠ [] → dst ≠ [] → w.cur.get dst.dropLast = some .dir →
      w.cur.get src = some n → n ≠ .dir → w.cur.get dst ≠ some .dir → src ≠ dst →
      RenameEnd src dst w (.ok (), { w with
        tick := w.tick + 1, cur := (w.cur.del src).set dst n, past := w.cur :: w.past })

theorem rename_end (src dst : Path) (env : Env) (w : World) :
    RenameEnd src dst w (rename src dst env w) := by
  unfold rename
  rw [io_bind]
  by_cases hf : env.fault w.tick = true
  · rw [if_pos hf]; exact .failed _
  rw [if_neg hf, getFs_bind]
  by_cases h0 : src = [] ∨ dst = [] ∨ w.cur.get dst.dropLast ≠ some .dir
  · rw [if_pos h0]; exact .failed _
  rw [if_neg h0]
  simp only [not_or, Decidable.not_not] at h0
  obtain ⟨a1, a2, a3⟩ := h0
  match h : w.cur.get src with
  | none => exact .failed _
  | some .dir =>
    dsimp only
    by_cases h1 : src <+: dst ∨ dst <+: src
    · rw [if_pos h1]; exact .failed _
    · rw [if_neg h1]
      simp only [not_or] at h1
      match h2 : w.cur.get dst with
      | none => exact .movedDir a1 a2 a3 h h1.1 h1.2 (Or.inl h2)
      | some .dir =>
        dsimp only
        by_cases h3 : w.cur.hasChild dst = true
        · rw [if_pos h3]; exact .failed _
        · rw [if_neg h3]
          exact .movedDir a1 a2 a3 h h1.1 h1.2 (Or.inr ⟨h2, by simpa using h3⟩)
      | some (.file _ _) => exact .failed _
      | some (.link _) => exact .failed _
  | some (.file b t) =>
    match hd : w.cur.get dst with
    | some .dir => exact .failed _
    | none =>
      dsimp only
      by_cases he : src = dst
      · rw [if_pos he]; exact .noop he (by simp [h]) (by simp [h])
      · rw [if_neg he]; exact .movedFile _ a1 a2 a3 h (by simp) (by simp [hd]) he
    | some (.file _ _) =>
      dsimp only
      by_cases he : src = dst
      · rw [if_pos he]; exact .noop he (by simp [h]) (by simp [h])
      · rw [if_neg he]; exact .movedFile _ a1 a2 a3 h (by simp) (by simp [hd]) he
    | some (.link _) =>
      dsimp only
      by_cases he : src = dst
      · rw [if_pos he]; exact .noop he (by simp [h]) (by simp [h])
      · rw [if_neg he]; exact .movedFile _ a1 a2 a3 h (by simp) (by simp [hd]) he
  | some (.link t) =>
    match hd : w.cur.get dst with
    | some .dir => exact .failed _
    | none =>
      dsimp only
      by_cases he : src = dst
      · rw [if_pos he]; exact .noop he (by simp [h]) (by simp [h])
      · rw [if_neg he]; exact .movedFile _ a1 a2 a3 h (by simp) (by simp [hd]) he
    | some (.file _ _) =>
      dsimp only
      by_cases he : src = dst
      · rw [if_pos he]; exact .noop he (by simp [h]) (by simp [h])
      · rw [if_neg he]; exact .movedFile _ a1 a2 a3 h (by simp) (by simp [hd]) he
    | some (.link _) =>
      dsimp only
      by_cases he : src = dst
      · rw [if_pos he]; exact .noop he (by simp [h]) (by simp [h])
      · rw [if_neg he]; exact .movedFile _ a1 a2 a3 h (by simp) (by simp [hd]) he

/-- A rename changes only what is at or below the two paths; renaming something that is
not a directory changes only the two paths. -/
theorem rename_steps (src dst : Path) (env : Env) (w : World) :
    Steps (Frame (fun q => if w.cur.get src = some .dir then src <+: q ∨ dst <+: q
      else q = src ∨ q = dst)) w (rename src dst env w).2 := by
  have h := rename_end src dst env w
  generalize rename src dst env w = r at h
  cases h with
  | failed e => exact .same rfl rfl
  | noop => exact .same rfl rfl
  | movedDir h1 h2 _ h4 =>
    refine .push .refl (fun q hq => ?_) rfl
    simp only [h4, if_true, not_or] at hq
    exact FS.leaf_moveTree _ h1 h2 hq.1 hq.2
  | movedFile n h1 h2 _ h4 h5 =>
    refine .push .refl (fun q hq => ?_) rfl
    have : ¬ w.cur.get src = some .dir := by rw [h4]; simpa using h5
    simp only [this, if_false, not_or] at hq
    show ((w.cur.del src).set dst n).leaf q = _
    rw [FS.leaf_set_ne _ _ hq.2, FS.leaf_del_ne _ hq.1]

theorem rename_writes (src dst : Path) :
    Writes (fun q => src <+: q ∨ dst <+: q) (rename src dst) := by
  intro env w
  refine Steps.mono (fun f f' h => h.mono (fun q hq => ?_)) (rename_steps src dst env w)
  split at hq
  · exact hq
  · rcases hq with rfl | rfl
    · exact Or.inl (List.prefix_refl _)
    · exact Or.inr (List.prefix_refl _)

theorem copyFile_writes (src dst : Path) : Writes (· = dst) (copyFile src dst) := by
  unfold copyFile
  have h0 : Writes (· = dst) (logCopy dst) := fun _ _ => .same rfl rfl
  have h1 := (readFile_same src).quiet (R := Frame (· = dst))
  have h2 := fileCreate_writes dst
  have h3 := fun b => writeAll_writes dst b
  refine Rel.bind h0 (fun _ => Rel.bind h1 (fun b => Rel.bind h2 (fun _ => h3 b)))

theorem symlink_writes (t : Name) (p : Path) : Writes (· = p) (symlink t p) := by
  unfold symlink
  refine io_getFs_does (fun n env w => ?_)
  split
  · exact Steps.refl
  · split
    · exact Steps.refl
    · exact Steps.of_push (fun q hq => FS.leaf_set_ne _ _ hq)

theorem setMtime_writes (p : Path) (t : Time) : Writes (· = p) (setMtime p t) := by
  unfold setMtime
  refine io_getFs_does (fun n env w => ?_)
  split
  · exact Steps.of_push (fun q hq => FS.leaf_set_ne _ _ hq)
  · exact Steps.refl

theorem unlink1_writes (p : Path) : Writes (· = p) (unlink1 p) := by
  unfold unlink1
  refine io_getFs_does (fun n env w => ?_)
  split
  · exact Steps.refl
  · exact Steps.of_push (fun q hq => FS.leaf_del_ne _ hq)

theorem removeDirAll_writes (p : Path) : Writes (p <+: ·) (removeDirAll p) := by
  unfold removeDirAll
  refine Rel.getFs_bind (fun env w => ?_)
  split
  · rename_i h
    rw [tick_bind, askEnv_bind]
    refine Steps.trans (w1 := { w with tick := w.tick + 1 }) (.same rfl rfl) ?_
    refine Rel.forEach (T := Steps (Frame (p <+: ·))) (fun q hq => ?_) env _
    rw [List.mem_reverse, mem_sortBy] at hq
    have := ((FS.mem_tree _ _ _ h.1).1 hq).1
    exact Writes.mono (unlink1_writes q) (fun x hx => hx ▸ this)
  · exact Steps.refl

theorem removeUp_writes (n : Nat) (p : Path) : Writes (· <+: p) (removeUp n p) := by
  induction n generalizing p with
  | zero =>
    unfold removeUp
    have h1 : Writes (· <+: p) (removeFile p) :=
      Writes.mono (removeFile_writes p) (fun q hq => hq ▸ List.prefix_refl _)
    have h2 := removeDir_writes (· <+: p) p
    rel_auto
  | succ n ih =>
    unfold removeUp
    have h1 : Writes (· <+: p) (removeFile p) :=
      Writes.mono (removeFile_writes p) (fun q hq => hq ▸ List.prefix_refl _)
    have h2 := removeDir_writes (· <+: p) p
    have h3 : Writes (· <+: p) (removeUp n p.dropLast) :=
      Writes.mono (ih p.dropLast) (fun q hq => hq.trans (List.dropLast_prefix p))
    rel_auto

end KSync
