import Verif.Lemmas.Phases

/-! # The phases of publication -/

set_option linter.unusedSectionVars false
set_option linter.unusedSimpArgs false
set_option linter.unusedVariables false

namespace KSync

/-! ## Creating directories -/

/-- The only change is that missing directories at or above `p` come into being. -/
def MkDirs (p : Path) (f f' : FS) : Prop :=
  ∀ q, f'.get q = f.get q ∨ (q <+: p ∧ f.get q = none ∧ f'.get q = some .dir)

theorem MkDirs.refl (p : Path) (f : FS) : MkDirs p f f := fun _ => Or.inl rfl

theorem MkDirs.trans {p : Path} {a b c : FS} (h : MkDirs p a b) (h' : MkDirs p b c) :
    MkDirs p a c := by
  intro q
  rcases h' q with h1 | ⟨h1, h2, h3⟩
  · rw [h1]; exact h q
  · rcases h q with h4 | ⟨_, _, h4⟩
    · exact Or.inr ⟨h1, h4 ▸ h2, h3⟩
    · rw [h2] at h4; cases h4

theorem mkdir1_mkdirs {p q : Path} (h : q <+: p) : Does (MkDirs p) (mkdir1 q) := by
  intro env w
  unfold mkdir1
  rw [getFs_bind]
  split
  · exact Steps.refl
  · exact Steps.refl
  · rename_i hg
    rw [io_bind]
    by_cases hf : env.fault w.tick
    · rw [if_pos hf]; exact .same rfl rfl
    · rw [if_neg hf]
      split
      · refine Steps.trans (w1 := { w with tick := w.tick + 1 }) (.same rfl rfl)
          (Steps.of_push (env := env) ?_)
        intro r
        by_cases hr : r = q
        · subst hr
          have hne : r ≠ [] := by
            rintro rfl
            simp [FS.get] at hg
          exact Or.inr ⟨h, hg, FS.get_set_self _ hne _⟩
        · exact Or.inl (FS.get_set_ne _ _ hr)
      · exact .same rfl rfl

theorem createDirAll_mkdirs (p : Path) : Does (MkDirs p) (createDirAll p) :=
  Rel.forEach (fun _ hq => mkdir1_mkdirs (prefix_of_mem_prefixes hq))

theorem createPathForFile_mkdirs (p : Path) : Does (MkDirs p.dropLast) (createPathForFile p) := by
  unfold createPathForFile
  split
  · exact Rel.throw _
  · exact createDirAll_mkdirs _

theorem MkDirs.leaf {p : Path} {f f' : FS} (h : MkDirs p f f') (q : Path) :
    f'.leaf q = f.leaf q := by
  unfold FS.leaf
  rcases h q with h1 | ⟨_, h1, h2⟩
  · rw [h1]
  · rw [h1, h2]

theorem Steps.mkdirs {p : Path} {w w' : World} (h : Steps (MkDirs p) w w') :
    MkDirs p w.cur w'.cur := h.ends (MkDirs.refl p) (fun _ _ _ => MkDirs.trans)

/-! ## Moving a file -/

/-- A step of moving a file with content `x` from `o` to `t`, if it is done by renaming. -/
def Moving (o t : Path) (x : Bytes) (f f' : FS) : Prop :=
  (∃ p, p <+: t ∧ p ≠ t ∧ MkDirs p f f') ∨
  (∃ τ, f' = (f.del o).set t (.file x τ) ∧ t ≠ [] ∧ o ≠ t)

theorem copyFile_copied {a b : Path} {env : Env} {w : World} :
    ∃ l, (copyFile a b env w).2.copied = l ++ b :: w.copied := by
  have h1 : Rel (Logs anyEff)
      (do let x ← readFile a; fileCreate b; writeAll b x) := by
    have := readFile_logs (E := anyEff) a
    have h2 := fileCreate_logs (E := anyEff) b
    have h3 := writeAll_logs (E := anyEff) b
    rel_auto
  obtain ⟨l, hl, _⟩ := (h1 env { w with copied := b :: w.copied }).copied
  exact ⟨l, hl⟩

theorem removeFile_copied {a : Path} {env : Env} {w : World} :
    (removeFile a env w).2.copied = w.copied := by
  exact LogIn.eq_of_false (removeFile_logs (E := Eff.none) a env w).copied

/-- Nothing at all changes except at `p`. -/
def OnlyAt (p : Path) (f f' : FS) : Prop := ∀ q, q ≠ p → f'.get q = f.get q

theorem OnlyAt.refl (p : Path) (f : FS) : OnlyAt p f f := fun _ _ => rfl

theorem OnlyAt.trans {p : Path} {a b c : FS} (h : OnlyAt p a b) (h' : OnlyAt p b c) :
    OnlyAt p a c := fun q hq => (h' q hq).trans (h q hq)

theorem fileCreate_only (p : Path) : Does (OnlyAt p) (fileCreate p) := by
  unfold fileCreate
  refine io_getFs_does (fun n env w => ?_)
  by_cases h : p = [] ∨ w.cur.get p.dropLast ≠ some .dir
  · rw [if_pos h]; exact Steps.refl
  · rw [if_neg h]
    split
    · exact Steps.refl
    · exact Steps.refl
    · exact Steps.of_push (env := env) (fun q hq => FS.get_set_ne _ _ hq)

theorem writeAll_only (p : Path) (b : Bytes) : Does (OnlyAt p) (writeAll p b) := by
  intro env w
  refine writeAll_steps p b env w (fun f i t hf q hq => ?_)
  rw [FS.get_set_ne _ _ hq]
  rcases hf with rfl | ⟨j, t', rfl⟩
  · rfl
  · rw [FS.get_set_ne _ _ hq]

theorem copyFile_only (a b : Path) : Does (OnlyAt b) (copyFile a b) := by
  unfold copyFile
  have h0 : Does (OnlyAt b) (logCopy b) := Rel.quiet (logCopy_same b)
  have h1 : Does (OnlyAt b) (readFile a) := Rel.quiet (readFile_same a)
  have h2 := fileCreate_only b
  have h3 := writeAll_only b
  rel_auto

theorem removeFile_only (p : Path) : Does (OnlyAt p) (removeFile p) := by
  unfold removeFile
  refine io_getFs_does (fun n env w => ?_)
  split
  · exact Steps.of_push (env := env) (fun q hq => FS.get_del_ne _ hq)
  · exact Steps.of_push (env := env) (fun q hq => FS.get_del_ne _ hq)
  · exact Steps.refl

theorem Steps.onlyAt {p : Path} {w w' : World} (h : Steps (OnlyAt p) w w') :
    OnlyAt p w.cur w'.cur := h.ends (OnlyAt.refl p) (fun _ _ _ => OnlyAt.trans)

/-- The part of `moveFile` after the directories were made. -/
def moveTail (o t : Path) : M Unit := getFs >>= fun fs =>
  if fs.exists? o = false then M.throw .missing
  else M.attempt (rename o t) >>= fun r => match r with
    | .ok _ => pure ()
    | .error _ => copyFile o t >>= fun _ => removeFile o

theorem moveFile_eq (a b : Path) (rel : Str) : moveFile a b rel =
    createPathForFile (joinPath b rel) >>= fun _ => moveTail (joinPath a rel) (joinPath b rel) :=
  rfl

/-- A move of a regular file. -/
theorem moveFile_run {a b : Path} {rel : Str} {env : Env} {w : World} {x : Bytes}
    (hx : w.cur.file? (joinPath a rel) = some x) (hne : joinPath a rel ≠ joinPath b rel)
    (hpre : ¬ joinPath a rel <+: joinPath b rel) :
    (∀ q, q ≠ joinPath a rel → q ≠ joinPath b rel → ¬ q <+: joinPath b rel →
      (moveFile a b rel env w).2.cur.get q = w.cur.get q) ∧
    (Frame (fun q => q = joinPath a rel ∨ q = joinPath b rel) w.cur
      (moveFile a b rel env w).2.cur) ∧
    ((moveFile a b rel env w).2.copied = w.copied →
      Steps (Moving (joinPath a rel) (joinPath b rel) x) w (moveFile a b rel env w).2) ∧
    ((moveFile a b rel env w).1 = .ok () →
      (moveFile a b rel env w).2.cur.file? (joinPath b rel) = some x ∧
      (moveFile a b rel env w).2.cur.get (joinPath a rel) = none) := by
  generalize ho : joinPath a rel = o at *
  generalize ht : joinPath b rel = t at *
  have hdl : ∀ {p : Path}, t ≠ [] → p = t.dropLast → p <+: t ∧ p ≠ t := by
    rintro p h rfl
    exact ⟨List.dropLast_prefix _, FS.dropLast_ne h⟩
  rw [moveFile_eq, ho, ht]
  have hmk := createPathForFile_mkdirs t env w
  rcases M.bind_cases (createPathForFile t) (fun _ => moveTail o t) env w with ⟨e, w1, h1, h2⟩ | ⟨_, w1, h1, h2⟩
  · rw [h2]
    rw [h1] at hmk
    refine ⟨fun q _ _ hq => ?_, fun q _ => hmk.mkdirs.leaf q, fun _ => ?_, fun h => by cases h⟩
    · rcases hmk.mkdirs q with h3 | ⟨h3, _⟩
      · exact h3
      · exact absurd (h3.trans (List.dropLast_prefix _)) hq
    by_cases htn : t = []
    · unfold createPathForFile at h1
      rw [if_pos htn] at h1
      cases h1
      exact Steps.refl
    · exact hmk.mono (fun f f' h => Or.inl ⟨_, (hdl htn rfl).1, (hdl htn rfl).2, h⟩)
  · rw [h2]
    rw [h1] at hmk
    dsimp only at hmk
    have htn : t ≠ [] := by
      rintro rfl
      unfold createPathForFile at h1
      rw [if_pos rfl] at h1
      cases h1
    have hmk' : Steps (Moving o t x) w w1 :=
      hmk.mono (fun f f' h => Or.inl ⟨_, (hdl htn rfl).1, (hdl htn rfl).2, h⟩)
    have hleaf := hmk.mkdirs.leaf
    have hget : ∀ q, ¬ q <+: t → w1.cur.get q = w.cur.get q := by
      intro q hq
      rcases hmk.mkdirs q with h3 | ⟨h3, _⟩
      · exact h3
      · exact absurd (h3.trans (List.dropLast_prefix _)) hq
    have hcop : w1.copied = w.copied := by
      have := (createPathForFile_logs (E := Eff.none) t env w).copied
      rw [h1] at this
      exact LogIn.eq_of_false this
    have hx1 : w1.cur.file? o = some x := by rw [FS.file?_of_leaf (hleaf o)]; exact hx
    obtain ⟨τ, hg⟩ := FS.file?_some.1 hx1
    have hex : w1.cur.exists? o = true := by
      unfold FS.exists? FS.resolve; rw [hg]; rfl
    unfold moveTail
    rw [getFs_bind, if_neg (by rw [hex]; simp), attempt_bind]
    have hend := rename_end o t env w1
    match hr : rename o t env w1 with
    | (r, w2) =>
    rw [hr] at hend
    dsimp only
    cases hend with
    | noop h => exact absurd h hne
    | movedDir _ _ _ h => rw [hg] at h; cases h
    | movedFile n h3 h4 h5 h6 h7 h8 h9 =>
      rw [hg] at h6
      cases h6
      refine ⟨fun q hq1 hq2 hq3 => ?_, fun q hq => ?_, fun _ => ?_, fun _ => ⟨?_, ?_⟩⟩
      · show ((w1.cur.del o).set t (.file x τ)).get q = w.cur.get q
        rw [FS.get_set_ne _ _ hq2, FS.get_del_ne _ hq1]
        exact hget q hq3
      · simp only [not_or] at hq
        show ((w1.cur.del o).set t (.file x τ)).leaf q = w.cur.leaf q
        rw [FS.leaf_set_ne _ _ hq.2, FS.leaf_del_ne _ hq.1]
        exact hleaf q
      · refine Steps.push hmk' (Or.inr ⟨τ, rfl, htn, hne⟩) rfl
      · show ((w1.cur.del o).set t (.file x τ)).file? t = some x
        rw [FS.file?_some]
        exact ⟨τ, FS.get_set_self _ h4 _⟩
      · show ((w1.cur.del o).set t (.file x τ)).get o = none
        rw [FS.get_set_ne _ _ hne, FS.get_del_self _ h3]
    | failed e =>
      dsimp only
      generalize hw2 : ({ w1 with tick := w1.tick + 1 } : World) = w2
      have hc2 : w2.cur = w1.cur := by rw [← hw2]
      have hcp2 : w2.copied = w.copied := by rw [← hw2]; exact hcop
      -- the copy
      have hcopy : Frame (· = t) w2.cur (copyFile o t env w2).2.cur :=
        Steps.ends (copyFile_writes o t env w2) (Frame.refl) (fun _ _ _ => Frame.trans)
      refine ⟨?_, ?_, ?_, ?_⟩
      · intro q hq1 hq2 hq3
        have hcp := (copyFile_only o t env w2).onlyAt q hq2
        rcases M.bind_cases (copyFile o t) (fun _ => removeFile o) env w2 with
          ⟨e, w3, h3, h4⟩ | ⟨_, w3, h3, h4⟩
        · rw [h4]; rw [h3] at hcp
          rw [hcp, hc2]; exact hget q hq3
        · rw [h4]; rw [h3] at hcp
          rw [(removeFile_only o env w3).onlyAt q hq1, hcp, hc2]; exact hget q hq3
      · intro q hq
        simp only [not_or] at hq
        rcases M.bind_cases (copyFile o t) (fun _ => removeFile o) env w2 with
          ⟨e, w3, h3, h4⟩ | ⟨_, w3, h3, h4⟩
        · rw [h4]; rw [h3] at hcopy
          rw [hcopy q hq.2, hc2]; exact hleaf q
        · rw [h4]; rw [h3] at hcopy
          have hrm : Frame (· = o) w3.cur (removeFile o env w3).2.cur :=
            Steps.ends (removeFile_writes o env w3) (Frame.refl) (fun _ _ _ => Frame.trans)
          rw [hrm q hq.1, hcopy q hq.2, hc2]; exact hleaf q
      · intro hcp
        exfalso
        obtain ⟨l, hl⟩ := copyFile_copied (a := o) (b := t) (env := env) (w := w2)
        rw [hcp2] at hl
        rcases M.bind_cases (copyFile o t) (fun _ => removeFile o) env w2 with
          ⟨e, w3, h3, h4⟩ | ⟨_, w3, h3, h4⟩
        · rw [h4] at hcp; rw [h3] at hl
          have := congrArg List.length (hl.symm.trans hcp)
          simp at this
          omega
        · rw [h4, removeFile_copied] at hcp; rw [h3] at hl
          have := congrArg List.length (hl.symm.trans hcp)
          simp at this
          omega
      · intro hok
        match hfin : (do copyFile o t; removeFile o : M Unit) env w2 with
        | (r, w4) =>
        rw [hfin] at hok
        dsimp only at hok
        subst hok
        obtain ⟨_, w3, h3, h4⟩ := M.bind_ok.1 hfin
        dsimp only
        -- after the copy
        have ht3 : w3.cur.file? t = some x := by
          unfold copyFile at h3
          obtain ⟨_, w5, h5, h6⟩ := M.bind_ok.1 h3
          obtain ⟨y, w6, h7, h8⟩ := M.bind_ok.1 h6
          obtain ⟨_, w7, h9, h10⟩ := M.bind_ok.1 h8
          have hw5 : w5.cur = w2.cur := by
            unfold logCopy at h5; cases h5; rfl
          have hy : y = x := by
            have := (readFile_ok h7).1
            rw [hw5, hc2] at this
            unfold FS.read FS.resolve at this
            rw [hg] at this
            cases this; rfl
          subst hy
          obtain ⟨t', ht'⟩ := writeAll_ok h10
          rw [ht', FS.file?_some]
          exact ⟨t', FS.get_set_self _ htn _⟩
        unfold removeFile at h4
        rw [io_bind] at h4
        by_cases hf : env.fault w3.tick
        · rw [if_pos hf] at h4; cases h4
        · rw [if_neg hf, getFs_bind] at h4
          dsimp only at h4
          have ho3 : o ≠ [] := by
            rintro rfl
            exact hpre (List.nil_prefix)
          split at h4
          · cases h4
            refine ⟨?_, FS.get_del_self _ ho3⟩
            show (w3.cur.del o).file? t = some x
            rw [FS.file?_of_leaf (FS.leaf_del_ne _ (Ne.symm hne))]; exact ht3
          · cases h4
            refine ⟨?_, FS.get_del_self _ ho3⟩
            show (w3.cur.del o).file? t = some x
            rw [FS.file?_of_leaf (FS.leaf_del_ne _ (Ne.symm hne))]; exact ht3
          · cases h4


/-! ## Moving all staged files -/

theorem forEach_map {α β : Type} (l : List α) (g : α → β) (f : β → M Unit) :
    M.forEach (l.map g) f = M.forEach l (fun a => f (g a)) := by
  induction l with
  | nil => rfl
  | cons a l ih => simp only [List.map_cons, M.forEach, ih]

/-- The relative paths of the staged files. -/
def StagedChanges.rels (st : StagedChanges) : List Str :=
  st.snapshot.relPath :: st.deltas.map (·.relPath)

theorem moveStaged_eq (c : Config) (st : StagedChanges) :
    moveStaged c st = M.forEach st.rels (moveFile c.stagingDir c.rrdpDir) := by
  unfold StagedChanges.rels
  show _ = M.bind _ (fun _ => M.forEach (st.deltas.map (·.relPath)) _)
  rw [forEach_map]
  rfl

variable [Ext]

/-- A staged file: still there with the right hash, or gone. -/
def StillStaged (c : Config) (f : FS) (rel : Str) (h : Hash) : Prop :=
  FileHas f (c.stagingDir ++ comps rel) h ∨ f.get (c.stagingDir ++ comps rel) = none

/-- Before, or moved. -/
def StagedOrMoved (c : Config) (f : FS) (rel : Str) (h : Hash) : Prop :=
  FileHas f (c.stagingDir ++ comps rel) h ∨
  (f.get (c.stagingDir ++ comps rel) = none ∧ FileHas f (c.rrdpDir ++ comps rel) h)

theorem comps_nonempty_ne {p : Path} {rel : Str} (h : CleanRel rel) : p ++ comps rel ≠ [] := by
  intro h'
  exact h.nonempty (List.append_eq_nil_iff.1 h').2

theorem FileHas.of_leaf {f f' : FS} {p : Path} {h : Hash} (hf : FileHas f p h)
    (hl : f'.leaf p = f.leaf p) : FileHas f' p h := by
  obtain ⟨b, h1, h2⟩ := hf
  exact ⟨b, by rw [FS.file?_of_leaf hl]; exact h1, h2⟩

theorem MkDirs.fileHas {p q : Path} {f f' : FS} {h : Hash} (hm : MkDirs p f f')
    (hf : FileHas f q h) : FileHas f' q h := hf.of_leaf (hm.leaf q)

theorem moveFile_missing {a b : Path} {rel : Str} {env : Env} {w : World}
    (h : w.cur.get (joinPath a rel) = none)
    (hpre : ¬ joinPath a rel <+: joinPath b rel) :
    (∃ e, (moveFile a b rel env w).1 = .error e) ∧
    ∃ p, p <+: joinPath b rel ∧ (joinPath b rel ≠ [] → p ≠ joinPath b rel) ∧
      Steps (MkDirs p) w (moveFile a b rel env w).2 := by
  rw [moveFile_eq]
  have hmk := createPathForFile_mkdirs (joinPath b rel) env w
  have hpp := List.dropLast_prefix (joinPath b rel)
  rcases M.bind_cases (createPathForFile (joinPath b rel))
    (fun _ => moveTail (joinPath a rel) (joinPath b rel)) env w with ⟨e, w1, h1, h2⟩ | ⟨_, w1, h1, h2⟩
  · rw [h2]; rw [h1] at hmk
    exact ⟨⟨e, rfl⟩, _, hpp, FS.dropLast_ne, hmk⟩
  · rw [h2]; rw [h1] at hmk
    dsimp only at hmk
    unfold moveTail
    have hg : w1.cur.get (joinPath a rel) = none := by
      rcases hmk.mkdirs (joinPath a rel) with h3 | ⟨h3, _, _⟩
      · rw [h3]; exact h
      · exact absurd (h3.trans hpp) hpre
    have hex : w1.cur.exists? (joinPath a rel) = false := by
      unfold FS.exists? FS.resolve; rw [hg]; rfl
    rw [getFs_bind, if_pos hex]
    exact ⟨⟨_, rfl⟩, _, hpp, FS.dropLast_ne, hmk⟩

/-- One successful move keeps every file staged or moved. -/
theorem moveFile_keeps {c : Config} (hap : Apart c.rrdpDir c.stagingDir) {rel : Str}
    (hr : CleanRel rel) {hash : Hash} {env : Env} {w w' : World}
    (hI : StagedOrMoved c w.cur rel hash)
    (h : moveFile c.stagingDir c.rrdpDir rel env w = (.ok (), w')) :
    (w'.cur.get (c.stagingDir ++ comps rel) = none ∧
      FileHas w'.cur (c.rrdpDir ++ comps rel) hash) ∧
    ∀ rel' hash', CleanRel rel' →
      (StagedOrMoved c w.cur rel' hash' → StagedOrMoved c w'.cur rel' hash') ∧
      ((w.cur.get (c.stagingDir ++ comps rel') = none ∧
          FileHas w.cur (c.rrdpDir ++ comps rel') hash') →
        w'.cur.get (c.stagingDir ++ comps rel') = none ∧
          FileHas w'.cur (c.rrdpDir ++ comps rel') hash') := by
  have hne : joinPath c.stagingDir rel ≠ joinPath c.rrdpDir rel := by
    rw [joinPath_clean hr, joinPath_clean hr]
    exact hap.symm.ne_append _ _
  have hpre : ¬ joinPath c.stagingDir rel <+: joinPath c.rrdpDir rel := by
    rw [joinPath_clean hr, joinPath_clean hr]
    intro hp
    exact hap.not_both (List.prefix_append _ _) ((List.prefix_append _ _).trans hp)
  rcases hI with ⟨x, hx, hsha⟩ | ⟨hnone, _⟩
  · rw [← joinPath_clean hr] at hx
    obtain ⟨h0, h1, _, h3⟩ := moveFile_run (env := env) hx hne hpre
    rw [h] at h0 h1 h3
    obtain ⟨h4, h5⟩ := h3 rfl
    dsimp only at h1 h4 h5
    rw [joinPath_clean hr] at h4 h5
    rw [joinPath_clean hr, joinPath_clean hr] at h1
    refine ⟨⟨h5, x, h4, hsha⟩, fun rel' hash' hr' => ?_⟩
    have hdone : (w.cur.get (c.stagingDir ++ comps rel') = none ∧
          FileHas w.cur (c.rrdpDir ++ comps rel') hash') →
        w'.cur.get (c.stagingDir ++ comps rel') = none ∧
          FileHas w'.cur (c.rrdpDir ++ comps rel') hash' := by
      rintro ⟨hn, hf⟩
      have hc : comps rel' ≠ comps rel := by
        intro hc
        rw [hc, ← joinPath_clean hr] at hn
        unfold FS.file? at hx; rw [hn] at hx; cases hx
      have e1 : c.stagingDir ++ comps rel' ≠ c.stagingDir ++ comps rel := by
        intro he; exact hc (List.append_cancel_left he)
      have e2 : c.rrdpDir ++ comps rel' ≠ c.rrdpDir ++ comps rel := by
        intro he; exact hc (List.append_cancel_left he)
      have e3 : c.stagingDir ++ comps rel' ≠ c.rrdpDir ++ comps rel := hap.symm.ne_append _ _
      have e4 : c.rrdpDir ++ comps rel' ≠ c.stagingDir ++ comps rel := hap.ne_append _ _
      refine ⟨?_, hf.of_leaf (h1 _ (by simp only [not_or]; exact ⟨e4, e2⟩))⟩
      -- nothing comes into being at a staging path
      rw [joinPath_clean hr, joinPath_clean hr] at h0
      rw [h0 _ e1 e3 (fun hp => hap.not_both (List.prefix_append c.rrdpDir (comps rel))
        ((List.prefix_append _ _).trans hp))]
      exact hn
    refine ⟨fun hI' => ?_, hdone⟩
    rcases hI' with hf | hf
    · by_cases hc : comps rel' = comps rel
      · unfold StagedOrMoved
        rw [hc] at hf ⊢
        refine Or.inr ⟨h5, x, h4, ?_⟩
        rw [← joinPath_clean hr] at hf
        obtain ⟨y, hy, hys⟩ := hf
        rw [hx] at hy; cases hy; exact hys
      · have e1 : c.stagingDir ++ comps rel' ≠ c.stagingDir ++ comps rel := by
          intro he; exact hc (List.append_cancel_left he)
        have e3 : c.stagingDir ++ comps rel' ≠ c.rrdpDir ++ comps rel := hap.symm.ne_append _ _
        exact Or.inl (hf.of_leaf (h1 _ (by simp only [not_or]; exact ⟨e1, e3⟩)))
    · exact Or.inr (hdone hf)
  · rw [← joinPath_clean hr] at hnone
    obtain ⟨⟨e, he⟩, _⟩ := moveFile_missing (env := env) hnone hpre
    rw [h] at he; cases he


/-- After all moves succeeded every file is in place. -/
theorem moves_ok {c : Config} (hap : Apart c.rrdpDir c.stagingDir) {refs : List (Str × Hash)}
    (hc : ∀ r ∈ refs, CleanRel r.1) {env : Env} {l : List (Str × Hash)} :
    ∀ {w w' : World}, (∀ r ∈ l, r ∈ refs) → (∀ r ∈ refs, StagedOrMoved c w.cur r.1 r.2) →
    M.forEach (l.map (·.1)) (moveFile c.stagingDir c.rrdpDir) env w = (.ok (), w') →
    (∀ r ∈ refs, StagedOrMoved c w'.cur r.1 r.2) ∧
    (∀ r ∈ refs, (w.cur.get (c.stagingDir ++ comps r.1) = none ∧
        FileHas w.cur (c.rrdpDir ++ comps r.1) r.2) →
      w'.cur.get (c.stagingDir ++ comps r.1) = none ∧
        FileHas w'.cur (c.rrdpDir ++ comps r.1) r.2) ∧
    ∀ r ∈ l, FileHas w'.cur (c.rrdpDir ++ comps r.1) r.2 := by
  induction l with
  | nil =>
    intro w w' _ hI h
    cases h
    exact ⟨hI, fun _ _ h => h, by simp⟩
  | cons a l ih =>
    intro w w' hl hI h
    rw [List.map_cons, forEach_cons_ok] at h
    obtain ⟨w1, h1, h2⟩ := h
    have ha := hl a (by simp)
    obtain ⟨k1, k2⟩ := moveFile_keeps hap (hc a ha) (hI a ha) h1
    obtain ⟨j1, j2, j3⟩ := ih (fun r hr => hl r (by simp [hr]))
      (fun r hr => (k2 r.1 r.2 (hc r hr)).1 (hI r hr)) h2
    refine ⟨j1, fun r hr hd => j2 r hr ((k2 r.1 r.2 (hc r hr)).2 hd), fun r hr => ?_⟩
    rcases List.mem_cons.1 hr with rfl | hr
    · exact (j2 _ ha k1).2
    · exact j3 r hr

/-! ## Runs that do not copy -/

/-- If nothing is copied, `P` is kept at every crash point. -/
def KeepsNC (P : FS → Prop) (w w' : World) : Prop :=
  (∃ d, w'.copied = d ++ w.copied) ∧ (w'.copied = w.copied → Keeps P w w')

instance (P : FS → Prop) : Tr (KeepsNC P) where
  refl w := ⟨⟨[], rfl⟩, fun _ => Tr.refl w⟩
  trans {a b c} h h' := by
    obtain ⟨⟨d, h1⟩, h2⟩ := h
    obtain ⟨⟨d', h3⟩, h4⟩ := h'
    refine ⟨⟨d' ++ d, by rw [h3, h1, List.append_assoc]⟩, fun hc => ?_⟩
    rw [h3, h1] at hc
    have hl := congrArg List.length hc
    simp only [List.length_append] at hl
    have e1 : d = [] := List.eq_nil_of_length_eq_zero (by omega)
    have e2 : d' = [] := List.eq_nil_of_length_eq_zero (by omega)
    subst e1; subst e2
    exact Tr.trans (h2 (by simpa using h1)) (h4 (by simpa using h3))

theorem KeepsNC.of_within {E : Eff} {P : FS → Prop} {w w' : World} (h : Within E w w')
    (hP : w'.copied = w.copied → Keeps P w w') : KeepsNC P w w' := by
  obtain ⟨d, h1, _⟩ := h.logs.copied
  exact ⟨⟨d, h1⟩, hP⟩

/-- What the moves do, as long as nothing is copied: `fs0` is the file system before. -/
structure MovePhase (c : Config) (fs0 : FS) (refs : List (Str × Hash)) (f : FS) : Prop where
  staged : ∀ r ∈ refs, StillStaged c f r.1 r.2
  other : ∀ q, ¬ c.stagingDir <+: q → f.leaf q = fs0.leaf q ∨
    ∃ r ∈ refs, q = c.rrdpDir ++ comps r.1 ∧ FileHas f q r.2

theorem MovePhase.mkdirs {c : Config} (hap : Apart c.rrdpDir c.stagingDir) {fs0 f f' : FS}
    {refs : List (Str × Hash)} {p t : Path} (ht : c.rrdpDir <+: t) (hp : p <+: t)
    (h : MovePhase c fs0 refs f) (hm : MkDirs p f f') : MovePhase c fs0 refs f' := by
  refine ⟨fun r hr => ?_, fun q hq => ?_⟩
  · rcases h.staged r hr with h1 | h1
    · exact Or.inl (hm.fileHas h1)
    · refine Or.inr ?_
      rcases hm (c.stagingDir ++ comps r.1) with h2 | ⟨h2, _⟩
      · rw [h2]; exact h1
      · exact (hap.not_both ht (((List.prefix_append _ _).trans h2).trans hp)).elim
  · rcases h.other q hq with h1 | ⟨r, hr, h1, h2⟩
    · exact Or.inl ((hm.leaf q).trans h1)
    · exact Or.inr ⟨r, hr, h1, hm.fileHas h2⟩

theorem moveFile_phase {c : Config} (hap : Apart c.rrdpDir c.stagingDir) {fs0 : FS}
    {refs : List (Str × Hash)} (hc : ∀ r ∈ refs, CleanRel r.1) {r : Str × Hash} (hr : r ∈ refs)
    {env : Env} {w : World} (h0 : (moveFile c.stagingDir c.rrdpDir r.1 env w).2.copied = w.copied) :
    Keeps (MovePhase c fs0 refs) w (moveFile c.stagingDir c.rrdpDir r.1 env w).2 := by
  intro hP
  have hcl := hc r hr
  have ht : c.rrdpDir <+: joinPath c.rrdpDir r.1 := hcl.below.prefix _
  have hne : joinPath c.stagingDir r.1 ≠ joinPath c.rrdpDir r.1 := by
    rw [joinPath_clean hcl, joinPath_clean hcl]
    exact hap.symm.ne_append _ _
  have hpre : ¬ joinPath c.stagingDir r.1 <+: joinPath c.rrdpDir r.1 := by
    intro hp
    exact hap.not_both ht ((hcl.below.prefix _).trans hp)
  rcases hP.staged r hr with ⟨x, hx, hsha⟩ | hnone
  · rw [← joinPath_clean hcl] at hx
    obtain ⟨_, _, hs, _⟩ := moveFile_run (env := env) hx hne hpre
    refine Keeps.of_steps (hs h0) ?_ hP
    rintro f f' hf (⟨p, hp1, _, hm⟩ | ⟨τ, rfl, htn, _⟩)
    · exact hf.mkdirs hap ht hp1 hm
    · rw [joinPath_clean hcl, joinPath_clean hcl] at *
      refine ⟨fun r' hr' => ?_, fun q hq => ?_⟩
      · by_cases hcc : comps r'.1 = comps r.1
        · refine Or.inr ?_
          rw [hcc, FS.get_set_ne _ _ hne, FS.get_del_self]
          exact comps_nonempty_ne hcl
        · have e1 : c.stagingDir ++ comps r'.1 ≠ c.stagingDir ++ comps r.1 := by
            intro he; exact hcc (List.append_cancel_left he)
          have e3 : c.stagingDir ++ comps r'.1 ≠ c.rrdpDir ++ comps r.1 := hap.symm.ne_append _ _
          rcases hf.staged r' hr' with h1 | h1
          · exact Or.inl (h1.of_leaf (by rw [FS.leaf_set_ne _ _ e3, FS.leaf_del_ne _ e1]))
          · exact Or.inr (by rw [FS.get_set_ne _ _ e3, FS.get_del_ne _ e1]; exact h1)
      · by_cases hqt : q = c.rrdpDir ++ comps r.1
        · refine Or.inr ⟨r, hr, hqt, x, ?_, hsha⟩
          subst hqt
          rw [FS.file?_some]
          exact ⟨τ, FS.get_set_self _ htn _⟩
        · have hqo : q ≠ c.stagingDir ++ comps r.1 := by
            rintro rfl; exact hq (List.prefix_append _ _)
          have hl : ((f.del (c.stagingDir ++ comps r.1)).set (c.rrdpDir ++ comps r.1)
              (.file x τ)).leaf q = f.leaf q := by
            rw [FS.leaf_set_ne _ _ hqt, FS.leaf_del_ne _ hqo]
          rcases hf.other q hq with h1 | ⟨r', hr', h1, h2⟩
          · exact Or.inl (hl.trans h1)
          · exact Or.inr ⟨r', hr', h1, h2.of_leaf hl⟩
  · rw [← joinPath_clean hcl] at hnone
    obtain ⟨_, p, hp, _, hs⟩ := moveFile_missing (env := env) hnone hpre
    exact Keeps.of_steps hs (fun f f' hf hm => hf.mkdirs hap ht hp hm) hP

theorem moveFile_copied {a b : Path} {rel : Str} {env : Env} {w : World} :
    ∃ d, (moveFile a b rel env w).2.copied = d ++ w.copied := by
  have := moveFile_in (E := anyEff)
    (a := a) (b := b) (r := rel) (fun _ _ => trivial) trivial env w
  obtain ⟨d, h1, _⟩ := this.logs.copied
  exact ⟨d, h1⟩

theorem moves_phase {c : Config} (hap : Apart c.rrdpDir c.stagingDir) {fs0 : FS}
    {refs : List (Str × Hash)} (hc : ∀ r ∈ refs, CleanRel r.1) {l : List (Str × Hash)}
    (hl : ∀ r ∈ l, r ∈ refs) :
    Rel (KeepsNC (MovePhase c fs0 refs))
      (M.forEach (l.map (·.1)) (moveFile c.stagingDir c.rrdpDir)) := by
  rw [forEach_map]
  exact Rel.forEach (fun r hr env w => ⟨moveFile_copied, moveFile_phase hap hc (hl r hr)⟩)

end KSync
