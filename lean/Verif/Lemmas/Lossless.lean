import Verif.Lemmas.MoveCrash

/-! # Moving files loses none of them, whatever goes wrong -/

set_option linter.unusedSectionVars false
set_option linter.unusedSimpArgs false
set_option linter.unusedVariables false

namespace KSync

variable [Ext]

/-- Of the two ends of a move of a file with content `x`, one holds the file; nothing else has
changed. -/
structure Lossless (o t : Path) (x : Bytes) (fs f : FS) : Prop where
  others : ∀ q, q ≠ o → q ≠ t → f.leaf q = fs.leaf q
  still : ∀ q, q ≠ o → ¬ q <+: t → f.get q = fs.get q
  ends : f.file? o = some x ∨ (f.get o = none ∧ f.file? t = some x)

theorem FS.file?_leaf {f : FS} {q : Path} {x : Bytes} (h : f.file? q = some x) :
    ∃ τ, f.leaf q = some (.file x τ) := by
  obtain ⟨τ, hg⟩ := FS.file?_some.1 h
  exact ⟨τ, by unfold FS.leaf; rw [hg]⟩

/-- While only `t` is written, the file stays at `o`. -/
theorem keeps_lossless_of_writes {o t : Path} {x : Bytes} {fs : FS} (hne : o ≠ t) {w w' : World}
    (h : Steps (OnlyAt t) w w') :
    Keeps (fun f => Lossless o t x fs f ∧ f.file? o = some x) w w' := by
  refine Keeps.of_steps h (fun f f' ⟨h1, h2⟩ hf => ?_)
  have h3 : f'.file? o = some x := by rw [FS.file?_of_leaf (hf.leaf hne)]; exact h2
  refine ⟨⟨fun q ho ht => ?_, fun q ho ht => ?_, Or.inl h3⟩, h3⟩
  · rw [hf.leaf ht]; exact h1.others q ho ht
  · rw [hf q (by rintro rfl; exact ht (List.prefix_refl _))]; exact h1.still q ho ht

theorem removeFile_del (p : Path) : Does (fun f f' => f' = f.del p) (removeFile p) := by
  unfold removeFile
  refine io_getFs_does (fun n env w => ?_)
  split
  · exact Steps.of_push (env := env) rfl
  · exact Steps.of_push (env := env) rfl
  · exact Steps.refl

/-- Whatever fails while a file is moved, and wherever the process stops, the file is whole at
one of the two ends. -/
theorem moveFile_lossless {a b : Path} {rel : Str} {x : Bytes} {env : Env} {w : World}
    (hx : w.cur.file? (joinPath a rel) = some x) (hne : joinPath a rel ≠ joinPath b rel)
    (hpre : ¬ joinPath a rel <+: joinPath b rel) :
    Keeps (Lossless (joinPath a rel) (joinPath b rel) x w.cur) w (moveFile a b rel env w).2 := by
  rw [moveFile_eq]
  generalize joinPath a rel = o at *
  generalize joinPath b rel = t at *
  have ho : o ≠ [] := by rintro rfl; exact hpre List.nil_prefix
  generalize hfs : w.cur = fs at *
  refine Tr.bindAt ?_ ?_
  · refine Keeps.of_steps (createPathForFile_mkdirs t env w) (fun f f' h hm => ?_)
    refine ⟨fun q h1 h2 => by rw [hm.leaf]; exact h.others q h1 h2, fun q h1 h2 => ?_, ?_⟩
    · rcases hm q with h3 | ⟨h3, _, _⟩
      · rw [h3]; exact h.still q h1 h2
      · exact absurd (h3.trans (List.dropLast_prefix t)) h2
    rcases h.ends with h | ⟨h1, h2⟩
    · left; rw [FS.file?_of_leaf (hm.leaf o)]; exact h
    · right
      refine ⟨?_, by rw [FS.file?_of_leaf (hm.leaf t)]; exact h2⟩
      rcases hm o with h3 | ⟨h3, _, _⟩
      · rw [h3]; exact h1
      · exact absurd (h3.trans (List.dropLast_prefix t)) hpre
  · intro _ w1 h1
    have hmk := createPathForFile_mkdirs t env w
    rw [h1] at hmk
    have hl : ∀ q, w1.cur.leaf q = fs.leaf q := by
      intro q
      rw [hmk.mkdirs.leaf, hfs]
    have hst : ∀ q, ¬ q <+: t → w1.cur.get q = fs.get q := by
      intro q hq
      rw [← hfs]
      rcases hmk.mkdirs q with h3 | ⟨h3, _, _⟩
      · exact h3
      · exact absurd (h3.trans (List.dropLast_prefix t)) hq
    have hx1 : w1.cur.file? o = some x := by rw [FS.file?_of_leaf (hl o)]; exact hx
    unfold moveTail
    rw [getFs_bind]
    by_cases hex : w1.cur.exists? o = false
    · rw [if_pos hex]; exact fun h => ⟨h, fun f hf => .inl hf⟩
    rw [if_neg hex]
    obtain ⟨τ, hg⟩ := FS.file?_some.1 hx1
    have hq0 : Lossless o t x fs w1.cur := ⟨fun q _ _ => hl q, fun q _ => hst q, .inl hx1⟩
    rw [attempt_bind]
    have hend := rename_end o t env w1
    match hr : rename o t env w1 with
    | (r, w2) =>
    rw [hr] at hend
    dsimp only
    cases hend with
    | noop h => exact absurd h hne
    | movedDir _ _ _ h => rw [hg] at h; cases h
    | movedFile n h3 h4 h5 h6 h7 h8 h9 =>
      rw [hg] at h6
      cases h6
      refine fun _ => ⟨⟨fun q h1 h2 => ?_, fun q h1 h2 => ?_, Or.inr ⟨?_, ?_⟩⟩, fun f hf => ?_⟩
      · show ((w1.cur.del o).set t (.file x τ)).leaf q = fs.leaf q
        rw [FS.leaf_set_ne _ _ h2, FS.leaf_del_ne _ h1]
        exact hl q
      · show ((w1.cur.del o).set t (.file x τ)).get q = fs.get q
        rw [FS.get_set_ne _ _ (by rintro rfl; exact h2 (List.prefix_refl _)), FS.get_del_ne _ h1]
        exact hst q h2
      · show ((w1.cur.del o).set t (.file x τ)).get o = none
        rw [FS.get_set_ne _ _ hne, FS.get_del_self _ h3]
      · show ((w1.cur.del o).set t (.file x τ)).file? t = some x
        rw [FS.file?_some]
        exact ⟨τ, FS.get_set_self _ h4 _⟩
      · rcases List.mem_cons.1 hf with rfl | hf
        · exact Or.inr hq0
        · exact Or.inl hf
    | failed e =>
      dsimp only
      generalize hw2 : ({ w1 with tick := w1.tick + 1 } : World) = w2
      have hc2 : w2.cur = w1.cur := by rw [← hw2]
      have hp2 : w2.past = w1.past := by rw [← hw2]
      have hk : Keeps (Lossless o t x fs) w2 ((do copyFile o t; removeFile o : M Unit) env w2).2 := by
        refine Tr.bindAt ?_ ?_
        · exact Keeps.via (keeps_lossless_of_writes (x := x) (fs := fs) hne
            (copyFile_only o t env w2)) (by rw [hc2]; exact ⟨hq0, hx1⟩) (fun f h => h.1)
        · intro _ w3 h3
          have ht3 : w3.cur.file? t = some x := by
            have htn : t ≠ [] := by
              rintro rfl
              unfold createPathForFile at h1
              rw [if_pos rfl] at h1
              cases h1
            unfold copyFile at h3
            obtain ⟨_, w5, h5, h6⟩ := M.bind_ok.1 h3
            obtain ⟨y, w6, h7, h8⟩ := M.bind_ok.1 h6
            obtain ⟨_, w7, h9, h10⟩ := M.bind_ok.1 h8
            have hw5 : w5.cur = w2.cur := by
              unfold logCopy at h5; cases h5; rfl
            have hy : y = x := by
              have := (readFile_ok h7).1
              rw [hw5, hc2] at this
              unfold FS.read FS.resolve at this
              rw [hg] at this
              cases this; rfl
            subst hy
            obtain ⟨t', ht'⟩ := writeAll_ok h10
            rw [ht', FS.file?_some]
            exact ⟨t', FS.get_set_self _ htn _⟩
          refine Keeps.via (Q := fun f => Lossless o t x fs f ∧ f.file? t = some x) ?_
            ⟨?_, ht3⟩ (fun f h => h.1)
          · refine Keeps.of_steps (removeFile_del o env w3) (fun f f' ⟨h4, h5⟩ hd => ?_)
            subst hd
            have ht : (f.del o).file? t = some x := by
              rw [FS.file?_of_leaf (FS.leaf_del_ne _ (Ne.symm hne))]; exact h5
            refine ⟨⟨fun q g1 g2 => ?_, fun q g1 g2 => ?_, Or.inr ⟨FS.get_del_self _ ho, ht⟩⟩, ht⟩
            · rw [FS.leaf_del_ne _ g1]; exact h4.others q g1 g2
            · rw [FS.get_del_ne _ g1]; exact h4.still q g1 g2
          · have hk := keeps_lossless_of_writes (x := x) (fs := fs) hne (copyFile_only o t env w2)
              (by rw [hc2]; exact ⟨hq0, hx1⟩)
            rw [h3] at hk
            exact hk.1.1
      intro h
      obtain ⟨g1, g2⟩ := hk (by rw [hc2]; exact h)
      exact ⟨g1, by rw [hp2] at g2; exact g2⟩

/-! ## All staged files -/

/-- Moving one staged file keeps every staged file staged or moved, at every instant. -/
theorem moveFile_staged {c : Config} (hap : Apart c.rrdpDir c.stagingDir) {rel : Str}
    (hr : CleanRel rel) {hash : Hash} {l : List (Str × Hash)} (hl : ∀ r ∈ l, CleanRel r.1)
    (hm : (rel, hash) ∈ l) :
    Rel (Keeps (fun f => ∀ r ∈ l, StagedOrMoved c f r.1 r.2))
      (moveFile c.stagingDir c.rrdpDir rel) := by
  intro env w hI
  have hne : joinPath c.stagingDir rel ≠ joinPath c.rrdpDir rel := by
    rw [joinPath_clean hr, joinPath_clean hr]
    exact hap.symm.ne_append _ _
  have hpre : ¬ joinPath c.stagingDir rel <+: joinPath c.rrdpDir rel := by
    rw [joinPath_clean hr, joinPath_clean hr]
    intro hp
    exact hap.not_both (List.prefix_append _ _) ((List.prefix_append _ _).trans hp)
  rcases hI _ hm with ⟨x, hx, hsha⟩ | ⟨hnone, _⟩
  · rw [← joinPath_clean hr] at hx
    have hk := moveFile_lossless (env := env) hx hne hpre
      ⟨fun _ _ _ => rfl, fun _ _ _ => rfl, Or.inl hx⟩
    rw [joinPath_clean hr] at hx
    rw [joinPath_clean hr, joinPath_clean hr] at hk
    have key : ∀ f, Lossless (c.stagingDir ++ comps rel) (c.rrdpDir ++ comps rel) x w.cur f →
        ∀ r ∈ l, StagedOrMoved c f r.1 r.2 := by
      intro f hf r hrl
      have e3 : c.stagingDir ++ comps r.1 ≠ c.rrdpDir ++ comps rel := hap.symm.ne_append _ _
      have e4 : c.rrdpDir ++ comps r.1 ≠ c.stagingDir ++ comps rel := hap.ne_append _ _
      by_cases hc : comps r.1 = comps rel
      · have hs : Ext.sha x = r.2 := by
          rcases hI r hrl with ⟨y, hy, hys⟩ | ⟨hn, _⟩
          · rw [hc, hx] at hy; cases hy; exact hys
          · rw [hc] at hn; unfold FS.file? at hx; rw [hn] at hx; cases hx
        unfold StagedOrMoved
        rw [hc]
        rcases hf.ends with h | ⟨h1, h2⟩
        · exact Or.inl ⟨x, h, hs⟩
        · exact Or.inr ⟨h1, x, h2, hs⟩
      · have e1 : c.stagingDir ++ comps r.1 ≠ c.stagingDir ++ comps rel := by
          intro he; exact hc (List.append_cancel_left he)
        have e2 : c.rrdpDir ++ comps r.1 ≠ c.rrdpDir ++ comps rel := by
          intro he; exact hc (List.append_cancel_left he)
        rcases hI r hrl with h | ⟨hn, h⟩
        · exact Or.inl (h.of_leaf (hf.others _ e1 e3))
        · refine Or.inr ⟨?_, h.of_leaf (hf.others _ e4 e2)⟩
          rw [hf.still _ e1 (fun hp => hap.not_both (List.prefix_append c.rrdpDir (comps rel))
            ((List.prefix_append _ _).trans hp))]
          exact hn
    exact ⟨key _ hk.1, fun f hf => (hk.2 f hf).imp_right (key f)⟩
  · rw [← joinPath_clean hr] at hnone
    obtain ⟨_, p, hp1, hp2, hs⟩ := moveFile_missing (env := env) hnone hpre
    refine Keeps.of_steps (P := fun f => ∀ r ∈ l, StagedOrMoved c f r.1 r.2) hs
      (fun f f' h hmk r hrl => ?_) hI
    rcases h r hrl with h | ⟨hn, h⟩
    · exact Or.inl (hmk.fileHas h)
    · refine Or.inr ⟨?_, hmk.fileHas h⟩
      rcases hmk (c.stagingDir ++ comps r.1) with h3 | ⟨h3, _, _⟩
      · rw [h3]; exact hn
      · exfalso
        rw [joinPath_clean hr] at hp1
        exact hap.not_both (List.prefix_append c.rrdpDir (comps rel))
          ((List.prefix_append _ _).trans (h3.trans hp1))

/-- Moving all staged files: at every instant each of them is staged or in place. -/
theorem moveStaged_lossless {c : Config} {st : StagedChanges}
    (hap : Apart c.rrdpDir c.stagingDir) (hc : ∀ r ∈ st.refs, CleanRel r.1) :
    Rel (Keeps (fun f => ∀ r ∈ st.refs, StagedOrMoved c f r.1 r.2)) (moveStaged c st) := by
  rw [moveStaged_eq]
  refine Rel.forEach (fun rel hrel => ?_)
  have : ∃ h, (rel, h) ∈ st.refs := by
    rw [← StagedChanges.refs_rels] at hrel
    obtain ⟨r, hr, rfl⟩ := List.mem_map.1 hrel
    exact ⟨r.2, hr⟩
  obtain ⟨h, hm⟩ := this
  exact moveFile_staged hap (hc _ hm) hc hm

end KSync
