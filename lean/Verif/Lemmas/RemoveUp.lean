import Verif.Lemmas.Effects2

/-! # Removing a file and the directories that become empty -/

set_option linter.unusedVariables false

namespace KSync

/-- Something without children, at or above `p`, is removed. -/
def Prunes (p : Path) (f f' : FS) : Prop :=
  f.WF → ∃ q, q <+: p ∧ q ≠ [] ∧ f.hasChild q = false ∧ f' = f.del q

theorem Prunes.mono {p q : Path} (h : p <+: q) {f f' : FS} (hp : Prunes p f f') : Prunes q f f' := by
  intro hw
  obtain ⟨r, h1, h2⟩ := hp hw
  exact ⟨r, h1.trans h, h2⟩

theorem removeFile_prunes (p : Path) : Does (Prunes p) (removeFile p) := by
  unfold removeFile
  refine io_getFs_does (fun n env w => ?_)
  have key : ∀ x, w.cur.get p = some x → x ≠ .dir → Steps (Prunes p) w (push (w.cur.del p) env w).2 := by
    intro x hx hd
    refine Steps.of_push (fun hw => ⟨p, List.prefix_refl _, ?_, ?_, rfl⟩)
    · rintro rfl
      rw [FS.get_root] at hx
      cases hx
      exact hd rfl
    · refine hw.hasChild_of_leaf ?_
      rw [hx]
      exact fun h => hd (Option.some.inj h)
  split
  · rename_i h; exact key _ h (by simp)
  · rename_i h; exact key _ h (by simp)
  · exact Steps.refl

theorem removeDir_prunes (p : Path) : Does (Prunes p) (removeDir p) := by
  unfold removeDir
  refine io_getFs_does (fun n env w => ?_)
  by_cases h : p ≠ [] ∧ w.cur.get p = some .dir ∧ w.cur.hasChild p = false
  · rw [if_pos h]
    exact Steps.of_push (env := env) (fun _ => ⟨p, List.prefix_refl _, h.1, h.2.2, rfl⟩)
  · rw [if_neg h]
    exact Steps.refl

theorem removeUp_prunes (n : Nat) (p : Path) : Does (Prunes p) (removeUp n p) := by
  induction n generalizing p with
  | zero =>
    unfold removeUp
    refine Rel.bind Rel.getFs (fun fs => ?_)
    split
    · exact removeFile_prunes p
    · split
      · exact removeDir_prunes p
      · exact Rel.pure _
  | succ n ih =>
    unfold removeUp
    refine Rel.bind Rel.getFs (fun fs => Rel.bind ?_ (fun _ => Rel.bind (Rel.attempt ?_) (fun _ => Rel.pure _)))
    · split
      · exact removeFile_prunes p
      · split
        · exact removeDir_prunes p
        · exact Rel.pure _
    · exact Does.mono (ih p.dropLast) (fun f f' => Prunes.mono (List.dropLast_prefix p))

/-- `f` is `fs` without some things at or above `p`, and without nothing that has (or had) anything
else below it. -/
def Pruned (p : Path) (fs f : FS) : Prop :=
  ∀ r, f.get r = fs.get r ∨
    (f.get r = none ∧ r <+: p ∧ ∀ q, r <+: q → fs.get q ≠ none → q <+: p)

theorem Pruned.step {p : Path} {fs f f' : FS} (hw : f.WF) (h : Pruned p fs f) (hs : Prunes p f f') :
    f'.WF ∧ Pruned p fs f' := by
  obtain ⟨q, h1, h2, h3, rfl⟩ := hs hw
  refine ⟨hw.del h3, fun r => ?_⟩
  by_cases hr : r = q
  · subst hr
    right
    refine ⟨FS.get_del_self _ h2, h1, fun x hx hn => ?_⟩
    by_cases hxr : x = r
    · subst hxr; exact h1
    · rw [FS.hasChild_false_iff] at h3
      have h4 := h3 x hx hxr
      rcases h x with h5 | h5
      · rw [h4] at h5; exact absurd h5.symm hn
      · exact h5.2.1
  · rw [FS.get_del_ne _ hr]
    exact h r

theorem removeUp_pruned {n : Nat} {p : Path} {env : Env} {fs : FS} (hw : fs.WF) :
    ∀ f ∈ (removeUp n p env (World.start fs)).2.crashPoints, f.WF ∧ Pruned p fs f :=
  crashPoints_start (removeUp_prunes n p env (World.start fs))
    (fun f f' h hs => h.2.step h.1 hs) ⟨hw, fun r => Or.inl rfl⟩

theorem removeFile_gone {p : Path} {env : Env} {w w' : World} (hn : p ≠ [])
    (h : removeFile p env w = (.ok (), w')) : w'.cur.get p = none := by
  unfold removeFile at h
  obtain ⟨k, w2, h2, h3⟩ := M.bind_ok.1 h
  rw [getFs_bind] at h3
  have key : ∀ {w'}, push (w2.cur.del p) env w2 = (.ok (), w') → w'.cur.get p = none := by
    intro w' h
    cases h
    exact FS.get_del_self _ hn
  split at h3
  · exact key h3
  · exact key h3
  · cases h3

/-- After success the file is gone. -/
theorem removeUp_gone {n : Nat} {p : Path} {b : Bytes} {env : Env} {w w' : World} (hw : w.cur.WF)
    (hp : w.cur.file? p = some b) (h : removeUp n p env w = (.ok (), w')) :
    w'.cur.get p = none := by
  obtain ⟨t, hg⟩ : ∃ t, w.cur.get p = some (.file b t) := by
    unfold FS.file? at hp
    split at hp
    · rename_i t hg; cases hp; exact ⟨t, hg⟩
    · cases hp
  have hn : p ≠ [] := by
    rintro rfl
    rw [FS.get_root] at hg
    cases hg
  have hf : w.cur.isFile p = true := by
    unfold FS.isFile FS.resolve
    rw [hg]
  cases n with
  | zero =>
    unfold removeUp at h
    rw [getFs_bind, if_pos hf] at h
    exact removeFile_gone hn h
  | succ n =>
    unfold removeUp at h
    rw [getFs_bind, if_pos hf] at h
    obtain ⟨_, w1, h1, h2⟩ := M.bind_ok.1 h
    have h3 := removeFile_gone hn h1
    have hw1 : w1.cur.WF := by
      have := (removeFile_wf p env w).keep hw
      rw [h1] at this
      exact this.1
    rw [attempt_bind] at h2
    cases h2
    have h4 := (removeUp_prunes n p.dropLast env w1).crash (I := fun f => f.WF ∧ f.get p = none)
      (fun f f' hi hs => by
        obtain ⟨q, k1, k2, k3, rfl⟩ := hs hi.1
        refine ⟨hi.1.del k3, ?_⟩
        rw [FS.get_del]
        split
        · rfl
        · exact hi.2) ⟨hw1, h3⟩
    exact h4.1.2

/-- No directory on the way to `p` is empty. -/
def NoEmptyAbove (f : FS) (p : Path) : Prop :=
  ∀ r, r <+: p → r ≠ [] → f.get r = some .dir → f.hasChild r = true

theorem noEmptyAbove_of_child {f : FS} {p : Path} (hw : f.WF) (hp : f.get p ≠ none)
    (hc : f.get p = some .dir → f.hasChild p = true) : NoEmptyAbove f p := by
  intro r hr hn hd
  by_cases h : r = p
  · subst h; exact hc hd
  · rw [FS.hasChild_iff]
    exact ⟨p, hr, fun h' => h h'.symm, hp⟩

theorem noEmptyAbove_dropLast {f : FS} {p : Path} (h : NoEmptyAbove f p.dropLast) (hp : f.get p = none) :
    NoEmptyAbove f p := by
  intro r hr hn hd
  by_cases hrp : r = p
  · subst hrp; rw [hp] at hd; cases hd
  · refine h r ?_ hn hd
    have hne : p ≠ [] := by rintro rfl; exact hrp (List.prefix_nil.1 hr)
    obtain ⟨q, a, rfl⟩ : ∃ q a, p = q ++ [a] :=
      ⟨p.dropLast, p.getLast hne, (List.dropLast_concat_getLast hne).symm⟩
    rcases List.prefix_concat_iff.1 hr with h' | h'
    · exact absurd h' hrp
    · simpa using h'

theorem removeUp_empties {n : Nat} {p : Path} {env : Env} {w : World} (hw : w.cur.WF) (hf : NoFaults env)
    (hn : p.length ≤ n) : NoEmptyAbove (removeUp n p env w).2.cur p := by
  induction n generalizing p w with
  | zero =>
    intro r hr hne
    have : p = [] := List.length_eq_zero_iff.1 (by omega)
    subst this
    exact absurd (List.prefix_nil.1 hr) hne
  | succ n ih =>
    have hlen : p.dropLast.length ≤ n := by rw [List.length_dropLast]; omega
    unfold removeUp
    rw [getFs_bind]
    by_cases h0 : p = []
    · intro r hr hne
      subst h0
      exact absurd (List.prefix_nil.1 hr) hne
    -- one step that removes `p`
    have gone : ∀ m : M Unit, m env w = (.ok (), { w with cur := w.cur.del p, past := w.cur :: w.past, tick := w.tick + 1 }) →
        w.cur.hasChild p = false →
        NoEmptyAbove ((m >>= fun _ => M.attempt (removeUp n p.dropLast) >>= fun _ => pure ()) env w).2.cur p := by
      intro m hm hc
      rw [M.bind_of_ok hm, attempt_bind]
      refine noEmptyAbove_dropLast (ih (w := { w with cur := w.cur.del p, past := w.cur :: w.past, tick := w.tick + 1 }) (hw.del hc) hlen) ?_
      exact ((removeUp_prunes n p.dropLast env _).crash (I := fun f => f.WF ∧ f.get p = none)
        (fun f f' hi hs => by
          obtain ⟨q, k1, k2, k3, rfl⟩ := hs hi.1
          refine ⟨hi.1.del k3, ?_⟩
          rw [FS.get_del]
          split
          · rfl
          · exact hi.2) ⟨hw.del hc, FS.get_del_self _ h0⟩).1.2
    -- nothing is done at `p`, and there is nothing or something there
    have stay : ∀ (m : M Unit) (e : Err) (w1 : World), m env w = (.error e, w1) → w1.cur = w.cur →
        w.cur.get p ≠ none → (w.cur.get p = some .dir → w.cur.hasChild p = true) →
        NoEmptyAbove ((m >>= fun _ => M.attempt (removeUp n p.dropLast) >>= fun _ => pure ()) env w).2.cur p := by
      intro m e w1 hm h1 h2 h3
      rw [M.bind_of_error hm]
      dsimp only
      rw [h1]
      exact noEmptyAbove_of_child hw h2 h3
    have hio : io env w = (.ok w.tick, { w with tick := w.tick + 1 }) := by
      unfold io
      simp [hf w.tick]
    match hg : w.cur.get p with
    | some (.file b t) =>
      have h1 : w.cur.isFile p = true := by unfold FS.isFile FS.resolve; rw [hg]
      rw [if_pos h1]
      refine gone _ ?_ (hw.hasChild_of_leaf (by rw [hg]; simp))
      unfold removeFile
      rw [M.bind_of_ok hio, getFs_bind]
      dsimp only
      rw [hg]
      rfl
    | some .dir =>
      have h1 : w.cur.isFile p = false := by unfold FS.isFile FS.resolve; rw [hg]
      have h2 : w.cur.isDir p = true := by unfold FS.isDir FS.resolve; rw [hg]; simp
      rw [if_neg (by rw [h1]; simp), if_pos h2]
      by_cases hc : w.cur.hasChild p = true
      · refine stay _ .io { w with tick := w.tick + 1 } ?_ rfl (by rw [hg]; simp) (fun _ => hc)
        unfold removeDir
        rw [M.bind_of_ok hio, getFs_bind]
        rw [if_neg (by rintro ⟨_, _, h⟩; rw [show w.cur.hasChild p = false from h] at hc; cases hc)]
        rfl
      · have hc : w.cur.hasChild p = false := by simpa using hc
        refine gone _ ?_ hc
        unfold removeDir
        rw [M.bind_of_ok hio, getFs_bind]
        rw [if_pos ⟨h0, hg, hc⟩]
        rfl
    | some (.link t) =>
      by_cases h1 : w.cur.isFile p = true
      · rw [if_pos h1]
        refine gone _ ?_ (hw.hasChild_of_leaf (by rw [hg]; simp))
        unfold removeFile
        rw [M.bind_of_ok hio, getFs_bind]
        dsimp only
        rw [hg]
        rfl
      · rw [if_neg h1]
        by_cases h2 : w.cur.isDir p = true
        · rw [if_pos h2]
          refine stay _ .io { w with tick := w.tick + 1 } ?_ rfl (by rw [hg]; simp) (by rw [hg]; simp)
          unfold removeDir
          rw [M.bind_of_ok hio, getFs_bind]
          rw [if_neg (by rintro ⟨_, h, _⟩; rw [show w.cur.get p = some .dir from h] at hg; cases hg)]
          rfl
        · rw [if_neg h2]
          rw [M.bind_of_ok (show (pure () : M Unit) env w = (.ok (), w) from rfl), attempt_bind]
          refine noEmptyAbove_of_child ?_ ?_ ?_
          · exact ((removeUp_wf n p.dropLast env w).keep hw).1
          · show (removeUp n p.dropLast env w).2.cur.get p ≠ none
            have := ((removeUp_prunes n p.dropLast env w).crash (I := fun f => f.WF ∧ f.get p = some (.link t))
              (fun f f' hi hs => by
                obtain ⟨q, k1, k2, k3, rfl⟩ := hs hi.1
                refine ⟨hi.1.del k3, ?_⟩
                have hq : q ≠ p := by
                  rintro rfl
                  have := k1.length_le
                  rw [List.length_dropLast] at this
                  have : q.length ≠ 0 := fun h => h0 (List.length_eq_zero_iff.1 h)
                  omega
                rw [FS.get_del_ne _ (fun h => hq h.symm)]
                exact hi.2) ⟨hw, hg⟩).1.2
            rw [this]; simp
          · intro hd
            have := ((removeUp_prunes n p.dropLast env w).crash (I := fun f => f.WF ∧ f.get p = some (.link t))
              (fun f f' hi hs => by
                obtain ⟨q, k1, k2, k3, rfl⟩ := hs hi.1
                refine ⟨hi.1.del k3, ?_⟩
                have hq : q ≠ p := by
                  rintro rfl
                  have := k1.length_le
                  rw [List.length_dropLast] at this
                  have : q.length ≠ 0 := fun h => h0 (List.length_eq_zero_iff.1 h)
                  omega
                rw [FS.get_del_ne _ (fun h => hq h.symm)]
                exact hi.2) ⟨hw, hg⟩).1.2
            rw [show (removeUp n p.dropLast env w).2.cur.get p = some .dir from hd] at this
            cases this
    | none =>
      have h1 : w.cur.isFile p = false := by unfold FS.isFile FS.resolve; rw [hg]
      have h2 : w.cur.isDir p = false := by unfold FS.isDir FS.resolve; rw [hg]; simp
      rw [if_neg (by rw [h1]; simp), if_neg (by rw [h2]; simp)]
      rw [M.bind_of_ok (show (pure () : M Unit) env w = (.ok (), w) from rfl), attempt_bind]
      refine noEmptyAbove_dropLast (ih hw hlen) ?_
      exact ((removeUp_prunes n p.dropLast env w).crash (I := fun f => f.WF ∧ f.get p = none)
        (fun f f' hi hs => by
          obtain ⟨q, k1, k2, k3, rfl⟩ := hs hi.1
          refine ⟨hi.1.del k3, ?_⟩
          rw [FS.get_del]
          split
          · rfl
          · exact hi.2) ⟨hw, hg⟩).1.2

end KSync
