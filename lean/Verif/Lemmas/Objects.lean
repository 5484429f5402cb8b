import Verif.Lemmas.RsyncWhole
import Verif.Spec.RsyncHistory

/-! # The objects of a revision that was begun before -/

set_option linter.unusedSectionVars false
set_option linter.unusedSimpArgs false
set_option linter.unusedVariables false

namespace KSync

variable [Ext] {env : Env} {w w' : World}

theorem HasObjects.of_leaf {f f' : FS} {d : Path} {ih : Bool} {els : List (RsyncUri × Bytes)}
    (h : HasObjects f d ih els) (hl : ∀ q, d <+: q → f'.leaf q = f.leaf q) : HasObjects f' d ih els := by
  intro q e he
  rw [hl _ (List.prefix_append _ _)]
  exact h q e he

theorem TreeIs.hasObjects {f : FS} {d : Path} {ih : Bool} {els : List (RsyncUri × Bytes)}
    (h : TreeIs f d ih els) : HasObjects f d ih els := by
  intro q e he
  rcases h.2 q with ⟨_, h1⟩ | ⟨e', t, h1, h2⟩
  · rw [he] at h1; cases h1
  · rw [he] at h1; cases h1; exact ⟨t, h2⟩

theorem HasObjects.step {out : Path} {ih : Bool} {els : List (RsyncUri × Bytes)} {e : RsyncUri × Bytes}
    (hc : StaysBelow (objectRel ih e.1)) (hw : w.cur.WF) (ht : HasObjects w.cur out ih els)
    (h : publishObject out ih e env w = (.ok (), w')) :
    w'.cur.WF ∧ HasObjects w'.cur out ih (els ++ [e]) := by
  have hpe := objectPath_below (out := out) hc
  have hin := publishObject_in (E := Eff.only (· = objectPath out ih e.1)) (out := out) (ih := ih)
    (e := e) rfl env w
  rw [h] at hin
  obtain ⟨hp, t, hg, _⟩ := publishObject_ok h
  refine ⟨hin.wf hw, fun q e' he => ?_⟩
  rw [lastObject_snoc] at he
  by_cases hq : comps (objectRel ih e.1) = q
  · rw [if_pos hq] at he
    cases he
    refine ⟨t, ?_⟩
    rw [← hq, ← hpe]
    exact FS.leaf_eq_some_file.2 hg
  · rw [if_neg hq] at he
    rw [show w'.cur.leaf (out ++ q) = w.cur.leaf (out ++ q) from hin.frame hw _ (by
      show ¬ out ++ q = objectPath out ih e.1
      rw [hpe]
      exact fun h' => hq (List.append_cancel_left h').symm)]
    exact ht q e' he

theorem forEach_objects {out : Path} {ih : Bool} {els : List (RsyncUri × Bytes)} :
    ∀ {done : List (RsyncUri × Bytes)} {w w' : World},
    (∀ e ∈ els, StaysBelow (objectRel ih e.1)) → w.cur.WF → HasObjects w.cur out ih done →
    M.forEach els (publishObject out ih) env w = (.ok (), w') →
    w'.cur.WF ∧ HasObjects w'.cur out ih (done ++ els) := by
  induction els with
  | nil => intro done w w' _ hw ht h; cases h; simpa using ⟨hw, ht⟩
  | cons e els ih' =>
    intro done w w' hc hw ht h
    obtain ⟨w1, h1, h2⟩ := forEach_cons_ok.1 h
    obtain ⟨hw1, ht1⟩ := ht.step (hc e (by simp)) hw h1
    have := ih' (fun x hx => hc x (by simp [hx])) hw1 ht1 h2
    simpa using this

theorem OwnTimes.of_leaf {f f' : FS} {d : Path} {ih : Bool} {els : List (RsyncUri × Bytes)}
    (h : OwnTimes f d ih els) (hl : ∀ q, d <+: q → f'.leaf q = f.leaf q) : OwnTimes f' d ih els := by
  intro q nm e t h1 h2
  rw [hl _ (by rw [List.append_assoc]; exact List.prefix_append _ _)]
  exact h q nm e t h1 h2

/-- All objects are there, with their times if no system call failed. -/
def Whole (env : Env) (f : FS) (d : Path) (ih : Bool) (els : List (RsyncUri × Bytes)) : Prop :=
  HasObjects f d ih els ∧ (NoFaults env → OwnTimes f d ih els)

theorem Whole.of_leaf {f f' : FS} {d : Path} {ih : Bool} {els : List (RsyncUri × Bytes)}
    (h : Whole env f d ih els) (hl : ∀ q, d <+: q → f'.leaf q = f.leaf q) : Whole env f' d ih els :=
  ⟨h.1.of_leaf hl, fun hf => (h.2 hf).of_leaf hl⟩

theorem OwnTimes.step {out : Path} {ih : Bool} {els : List (RsyncUri × Bytes)} {e : RsyncUri × Bytes}
    (hf : NoFaults env)
    (hc : StaysBelow (objectRel ih e.1)) (hw : w.cur.WF) (ht : OwnTimes w.cur out ih els)
    (h : publishObject out ih e env w = (.ok (), w')) : OwnTimes w'.cur out ih (els ++ [e]) := by
  have hpe := objectPath_below (out := out) hc
  have hin := publishObject_in (E := Eff.only (· = objectPath out ih e.1)) (out := out) (ih := ih)
    (e := e) rfl env w
  rw [h] at hin
  obtain ⟨hp, t, hg, hto⟩ := publishObject_ok h
  intro q nm e' t' he ht'
  rw [lastObject_snoc] at he
  by_cases hq : comps (objectRel ih e.1) = q ++ [nm]
  · rw [if_pos hq] at he
    cases he
    rw [hpe, hq, ← List.append_assoc] at hg hto
    rw [objectTime_eq] at hto
    rw [← hto hf t' ht']
    exact FS.leaf_eq_some_file.2 hg
  · rw [if_neg hq] at he
    rw [List.append_assoc]
    rw [show w'.cur.leaf (out ++ (q ++ [nm])) = w.cur.leaf (out ++ (q ++ [nm])) from hin.frame hw _ (by
      show ¬ out ++ (q ++ [nm]) = objectPath out ih e.1
      rw [hpe]
      exact fun h' => hq (List.append_cancel_left h').symm)]
    rw [← List.append_assoc]
    exact ht q nm e' t' he ht'

theorem forEach_ownTimes {out : Path} {ih : Bool} {els : List (RsyncUri × Bytes)} (hf : NoFaults env) :
    ∀ {done : List (RsyncUri × Bytes)} {w w' : World},
    (∀ e ∈ els, StaysBelow (objectRel ih e.1)) → w.cur.WF → OwnTimes w.cur out ih done →
    M.forEach els (publishObject out ih) env w = (.ok (), w') → OwnTimes w'.cur out ih (done ++ els) := by
  induction els with
  | nil => intro done w w' _ hw ht h; cases h; simpa using ht
  | cons e els ih' =>
    intro done w w' hc hw ht h
    obtain ⟨w1, h1, h2⟩ := forEach_cons_ok.1 h
    have ht1 := ht.step hf (hc e (by simp)) hw h1
    have hin := publishObject_in (E := Eff.only (· = objectPath out ih e.1)) (out := out) (ih := ih)
      (e := e) rfl env w
    rw [h1] at hin
    have := ih' (fun x hx => hc x (by simp [hx])) (hin.wf hw) ht1 h2
    simpa using this

theorem createOutPath_mkdirs {out : Path} (h : createOutPath out env w = (.ok (), w')) :
    MkDirs out w.cur w'.cur := by
  unfold createOutPath at h
  rw [getFs_bind] at h
  by_cases he : w.cur.exists? out = true
  · rw [if_pos he] at h
    cases h
    exact MkDirs.refl _ _
  · rw [if_neg he] at h
    have := createDirAll_mkdirs out env w
    rw [h] at this
    exact this.mkdirs

/-- Filling a directory that may have files already. -/
theorem makeRevision_has {rev : RsyncRevision} {c : Config} {src : Path}
    (ho : CleanObjects c.rsyncIncludeHost) (hw : w.cur.WF) (hl : w.cur.link? src = none)
    (h : makeRevision rev c src env w = (.ok (), w')) :
    ∃ b, w.cur.file? src = some b ∧ (Ext.streamSnapshot b).2 = true ∧ w'.cur.WF ∧
    Whole env w'.cur (rev.path c) c.rsyncIncludeHost (Ext.streamSnapshot b).1 := by
  unfold makeRevision at h
  obtain ⟨_, w1, h1, h2⟩ := M.bind_ok.1 h
  have hm := createOutPath_mkdirs h1
  have hw1 : w1.cur.WF := by
    have := (createOutPath_in (E := anyEff) (out := rev.path c) trivial env w).wf hw
    rw [h1] at this
    exact this
  unfold writeSnapshotTree at h2
  obtain ⟨b, w2, h3, h4⟩ := M.bind_ok.1 h2
  obtain ⟨h5, h6, _⟩ := readFile_ok h3
  have hl1 : w1.cur.link? src = none := by rw [FS.link?_of_leaf (hm.leaf src)]; exact hl
  have hb := FS.file_of_read h5 hl1
  obtain ⟨_, w3, h7, h8⟩ := M.bind_ok.1 h4
  have hw2 : w2.cur = w1.cur := by rw [h6]
  have h9 : (Ext.streamSnapshot b).2 = true ∧ w' = w3 := by
    have h8' : (if (Ext.streamSnapshot b).2 = true then (pure () : M Unit) else M.throw .parse) env w3 =
      (.ok (), w') := h8
    by_cases hc : (Ext.streamSnapshot b).2 = true
    · rw [if_pos hc] at h8'
      cases h8'
      exact ⟨hc, rfl⟩
    · rw [if_neg hc] at h8'
      cases h8'
  obtain ⟨h9, rfl⟩ := h9
  have h10 := forEach_objects (done := []) (fun e he => ho b e he) (by rw [hw2]; exact hw1)
    (fun q e he => by cases he) h7
  refine ⟨b, by rw [← FS.file?_of_leaf (hm.leaf src)]; exact hb, h9, h10.1, by simpa using h10.2,
    fun hf => ?_⟩
  have h11 := forEach_ownTimes (done := []) hf (fun e he => ho b e he) (by rw [hw2]; exact hw1)
    (fun q nm e t he => by cases he) h7
  simpa using h11

/-- `current` is as before, or it is switched and the objects are there. -/
def HasCurrent (c : Config) (rev : RsyncRevision) (src : Path) (f0 f : FS) : Prop :=
  f.WF ∧ (f.leaf c.rsyncCurrent = f0.leaf c.rsyncCurrent ∨
    (f.link? c.rsyncCurrent = some rev.dirName ∧ ∃ els, MadeFrom src els f0 ∧
      HasObjects f (rev.path c) c.rsyncIncludeHost els))

/-- The rsync part, when the new revision is not mentioned in the rsync state. -/
theorem updateRsync_has {s : RrdpState} {c : Config} {x : SnapshotState}
    (hm : c.rsyncUseSymlinks = true) (ho : CleanObjects c.rsyncIncludeHost) (hw : w.cur.WF)
    (hl : w.cur.link? c.rsyncStatePath = none) (ha : Apart c.rsyncDir c.rsyncStatePath)
    (hs : s.snapshot = some x) (hb : w.cur.link? (s.mappings.path x.relPath) = none)
    (h1 : ∀ st, RsyncRecorded c w.cur st → st.current ≠ some x.rev)
    (h2 : ∀ st, RsyncRecorded c w.cur st → ∀ d ∈ st.old, d.revision ≠ x.rev) :
    Keeps (HasCurrent c x.rev (s.mappings.path x.relPath) w.cur) w (updateRsync s c env w).2 ∧
    ((updateRsync s c env w).1 = .ok () →
      (updateRsync s c env w).2.cur.link? c.rsyncCurrent = some x.rev.dirName ∧
      ∃ els, MadeFrom (s.mappings.path x.relPath) els w.cur ∧
        HasObjects (updateRsync s c env w).2.cur (x.rev.path c) c.rsyncIncludeHost els) := by
  -- after switching
  let S : List (RsyncUri × Bytes) → FS → Prop := fun els f => f.WF ∧
    f.link? c.rsyncCurrent = some x.rev.dirName ∧
      HasObjects f (x.rev.path c) c.rsyncIncludeHost els
  have made : ∀ st w1 w2, RsyncDirState.recover c env w = (.ok st, w1) →
      makeRevision x.rev c (s.mappings.path x.relPath) env w1 = (.ok (), w2) →
      RsyncRecorded c w.cur st ∧ w2.cur.WF ∧ w2.cur.leaf c.rsyncCurrent = w.cur.leaf c.rsyncCurrent ∧
      ∃ els, MadeFrom (s.mappings.path x.relPath) els w.cur ∧
        HasObjects w2.cur (x.rev.path c) c.rsyncIncludeHost els := by
    intro st w1 w2 e1 e2
    obtain ⟨s1, hrec⟩ := recover_ok hl e1
    obtain ⟨b, g1, g2, g3, g4⟩ := makeRevision_has ho (by rw [s1.cur]; exact hw) (by rw [s1.cur]; exact hb) e2
    have k := makeRevision_in (rev := x.rev) (c := c) (src := s.mappings.path x.relPath) ho env w1
    rw [e2] at k
    have k' := k.frame (by rw [s1.cur]; exact hw) c.rsyncCurrent
      (fun h => rev_not_current h (List.prefix_refl _))
    rw [s1.cur] at k' g1
    exact ⟨hrec, g3, k', _, ⟨b, g1, g2, rfl⟩, g4.1⟩
  have switching : ∀ w2 els, w2.cur.WF → w2.cur.leaf c.rsyncCurrent = w.cur.leaf c.rsyncCurrent →
      MadeFrom (s.mappings.path x.relPath) els w.cur →
      HasObjects w2.cur (x.rev.path c) c.rsyncIncludeHost els →
      Keeps (fun f => (f.WF ∧ f.leaf c.rsyncCurrent = w.cur.leaf c.rsyncCurrent ∧
        HasObjects f (x.rev.path c) c.rsyncIncludeHost els) ∨ S els f)
        w2 (symlinkCurrent x.rev c env w2).2 := by
    intro w2 els g1 g2 g3 g4
    have k1 := symlinkCurrent_steps (rev := x.rev) (c := c) env w2
    have k2 := symlinkCurrent_in (r := x.rev) (c := c) (E := Eff.only (fun _ => True))
      (fun _ _ => trivial) (fun _ _ => trivial) env w2
    refine Keeps.of_steps (k1.and k2.steps) ?_
    rintro f f' h ⟨⟨g1, g2⟩, g3⟩
    have hg : ∀ q, x.rev.path c <+: q → f'.leaf q = f.leaf q := fun q hq => leaf_of_get (g1 q
      (fun h => rev_not_tmp hq (h ▸ List.prefix_refl _))
      (fun h => rev_not_current hq (h ▸ List.prefix_refl _)))
    rcases h with ⟨a1, a2, a3⟩ | ⟨a1, a2, a3⟩
    · rcases g2 with g2 | ⟨_, g2⟩
      · exact Or.inl ⟨(g3 a1).1, (leaf_of_get g2).trans a2, a3.of_leaf hg⟩
      · exact Or.inr ⟨(g3 a1).1, by unfold FS.link?; rw [g2], a3.of_leaf hg⟩
    · refine Or.inr ⟨(g3 a1).1, ?_, a3.of_leaf hg⟩
      rcases g2 with g2 | ⟨_, g2⟩
      · rw [FS.link?_of_leaf (leaf_of_get g2)]; exact a2
      · unfold FS.link?; rw [g2]
  have switched : ∀ st w1 w2 w3, RsyncDirState.recover c env w = (.ok st, w1) →
      makeRevision x.rev c (s.mappings.path x.relPath) env w1 = (.ok (), w2) →
      switchTo x.rev st c env w2 = (.ok (), w3) →
      RsyncRecorded c w.cur st ∧ ∃ els, MadeFrom (s.mappings.path x.relPath) els w.cur ∧
        S els w3.cur := by
    intro st w1 w2 w3 e1 e2 e3
    obtain ⟨hrec, g1, g2, els, g3, g4⟩ := made st w1 w2 e1 e2
    have hk := (switching w2 els g1 g2 g3 g4 (Or.inl ⟨g1, g2, g4⟩)).1
    unfold switchTo at e3
    rw [if_pos hm] at e3
    rw [e3] at hk
    refine ⟨hrec, els, g3, ?_⟩
    have hlk : w3.cur.link? c.rsyncCurrent = some x.rev.dirName := by
      unfold FS.link?; rw [symlinkCurrent_ok e3]
    rcases hk with ⟨a1, _, a2⟩ | h
    · exact ⟨a1, hlk, a2⟩
    · exact h
  have frame : ∀ els {T : Path → Prop}, ¬ T c.rsyncCurrent → (∀ q, x.rev.path c <+: q → ¬ T q) →
      ∀ f f', S els f → Change T f f' → S els f' := by
    rintro els T hT1 hT2 f f' ⟨a1, a2, a3⟩ a4
    refine ⟨(a4 a1).1, ?_, a3.of_leaf (fun q hq => (a4 a1).2 q (hT2 q hq))⟩
    rw [FS.link?_of_leaf ((a4 a1).2 _ hT1)]; exact a2
  have cleaned : ∀ st w3 st1 w4 els, RsyncRecorded c w.cur st →
      st.updateCurrent x.rev env w3 = (.ok st1, w4) → S els w3.cur →
      S els w4.cur ∧ Keeps (S els) w4 (st1.cleanOld c env w4).2 := by
    intro st w3 st1 w4 els hrec e4 hS
    obtain ⟨_, s4, _⟩ := updateCurrent_ok e4
    have hold := updateCurrent_old (c := c) e4 (h1 st hrec) (h2 st hrec)
    refine ⟨by rw [s4.cur]; exact hS, Keeps.of_within (cleanOld_in' env w4) (frame els ?_ ?_)⟩
    · rintro ⟨d, _, h⟩
      exact rev_not_current h (List.prefix_refl _)
    · rintro q hq ⟨d, hd, h⟩
      exact hold d hd (rev_apart h hq)
  have persisted : ∀ els w5 st2, Keeps (S els) w5 (RsyncDirState.persist st2 c env w5).2 := by
    intro els w5 st2
    refine Keeps.of_within (writeBuf_in (E := Eff.only (· = c.rsyncStatePath)) rfl _ env w5) (frame els ?_ ?_)
    · exact fun h => ha.1 (h ▸ List.prefix_append _ _)
    · intro q hq h
      subst h
      exact ha.1 ((List.prefix_append _ _).trans hq)
  constructor
  · refine updateRsync_tr (T := Keeps _) hs ?_ ?_ ?_ ?_ ?_ ?_
    · exact Keeps.of_same (recover_same c env w)
    · intro st w1 e1
      obtain ⟨s1, hrec⟩ := recover_ok hl e1
      refine Keeps.via (Q := fun f => f.WF ∧ f.leaf c.rsyncCurrent = w.cur.leaf c.rsyncCurrent)
        (Keeps.of_within (makeRevision_in ho env w1) ?_) (by rw [s1.cur]; exact ⟨hw, rfl⟩)
        (fun f hf => ⟨hf.1, Or.inl hf.2⟩)
      rintro f f' ⟨a1, a2⟩ a3
      exact ⟨(a3 a1).1, ((a3 a1).2 _ (fun h => rev_not_current h (List.prefix_refl _))).trans a2⟩
    · intro st w1 w2 e1 e2
      obtain ⟨hrec, g1, g2, els, g3, g4⟩ := made st w1 w2 e1 e2
      unfold switchTo
      rw [if_pos hm]
      refine Keeps.via (switching w2 els g1 g2 g3 g4) (Or.inl ⟨g1, g2, g4⟩) ?_
      rintro f (⟨a1, a2, _⟩ | ⟨a1, a2, a3⟩)
      · exact ⟨a1, Or.inl a2⟩
      · exact ⟨a1, Or.inr ⟨a2, els, g3, a3⟩⟩
    · intro st w1 w2 w3 _ _ _
      exact Keeps.of_same (updateCurrent_same _ _ env w3)
    · intro st w1 w2 w3 st1 w4 e1 e2 e3 e4
      obtain ⟨hrec, els, g3, hS⟩ := switched st w1 w2 w3 e1 e2 e3
      obtain ⟨a1, a2⟩ := cleaned st w3 st1 w4 els hrec e4 hS
      exact Keeps.via a2 a1 (fun f hf => ⟨hf.1, Or.inr ⟨hf.2.1, els, g3, hf.2.2⟩⟩)
    · intro st w1 w2 w3 st1 w4 st2 w5 e1 e2 e3 e4 e5
      obtain ⟨hrec, els, g3, hS⟩ := switched st w1 w2 w3 e1 e2 e3
      obtain ⟨a1, a2⟩ := cleaned st w3 st1 w4 els hrec e4 hS
      rw [e5] at a2
      exact Keeps.via (persisted els w5 st2) (a2 a1).1
        (fun f hf => ⟨hf.1, Or.inr ⟨hf.2.1, els, g3, hf.2.2⟩⟩)
  · intro hok
    obtain ⟨w1, w2, w3, w4, w5, st, st1, st2, d⟩ := updateRsync_ok hs (Prod.ext hok rfl)
    obtain ⟨hrec, els, g3, hS⟩ := switched st w1 w2 w3 d.recovered d.made d.switched
    obtain ⟨a1, a2⟩ := cleaned st w3 st1 w4 els hrec d.updated hS
    rw [d.cleaned] at a2
    have a3 := persisted els w5 st2
    rw [d.persisted] at a3
    obtain ⟨_, b1, b2⟩ := (a3 (a2 a1).1).1
    exact ⟨b1, els, g3, b2⟩

end KSync
