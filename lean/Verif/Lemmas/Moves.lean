import Verif.Lemmas.Success

/-! # What moving the staged files cannot do -/

set_option linter.unusedSectionVars false
set_option linter.unusedSimpArgs false
set_option linter.unusedVariables false

namespace KSync

theorem io_getFs_steps {R : FS → FS → Prop} {α : Type} {f : FS → M α} {env : Env} {w : World}
    (h : ∀ n, Steps R { w with tick := n } (f w.cur env { w with tick := n }).2) :
    Steps R w ((io >>= fun _ => getFs >>= f) env w).2 := by
  rw [io_bind]
  by_cases hf : env.fault w.tick = true
  · rw [if_pos hf]; exact .same rfl rfl
  · rw [if_neg hf, getFs_bind]
    exact Steps.trans (w1 := { w with tick := w.tick + 1 }) (.same rfl rfl) (h _)

/-- Nothing at or below `d` stops existing. -/
def Gains (d : Path) (f f' : FS) : Prop :=
  f.WF → ∀ q, d <+: q → f.leaf q ≠ none → f'.leaf q ≠ none

/-- If there are no links below the two directories, none appear. -/
def KeepsNL (a b : Path) (f f' : FS) : Prop :=
  NoLinks f a → NoLinks f b → NoLinks f' a ∧ NoLinks f' b

theorem FS.link?_eq_none {f : FS} {q : Path} : f.link? q = none ↔ ∀ t, f.get q ≠ some (.link t) := by
  unfold FS.link?
  match h : f.get q with
  | none => simp
  | some .dir => simp
  | some (.file _ _) => simp
  | some (.link t) => simp

theorem MkDirs.gains {p d : Path} {f f' : FS} (h : MkDirs p f f') : Gains d f f' :=
  fun _ q _ hq => by rw [h.leaf]; exact hq

theorem MkDirs.keepsNL {p a b : Path} {f f' : FS} (h : MkDirs p f f') : KeepsNL a b f f' :=
  fun h1 h2 => ⟨fun q hq => by rw [FS.link?_of_leaf (h.leaf q)]; exact h1 q hq,
    fun q hq => by rw [FS.link?_of_leaf (h.leaf q)]; exact h2 q hq⟩

/-- Both together. -/
def MoveRel (a b : Path) (f f' : FS) : Prop := Gains b f f' ∧ KeepsNL a b f f'

theorem MkDirs.moveRel {p a b : Path} {f f' : FS} (h : MkDirs p f f') : MoveRel a b f f' :=
  ⟨h.gains, h.keepsNL⟩

/-- A file is written. -/
theorem moveRel_set {a b t : Path} (f g : FS) (x : Bytes) (τ : Time)
    (hg : ∀ q, q ≠ t → g.get q = f.get q) : MoveRel a b f (g.set t (.file x τ)) := by
  have hget : ∀ q, (g.set t (.file x τ)).get q = f.get q ∨ q = [] ∨ (q = t ∧ t ≠ [] ∧
      (g.set t (.file x τ)).get q = some (.file x τ)) := by
    intro q
    by_cases hq : q = t
    · subst hq
      by_cases hn : q = []
      · exact Or.inr (Or.inl hn)
      · exact Or.inr (Or.inr ⟨rfl, hn, FS.get_set_self _ hn _⟩)
    · left; rw [FS.get_set_ne _ _ hq, hg q hq]
  refine ⟨fun _ q _ hq => ?_, fun h1 h2 => ⟨fun q hq => ?_, fun q hq => ?_⟩⟩
  · rcases hget q with h | h | ⟨_, _, h⟩
    · unfold FS.leaf at *; rw [h]; exact hq
    · subst h; exact absurd (by unfold FS.leaf FS.get; simp) hq
    · unfold FS.leaf; rw [h]; simp
  · rcases hget q with h | h | ⟨_, _, h⟩
    · unfold FS.link?; rw [h]; exact h1 q hq
    · subst h; unfold FS.link? FS.get; simp
    · unfold FS.link?; rw [h]
  · rcases hget q with h | h | ⟨_, _, h⟩
    · unfold FS.link?; rw [h]; exact h2 q hq
    · subst h; unfold FS.link? FS.get; simp
    · unfold FS.link?; rw [h]

theorem moveRel_del {a b o : Path} (f : FS) (ho : ¬ b <+: o) : MoveRel a b f (f.del o) := by
  have hl : ∀ d, NoLinks f d → NoLinks (f.del o) d := by
    intro d h q hq
    have := h q hq
    rw [FS.link?_eq_none] at *
    intro t
    rw [FS.get_del]
    by_cases hc : q = o ∧ q ≠ []
    · rw [if_pos hc]; simp
    · rw [if_neg hc]; exact this t
  refine ⟨fun _ q hq hne => ?_, fun h1 h2 => ⟨hl _ h1, hl _ h2⟩⟩
  rw [FS.leaf_del_ne]
  · exact hne
  · rintro rfl; exact ho hq

theorem rename_moveRel {a b o t : Path} (hoa : a <+: o) (ht : b <+: t) (hap : Apart b a)
    (env : Env) (w : World) : Steps (MoveRel a b) w (rename o t env w).2 := by
  have hend := rename_end o t env w
  match hr : rename o t env w with
  | (r, w2) =>
  rw [hr] at hend
  have hno : ¬ b <+: o := fun h => hap.not_both h hoa
  cases hend with
  | failed e => exact .same rfl rfl
  | noop => exact .same rfl rfl
  | movedDir h1 h2 h3 h4 h5 h6 h7 =>
    refine Steps.push Steps.refl ⟨fun hw q hq hne => ?_, fun n1 n2 => ⟨?_, ?_⟩⟩ rfl
    · have htq : ¬ t <+: q := by
        intro htq
        have : w.cur.leaf q = none := by
          unfold FS.leaf
          by_cases he : q = t
          · subst he
            rcases h7 with h7 | h7
            · rw [h7]
            · rw [h7.1]
          · have : w.cur.get q = none := by
              rcases h7 with h7 | h7
              · have h8 := hw.hasChild_of_leaf (p := t) (by rw [h7]; simp)
                exact (FS.hasChild_false_iff _ _).1 h8 q htq he
              · exact (FS.hasChild_false_iff _ _).1 h7.2 q htq he
            rw [this]
        exact hne this
      have hoq : ¬ o <+: q := fun h => hap.not_both hq (hoa.trans h)
      rw [FS.leaf_moveTree _ h1 h2 hoq htq]; exact hne
    all_goals
      intro q hq
      rw [FS.link?_eq_none]
      intro l
      rw [FS.get_moveTree _ h1 h2]
      by_cases c1 : t <+: q
      · rw [if_pos c1]
        exact FS.link?_eq_none.1 (n1 (o ++ q.drop t.length) (hoa.trans (List.prefix_append _ _))) l
      · rw [if_neg c1]
        by_cases c2 : o <+: q
        · rw [if_pos c2]; simp
        · rw [if_neg c2]
          first
          | exact FS.link?_eq_none.1 (n1 q hq) l
          | exact FS.link?_eq_none.1 (n2 q hq) l
  | movedFile n h1 h2 h3 h4 h5 h6 h7 =>
    refine Steps.push Steps.refl ⟨fun hw q hq hne => ?_, fun n1 n2 => ⟨?_, ?_⟩⟩ rfl
    · by_cases hqt : q = t
      · subst hqt
        rw [FS.leaf_set _ h2 _ h5]; simp
      · rw [FS.leaf_set_ne _ _ hqt, FS.leaf_del_ne]
        · exact hne
        · rintro rfl; exact hno hq
    all_goals
      intro q hq
      rw [FS.link?_eq_none]
      intro l
      by_cases hqt : q = t
      · subst hqt
        rw [FS.get_set_self _ h2, ← h4]
        exact FS.link?_eq_none.1 (n1 o hoa) l
      · rw [FS.get_set_ne _ _ hqt, FS.get_del]
        by_cases hc : q = o ∧ q ≠ []
        · rw [if_pos hc]; simp
        · rw [if_neg hc]
          first
          | exact FS.link?_eq_none.1 (n1 q hq) l
          | exact FS.link?_eq_none.1 (n2 q hq) l

theorem fileCreate_moveRel (a b t : Path) : Does (MoveRel a b) (fileCreate t) := by
  unfold fileCreate
  refine io_getFs_does (fun n env w => ?_)
  by_cases h : t = [] ∨ w.cur.get t.dropLast ≠ some .dir
  · rw [if_pos h]; exact Steps.refl
  · rw [if_neg h]
    split
    · exact Steps.refl
    · exact Steps.refl
    · exact Steps.of_push (env := env) (moveRel_set _ _ _ _ (fun _ _ => rfl))

theorem writeAll_moveRel (a b t : Path) (x : Bytes) : Does (MoveRel a b) (writeAll t x) := by
  intro env w
  refine writeAll_steps t x env w (fun f i τ hf => ?_)
  refine moveRel_set _ _ _ _ (fun q hq => ?_)
  rcases hf with rfl | ⟨j, t', rfl⟩
  · rfl
  · rw [FS.get_set_ne _ _ hq]

theorem copyFile_moveRel (a b o t : Path) : Does (MoveRel a b) (copyFile o t) := by
  unfold copyFile
  have h0 : Does (MoveRel a b) (logCopy t) := Rel.quiet (logCopy_same t)
  have h1 : Does (MoveRel a b) (readFile o) := Rel.quiet (readFile_same o)
  have h2 := fileCreate_moveRel a b t
  have h3 := writeAll_moveRel a b t
  rel_auto

theorem removeFile_moveRel {a b o : Path} (ho : ¬ b <+: o) : Does (MoveRel a b) (removeFile o) := by
  unfold removeFile
  refine io_getFs_does (fun n env w => ?_)
  split
  · exact Steps.of_push (env := env) (moveRel_del _ ho)
  · exact Steps.of_push (env := env) (moveRel_del _ ho)
  · exact Steps.refl

theorem moveFile_moveRel {a b : Path} {rel : Str} (hr : CleanRel rel) (hap : Apart b a) :
    Does (MoveRel a b) (moveFile a b rel) := by
  rw [moveFile_eq, joinPath_clean hr, joinPath_clean hr]
  have hoa : a <+: a ++ comps rel := List.prefix_append _ _
  have htb : b <+: b ++ comps rel := List.prefix_append _ _
  have hno : ¬ b <+: a ++ comps rel := fun h => hap.not_both h hoa
  have h1 : Does (MoveRel a b) (createPathForFile (b ++ comps rel)) :=
    Does.mono (createPathForFile_mkdirs _) (fun f f' h => h.moveRel)
  have h2 : Does (MoveRel a b) (rename (a ++ comps rel) (b ++ comps rel)) :=
    fun env w => rename_moveRel hoa htb hap env w
  have h3 := copyFile_moveRel a b (a ++ comps rel) (b ++ comps rel)
  have h4 := removeFile_moveRel (a := a) hno
  unfold moveTail
  rel_auto

theorem moveStaged_moveRel {c : Config} {name : Str} {st : StagedChanges}
    (hap : Apart c.rrdpDir c.stagingDir) (h1 : GoodRel name st.snapshot.relPath)
    (h2 : ∀ d ∈ st.deltas, GoodRel name d.relPath) :
    Does (MoveRel c.stagingDir c.rrdpDir) (moveStaged c st) := by
  rw [moveStaged_eq]
  refine Rel.forEach (fun rel hrel => moveFile_moveRel ?_ hap)
  unfold StagedChanges.rels at hrel
  rcases List.mem_cons.1 hrel with rfl | h
  · exact h1.clean
  · obtain ⟨d, hd, rfl⟩ := List.mem_map.1 h
    exact (h2 d hd).clean

/-! ## No links appear while staging -/

variable [Ext]

/-- No links appear at or below `d`. -/
def StaysLinkless (d : Path) (f f' : FS) : Prop := NoLinks f d → NoLinks f' d

theorem ToFile.linkless {t d : Path} {f f' : FS} (h : ToFile t f f') : StaysLinkless d f f' :=
  h.noLinks

theorem writeBuf_linkless (d p : Path) (b : Bytes) : Does (StaysLinkless d) (writeBuf p b) :=
  Does.mono (writeBuf_writing p b) (fun f f' h =>
    ToFile.linkless (t := p) ⟨h.1, h.2.imp id (fun ⟨k, t, h⟩ => ⟨_, t, h⟩)⟩)

theorem retrieve_linkless (d : Path) (f : Fetcher) (uri : Str) (hash : Hash) (target : Path) :
    Does (StaysLinkless d) (f.retrieve uri hash target) :=
  Does.mono retrieve_toFile (fun f f' h => h.linkless)

theorem deltasStage_linkless (d : Path) (s : RrdpState) (reset : Bool) (f : Fetcher) (c : Config)
    (ds : List DeltaInfo) : Does (StaysLinkless d) (s.deltasStage reset f c ds) := by
  induction ds with
  | nil => exact Rel.pure _
  | cons x ds ih =>
    unfold RrdpState.deltasStage
    have h1 := retrieve_linkless d f x.uri x.hash
    have h2 : Does (StaysLinkless d) now := Rel.quiet now_same
    rel_auto

theorem stage_linkless (d : Path) (s : RrdpState) (c : Config) (n : Notif) (etag : Option Str)
    (reset : Bool) : Does (StaysLinkless d) (s.stage c n etag reset) := by
  unfold RrdpState.stage RrdpState.snapshotStage
  have h1 := retrieve_linkless d c.fetcher n.snapUri n.snapHash
  have h2 : Does (StaysLinkless d) now := Rel.quiet now_same
  have h3 := writeBuf_linkless d
  have h4 := deltasStage_linkless d s reset c.fetcher c n.deltas
  rel_auto

theorem prepare_linkless {depth : Nat} {c : Config} {base name : Str} {env : Env} {w w' : World}
    {s : RrdpState} {st : StagedChanges} (d : Path) (hc : RunConds c base name env w.cur)
    (h : prepare depth c env w = (.ok (some (s, st)), w')) : StaysLinkless d w.cur w'.cur := by
  unfold prepare at h
  obtain ⟨s0, w1, h1, h2⟩ := M.bind_ok.1 h
  obtain ⟨staged, w2, h3, h4⟩ := M.bind_ok.1 h2
  cases staged with
  | none => dsimp only at h4; rw [M.pure_ok] at h4; cases h4.1
  | some st' =>
    dsimp only at h4
    obtain ⟨s', w3, h5, h6⟩ := M.bind_ok.1 h4
    obtain ⟨_, w4, h7, h8⟩ := M.bind_ok.1 h6
    rw [M.pure_ok] at h8
    obtain ⟨_, rfl⟩ := h8
    have hcur : w1.cur = w.cur := (loadState_ok h1).1.1
    obtain ⟨n, etag, ds, w5, h9, h10, h11, h12, h13, h14⟩ := updateStaged_some h3
    intro hl
    have l5 : NoLinks w5.cur d := by rw [h13.cur, hcur]; exact hl
    have l2 : NoLinks w2.cur d := by
      have := stage_linkless d s0 c { n with deltas := ds } etag st'.sessionReset env w5
      rw [h14] at this
      exact this.ends (fun _ h => h) (fun _ _ _ h1 h2 h => h2 (h1 h)) l5
    have hsane := (loadState_inUse hc.uri h1).sane hc.state
    have hw2 : w2.cur.WF := by
      have := (updateStaged_within hc.uri hsane (w := w1) (env := env) (hcur ▸ hc.source)).wf
        (hcur ▸ hc.wf)
      rw [h3] at this; exact this
    have e0 := preValidate_in (E := noFilesEff)
      (fun _ => trivial) depth s0 c env w2
    rw [h5] at e0
    have hw3 := e0.wf hw2
    have e2 := (scriptGate_in (c := c) (E := noFilesEff)
      (fun _ _ => trivial) env w3).frame hw3
    rw [h7] at e2
    intro q hq
    rw [FS.link?_of_leaf (e2 q id), FS.link?_of_leaf (e0.frame hw2 q id)]
    exact l2 q hq

end KSync
