import Verif.Spec.RsyncHistory
import Verif.Lemmas.Objects
import Verif.Lemmas.Ledger
import Verif.Lemmas.Staging
import Verif.Lemmas.TidyRun

/-! # The rsync directory over many runs, without links (C28) -/

set_option linter.unusedSectionVars false
set_option linter.unusedVariables false

namespace KSync

variable [Ext] {env : Env} {w w' : World}

/-! ## Directories stay while a revision is written -/

theorem setMtime_dirAt (q p : Path) (t : Time) : Rel (Keeps (DirAt q)) (setMtime p t) := by
  intro env w
  have : Does (fun f f' : FS => DirAt q f → DirAt q f') (setMtime p t) := by
    unfold setMtime
    refine io_getFs_does (fun n env w => ?_)
    split
    · rename_i b t' h
      refine Steps.of_push (fun hd => ?_)
      by_cases hq : q = p
      · subst hq
        unfold DirAt at hd
        rw [h] at hd; cases hd
      · unfold DirAt at hd ⊢
        rw [FS.get_set_ne _ _ hq]; exact hd
    · exact Steps.refl
  exact Keeps.of_steps (this env w) (fun f f' h hm => hm h)

theorem publishObject_dirAt (q out : Path) (ih : Bool) (e : RsyncUri × Bytes) :
    Rel (Keeps (DirAt q)) (publishObject out ih e) := by
  unfold publishObject
  have h1 := writeBuf_dirAt q
  have h3 := createPathForFile_dirAt q
  have h2 : ∀ p b, Rel (Keeps (DirAt q)) (fixSince p b) := by
    intro p b
    unfold fixSince
    have h := setMtime_dirAt q
    split
    · exact Rel.pure _
    · rel_auto
  rel_auto

theorem writeSnapshotTree_dirAt (q out : Path) (ih : Bool) (src : Path) :
    Rel (Keeps (DirAt q)) (writeSnapshotTree out ih src) := by
  unfold writeSnapshotTree
  have h1 : Rel (Keeps (DirAt q)) (readFile src) := Rel.keeps_quiet (readFile_same src)
  have h2 : ∀ els, Rel (Keeps (DirAt q)) (M.forEach els (publishObject out ih)) :=
    fun els => Rel.forEach (fun e _ => publishObject_dirAt q out ih e)
  rel_auto

theorem leaf_of_dir {f : FS} {q : Path} (h : f.get q = some .dir) : f.leaf q = none := by
  unfold FS.leaf; rw [h]

/-! ## The invariant -/

/-- `current` is no link and no file; it has no files, or all objects of one of the snapshots. -/
structure MoveServed (c : Config) (B : Notif → Prop) (f : FS) : Prop where
  wf : f.WF
  state : f.link? c.rsyncStatePath = none
  revs : ∀ r : RsyncRevision, f.leaf (r.path c) = none
  current : f.leaf c.rsyncCurrent = none
  served : (∀ q, f.leaf (c.rsyncCurrent ++ q) = none) ∨ ∃ n b, B n ∧ Serves c f c.rsyncCurrent n b

theorem MoveServed.of_leaf {c : Config} {B : Notif → Prop} {f f' : FS} (h : MoveServed c B f)
    (hw : f'.WF) (hl : ∀ q, RsyncArea c q → f'.leaf q = f.leaf q) : MoveServed c B f' := by
  have hcur : ∀ q, c.rsyncCurrent <+: q → f'.leaf q = f.leaf q := fun q hq =>
    hl q (Or.inl ((List.prefix_append _ _).trans hq))
  refine ⟨hw, ?_, fun r => ?_, ?_, ?_⟩
  · rw [FS.link?_of_leaf (hl _ (Or.inr rfl))]; exact h.state
  · rw [hl (r.path c) (Or.inl (List.prefix_append _ _))]; exact h.revs r
  · rw [hcur _ (List.prefix_refl _)]; exact h.current
  · rcases h.served with h1 | ⟨n, b, h1, h2, h3, h4⟩
    · exact Or.inl fun q => by rw [hcur _ (List.prefix_append _ _)]; exact h1 q
    · exact Or.inr ⟨n, b, h1, h2, h3, h4.of_leaf hcur⟩

theorem MoveServed.mono {c : Config} {B B' : Notif → Prop} {f : FS} (h : MoveServed c B f)
    (hB : ∀ n, B n → B' n) : MoveServed c B' f :=
  ⟨h.wf, h.state, h.revs, h.current, h.served.imp id fun ⟨n, b, h1, h2⟩ => ⟨n, b, hB n h1, h2⟩⟩

/-- As long as only files elsewhere change. -/
theorem MoveServed.frame {c : Config} {B : Notif → Prop} {f f' : FS} {S : Path → Prop}
    (h : MoveServed c B f) (hc : Change S f f') (h1 : ∀ q, c.rsyncCurrent <+: q → ¬ S q)
    (h2 : f'.link? c.rsyncStatePath = none) (h3 : ∀ r : RsyncRevision, f'.leaf (r.path c) = none) :
    MoveServed c B f' := by
  obtain ⟨g1, g2⟩ := hc h.wf
  have hcur : ∀ q, c.rsyncCurrent <+: q → f'.leaf q = f.leaf q := fun q hq => g2 q (h1 q hq)
  refine ⟨g1, h2, h3, ?_, ?_⟩
  · rw [hcur _ (List.prefix_refl _)]; exact h.current
  · rcases h.served with h1 | ⟨n, b, h1, h2, h3, h4⟩
    · exact Or.inl fun q => by rw [hcur _ (List.prefix_append _ _)]; exact h1 q
    · exact Or.inr ⟨n, b, h1, h2, h3, h4.of_leaf hcur⟩

theorem HasObjects.moveTree {f : FS} {d d' : Path} {ih : Bool} {els : List (RsyncUri × Bytes)}
    (h : HasObjects f d ih els) (hd : d ≠ []) (hd' : d' ≠ []) : HasObjects (f.moveTree d d') d' ih els := by
  intro q e he
  have : (f.moveTree d d').leaf (d' ++ q) = f.leaf (d ++ q) := by
    unfold FS.leaf
    rw [FS.get_moveTree _ hd hd', if_pos (List.prefix_append _ _), List.drop_left]
  rw [this]
  exact h q e he

theorem rsyncState_not_rev {c : Config} (ha : Apart c.rsyncDir c.rsyncStatePath) {r : RsyncRevision} :
    ¬ r.path c <+: c.rsyncStatePath := fun h => ha.1 ((List.prefix_append _ _).trans h)

theorem rsyncState_not_current {c : Config} (ha : Apart c.rsyncDir c.rsyncStatePath) :
    ¬ c.rsyncCurrent <+: c.rsyncStatePath := fun h => ha.1 ((List.prefix_append _ _).trans h)

/-! ## Making the revision -/

theorem makeRevision_moveServed {c : Config} {B : Notif → Prop} {rev : RsyncRevision} {src : Path}
    (ho : CleanObjects c.rsyncIncludeHost) (ha : Apart c.rsyncDir c.rsyncStatePath)
    (h0 : MoveServed c B w.cur) :
    Keeps (MoveServed c B) w (makeRevision rev c src env w).2 ∧
    ((makeRevision rev c src env w).1 = .ok () →
      (makeRevision rev c src env w).2.cur.get (rev.path c) = some .dir) := by
  have hmk : Does (MkDirs (rev.path c)) (createOutPath (rev.path c)) := by
    unfold createOutPath
    have := createDirAll_mkdirs (rev.path c)
    refine Rel.bind Rel.getFs (fun fs => ?_)
    split
    · exact Rel.pure _
    · exact this
  have k1 := hmk env w
  have k1' := createOutPath_in (E := anyEff) (out := rev.path c) trivial env w
  have first : Keeps (MoveServed c B) w (createOutPath (rev.path c) env w).2 :=
    Keeps.of_steps (k1.and k1'.steps) fun f f' h hm => h.of_leaf (hm.2 h.wf).1 fun q _ => hm.1.leaf q
  have second : ∀ w1, createOutPath (rev.path c) env w = (.ok (), w1) →
      MoveServed c B w1.cur ∧ DirAt (rev.path c) w1.cur ∧
      Keeps (fun f => MoveServed c B f ∧ DirAt (rev.path c) f) w1
        (writeSnapshotTree (rev.path c) c.rsyncIncludeHost src env w1).2 := by
    intro w1 e1
    rw [e1] at first
    have hm1 := (first h0).1
    have hd := (createOutPath_ok (h0.revs rev) e1).2
    refine ⟨hm1, hd, ?_⟩
    have k2 := writeSnapshotTree_in (E := Eff.only (rev.path c <+: ·)) (out := rev.path c)
      (ih := c.rsyncIncludeHost) (snapshot := src) (fun b e he => by
        rw [objectPath_below (ho b e he)]; exact List.prefix_append _ _) env w1
    have k3 := writeSnapshotTree_dirAt (rev.path c) (rev.path c) c.rsyncIncludeHost src env w1
    have k4 : Keeps (fun f => Change (rev.path c <+: ·) w1.cur f) w1
        (writeSnapshotTree (rev.path c) c.rsyncIncludeHost src env w1).2 :=
      Keeps.of_within k2 fun f f' h hc hw => by
        obtain ⟨g1, g2⟩ := h hw
        obtain ⟨g3, g4⟩ := hc g1
        exact ⟨g3, g2.trans g4⟩
    refine Keeps.via (k4.and k3) ⟨fun hw => ⟨hw, Frame.refl _⟩, hd⟩ ?_
    rintro f ⟨h1, h2⟩
    refine ⟨hm1.frame h1 (fun q hq h => rev_not_current h hq) ?_ (fun r => ?_), h2⟩
    · rw [FS.link?_of_leaf ((h1 hm1.wf).2 _ (rsyncState_not_rev ha))]; exact hm1.state
    · by_cases hr : r = rev
      · subst hr; exact leaf_of_dir h2
      · rw [(h1 hm1.wf).2 _ (fun h => hr (rev_apart (List.prefix_refl _) h))]
        exact hm1.revs r
  unfold makeRevision
  constructor
  · refine Tr.bindAt (T := Keeps _) first (fun _ w1 e1 => ?_)
    obtain ⟨h1, h2, h3⟩ := second w1 e1
    exact Keeps.via h3 ⟨h1, h2⟩ (fun f h => h.1)
  · intro hok
    obtain ⟨_, w1, e1, e2⟩ := M.bind_ok.1 (Prod.ext hok rfl :
      (createOutPath (rev.path c) >>= fun _ => writeSnapshotTree (rev.path c) c.rsyncIncludeHost src) env w
        = (.ok (), _))
    obtain ⟨h1, h2, h3⟩ := second w1 e1
    have := (h3 ⟨h1, h2⟩).1.2
    rw [e2] at this
    exact this

/-! ## Moving it in place -/

theorem no_objects_of_empty {f : FS} {d : Path} {ih : Bool} {els : List (RsyncUri × Bytes)}
    (h : HasObjects f d ih els) (hd : f.get d = some .dir) (hc : f.hasChild d = false) :
    ∀ q, lastObject ih els q = none := by
  intro q
  match hq : lastObject ih els q with
  | none => rfl
  | some e =>
    obtain ⟨t, ht⟩ := h q e hq
    have hg : f.get (d ++ q) ≠ none := by
      intro hn
      unfold FS.leaf at ht
      rw [hn] at ht
      cases ht
    have hne : d ++ q ≠ d := by
      intro he
      rw [he, leaf_of_dir hd] at ht
      cases ht
    have := (FS.hasChild_iff f d).2 ⟨d ++ q, List.prefix_append _ _, hne, hg⟩
    rw [hc] at this
    cases this

theorem renameCurrent_moveServed {c : Config} {B : Notif → Prop} {rev : RsyncRevision}
    {st : RsyncDirState} {n : Notif} {b : Bytes} (ha : Apart c.rsyncDir c.rsyncStatePath)
    (hn : B n) (h0 : MoveServed c B w.cur) (hd : w.cur.get (rev.path c) = some .dir)
    (hs : Serves c w.cur (rev.path c) n b) :
    Keeps (MoveServed c B) w (renameCurrent rev st c env w).2 ∧
    ((renameCurrent rev st c env w).1 = .ok () →
      Serves c (renameCurrent rev st c env w).2.cur c.rsyncCurrent n b) := by
  -- the second move
  have second : ∀ w1 : World, MoveServed c B w1.cur → w1.cur.get (rev.path c) = some .dir →
      Serves c w1.cur (rev.path c) n b →
      Keeps (MoveServed c B) w1 (rename (rev.path c) c.rsyncCurrent env w1).2 ∧
      ((rename (rev.path c) c.rsyncCurrent env w1).1 = .ok () →
        Serves c (rename (rev.path c) c.rsyncCurrent env w1).2.cur c.rsyncCurrent n b) := by
    intro w1 h1 hd1 hs1
    have hwf := (rename_in (E := anyEff) (a := rev.path c) (b := c.rsyncCurrent)
      (fun _ _ => trivial) env w1).wf h1.wf
    rcases rename_dir_cases (env := env) (dst := c.rsyncCurrent) hd1 with
      ⟨e, k⟩ | ⟨k, g1, g2, g3, g4, g5, g6⟩
    · rw [k]
      exact ⟨Keeps.of_same ⟨rfl, rfl⟩, fun h => by cases h⟩
    · rw [k] at hwf ⊢
      have hobj := hs1.2.2.moveTree g1 g2
      have hget : ∀ q, (w1.cur.moveTree (rev.path c) c.rsyncCurrent).get q =
          if c.rsyncCurrent <+: q then w1.cur.get (rev.path c ++ q.drop c.rsyncCurrent.length)
          else if rev.path c <+: q then none else w1.cur.get q := FS.get_moveTree _ g1 g2
      have hserve : Serves c (w1.cur.moveTree (rev.path c) c.rsyncCurrent) c.rsyncCurrent n b :=
        ⟨hs1.1, hs1.2.1, hobj⟩
      refine ⟨fun _ => ⟨?_, fun f hf => ?_⟩, fun _ => hserve⟩
      · refine ⟨hwf, ?_, fun r => ?_, ?_, Or.inr ⟨n, b, hn, hserve⟩⟩
        · rw [FS.link?_of_leaf (FS.leaf_moveTree _ g1 g2 (rsyncState_not_rev ha)
            (rsyncState_not_current ha))]
          exact h1.state
        · unfold FS.leaf
          rw [hget, if_neg (fun h => rev_not_current (List.prefix_refl _) h)]
          by_cases hr : rev.path c <+: r.path c
          · rw [if_pos hr]
          · rw [if_neg hr]; exact h1.revs r
        · refine leaf_of_dir ?_
          rw [hget, if_pos (List.prefix_refl _), List.drop_length, List.append_nil]
          exact hd1
      · rcases List.mem_cons.1 hf with rfl | hf
        · exact Or.inr h1
        · exact Or.inl hf
  have heq : renameCurrent rev st c env w = ((match st.current with
      | some old => if w.cur.exists? c.rsyncCurrent then rename c.rsyncCurrent (old.path c) else pure ()
      | none => pure ()) >>= fun _ => rename (rev.path c) c.rsyncCurrent) env w := by
    unfold renameCurrent
    dsimp only
    rw [getFs_bind]
    rfl
  rw [heq]
  match ho : st.current with
  | none =>
    have := second w h0 hd hs
    exact this
  | some old =>
    dsimp only
    by_cases hex : w.cur.exists? c.rsyncCurrent = true
    · rw [if_pos hex]
      have hcd : w.cur.get c.rsyncCurrent = some .dir := by
        have h1 := h0.current
        unfold FS.leaf at h1
        unfold FS.exists? FS.resolve at hex
        match hg : w.cur.get c.rsyncCurrent with
        | none => rw [hg] at hex; cases hex
        | some .dir => rfl
        | some (.file _ _) => rw [hg] at h1; cases h1
        | some (.link _) => rw [hg] at h1; cases h1
      have hwf := (rename_in (E := anyEff) (a := c.rsyncCurrent) (b := old.path c)
        (fun _ _ => trivial) env w).wf h0.wf
      rcases rename_dir_cases (env := env) (dst := old.path c) hcd with
        ⟨e, k⟩ | ⟨k, g1, g2, g3, g4, g5, g6⟩
      · rw [M.bind_of_error k]
        exact ⟨Keeps.of_same ⟨rfl, rfl⟩, fun h => by cases h⟩
      · rw [k] at hwf
        rw [M.bind_of_ok k]
        have hget : ∀ q, (w.cur.moveTree c.rsyncCurrent (old.path c)).get q =
            if old.path c <+: q then w.cur.get (c.rsyncCurrent ++ q.drop (old.path c).length)
            else if c.rsyncCurrent <+: q then none else w.cur.get q := FS.get_moveTree _ g1 g2
        have hm : MoveServed c B (w.cur.moveTree c.rsyncCurrent (old.path c)) := by
          refine ⟨hwf, ?_, fun r => ?_, ?_, Or.inl fun q => ?_⟩
          · rw [FS.link?_of_leaf (FS.leaf_moveTree _ g1 g2 (rsyncState_not_current ha)
              (rsyncState_not_rev ha))]
            exact h0.state
          · by_cases hr : old.path c <+: r.path c
            · have : r = old := (rev_apart (List.prefix_refl _) hr)
              subst this
              refine leaf_of_dir ?_
              rw [hget, if_pos (List.prefix_refl _), List.drop_length, List.append_nil]
              exact hcd
            · unfold FS.leaf
              rw [hget, if_neg hr, if_neg (rev_not_current (List.prefix_refl _))]
              exact h0.revs r
          · unfold FS.leaf
            rw [hget, if_neg (fun h => rev_not_current h (List.prefix_refl _)),
              if_pos (List.prefix_refl _)]
          · unfold FS.leaf
            rw [hget, if_neg (fun h => rev_not_current h (List.prefix_append _ _)),
              if_pos (List.prefix_append _ _)]
        have hd1 : (w.cur.moveTree c.rsyncCurrent (old.path c)).get (rev.path c) = some .dir ∧
            Serves c (w.cur.moveTree c.rsyncCurrent (old.path c)) (rev.path c) n b := by
          by_cases hr : old = rev
          · subst hr
            refine ⟨?_, hs.1, hs.2.1, fun q e he => ?_⟩
            · rw [hget, if_pos (List.prefix_refl _), List.drop_length, List.append_nil]
              exact hcd
            · rcases g6 with g6 | g6
              · rw [hd] at g6; cases g6
              · rw [no_objects_of_empty hs.2.2 hd g6.2 q] at he
                cases he
          · have hx : ∀ q, rev.path c <+: q →
                (w.cur.moveTree c.rsyncCurrent (old.path c)).get q = w.cur.get q := by
              intro q hq
              rw [hget, if_neg (fun h => hr (rev_apart h hq)), if_neg (rev_not_current hq)]
            exact ⟨by rw [hx _ (List.prefix_refl _)]; exact hd, hs.1, hs.2.1,
              hs.2.2.of_leaf fun q hq => leaf_of_get (hx q hq)⟩
        have := second { w with
          tick := w.tick + 1, cur := w.cur.moveTree c.rsyncCurrent (old.path c),
          past := w.cur :: w.past } hm hd1.1 hd1.2
        refine ⟨fun _ => ⟨(this.1 hm).1, fun f hf => ?_⟩, this.2⟩
        rcases (this.1 hm).2 f hf with h1 | h1
        · rcases List.mem_cons.1 h1 with rfl | h1
          · exact Or.inr h0
          · exact Or.inl h1
        · exact Or.inr h1
    · rw [if_neg hex]
      exact second w h0 hd hs

/-! ## The rsync part -/

/-- What the phases start with. -/
structure MoveReady (c : Config) (B : Notif → Prop) (s : RrdpState) (x : SnapshotState) (n : Notif)
    (w : World) : Prop where
  moves : c.rsyncUseSymlinks = false
  objects : CleanObjects c.rsyncIncludeHost
  apart : Apart c.rsyncDir c.rsyncStatePath
  snapshot : s.snapshot = some x
  noLink : w.cur.link? (s.mappings.path x.relPath) = none
  hash : ∀ b, w.cur.file? (s.mappings.path x.relPath) = some b → Ext.sha b = n.snapHash
  known : B n
  served : MoveServed c B w.cur

section

variable {s : RrdpState} {c : Config} {x : SnapshotState} {B : Notif → Prop} {n : Notif}

theorem MoveReady.made (h : MoveReady c B s x n w) {st : RsyncDirState} {w1 w2 : World}
    (e1 : RsyncDirState.recover c env w = (.ok st, w1))
    (e2 : makeRevision x.rev c (s.mappings.path x.relPath) env w1 = (.ok (), w2)) :
    MoveServed c B w2.cur ∧ w2.cur.get (x.rev.path c) = some .dir ∧
      ∃ b, Serves c w2.cur (x.rev.path c) n b := by
  obtain ⟨s1, hrec⟩ := recover_ok h.served.state e1
  have h1 : MoveServed c B w1.cur := by rw [s1.cur]; exact h.served
  obtain ⟨b, g1, g2, g3, g4⟩ := makeRevision_has h.objects h1.wf (by rw [s1.cur]; exact h.noLink) e2
  obtain ⟨k1, k2⟩ := makeRevision_moveServed (env := env) (rev := x.rev)
    (src := s.mappings.path x.relPath) h.objects h.apart h1
  rw [e2] at k1 k2
  rw [s1.cur] at g1
  exact ⟨(k1 h1).1, k2 rfl, b, h.hash b g1, g2, g4.1⟩

theorem MoveReady.switched (h : MoveReady c B s x n w) {st : RsyncDirState} {w1 w2 w3 : World}
    (e1 : RsyncDirState.recover c env w = (.ok st, w1))
    (e2 : makeRevision x.rev c (s.mappings.path x.relPath) env w1 = (.ok (), w2))
    (e3 : switchTo x.rev st c env w2 = (.ok (), w3)) :
    MoveServed c B w3.cur ∧ ∃ b, Serves c w3.cur c.rsyncCurrent n b := by
  obtain ⟨g1, g2, b, g3⟩ := h.made e1 e2
  unfold switchTo at e3
  rw [if_neg (by rw [h.moves]; decide)] at e3
  obtain ⟨k1, k2⟩ := renameCurrent_moveServed (env := env) (st := st) h.apart h.known g1 g2 g3
  rw [e3] at k1 k2
  exact ⟨(k1 g1).1, b, k2 rfl⟩

theorem cleanOld_moveServed (ha : Apart c.rsyncDir c.rsyncStatePath) (st1 : RsyncDirState) (w4 : World) :
    Keeps (MoveServed c B) w4 (st1.cleanOld c env w4).2 := by
  refine Keeps.of_steps ((cleanOld_within (c := c)).steps.and (cleanOld_shrinks c st1 env w4)) ?_
  rintro f f' h ⟨g1, g2⟩
  refine h.frame g1 ?_ ?_ (fun r => ?_)
  · rintro q hq ⟨d, _, _, h⟩
    exact rev_not_current h hq
  · rw [FS.link?_of_leaf ((g1 h.wf).2 _ ?_)]
    · exact h.state
    · rintro ⟨d, _, _, h⟩
      exact rsyncState_not_rev ha h
  · rcases g2 (r.path c) with h1 | h1
    · rw [leaf_of_get h1]; exact h.revs r
    · unfold FS.leaf; rw [h1]

theorem persist_moveServed (ha : Apart c.rsyncDir c.rsyncStatePath) (st2 : RsyncDirState) (w5 : World) :
    Keeps (MoveServed c B) w5 (st2.persist c env w5).2 := by
  have k1 := writeBuf_writing c.rsyncStatePath (Ext.encRsync st2) env w5
  have k2 := writeBuf_in (E := Eff.only (· = c.rsyncStatePath)) rfl (Ext.encRsync st2) env w5
  refine Keeps.of_steps (k1.and k2.steps) ?_
  rintro f f' h ⟨⟨g1, g2⟩, g3⟩
  refine h.frame g3 ?_ ?_ (fun r => ?_)
  · rintro q hq rfl
    exact rsyncState_not_current ha hq
  · rcases g2 with g2 | ⟨k, t, g2⟩
    · rw [FS.link?_of_leaf g2]; exact h.state
    · unfold FS.link?
      rw [file_of_leaf g2]
  · rw [g1 _ (fun he : r.path c = c.rsyncStatePath =>
        rsyncState_not_rev ha (r := r) (by rw [he]; exact List.prefix_refl _))]
    exact h.revs r

theorem MoveReady.cleaned (h : MoveReady c B s x n w) {st st1 st2 : RsyncDirState}
    {w1 w2 w3 w4 w5 : World} (e1 : RsyncDirState.recover c env w = (.ok st, w1))
    (e2 : makeRevision x.rev c (s.mappings.path x.relPath) env w1 = (.ok (), w2))
    (e3 : switchTo x.rev st c env w2 = (.ok (), w3)) (e4 : st.updateCurrent x.rev env w3 = (.ok st1, w4))
    (e5 : st1.cleanOld c env w4 = (.ok st2, w5)) : MoveServed c B w5.cur := by
  obtain ⟨_, s4, _, _⟩ := updateCurrent_ok e4
  have k := cleanOld_moveServed (B := B) (env := env) h.apart st1 w4
  rw [e5] at k
  exact (k (by rw [s4.cur]; exact (h.switched e1 e2 e3).1)).1

theorem updateRsync_moveServed (h : MoveReady c B s x n w) :
    Keeps (MoveServed c B) w (updateRsync s c env w).2 ∧
    ((updateRsync s c env w).1 = .ok () →
      ∃ b, Serves c (updateRsync s c env w).2.cur c.rsyncCurrent n b) := by
  have ha := h.apart
  have hs := h.snapshot
  constructor
  · refine updateRsync_tr (T := Keeps _) hs ?_ ?_ ?_ ?_ ?_ ?_
    · exact Keeps.of_same (recover_same c env w)
    · intro st w1 e1
      obtain ⟨s1, hrec⟩ := recover_ok h.served.state e1
      exact (makeRevision_moveServed h.objects ha (by rw [s1.cur]; exact h.served)).1
    · intro st w1 w2 e1 e2
      obtain ⟨g1, g2, b, g3⟩ := h.made e1 e2
      unfold switchTo
      rw [if_neg (by rw [h.moves]; decide)]
      exact (renameCurrent_moveServed ha h.known g1 g2 g3).1
    · intro st w1 w2 w3 _ _ _
      exact Keeps.of_same (updateCurrent_same _ _ env w3)
    · intro st w1 w2 w3 st1 w4 _ _ _ _
      exact cleanOld_moveServed ha st1 w4
    · intro st w1 w2 w3 st1 w4 st2 w5 _ _ _ _ _
      exact persist_moveServed ha st2 w5
  · intro hok
    obtain ⟨w1, w2, w3, w4, w5, st, st1, st2, d⟩ := updateRsync_ok hs (Prod.ext hok rfl)
    obtain ⟨g1, b, g2, g3, g4⟩ := h.switched d.recovered d.made d.switched
    obtain ⟨_, s4, _, _⟩ := updateCurrent_ok d.updated
    refine ⟨b, g2, g3, ?_⟩
    have c1 := cleanOld_within (st := st1) (c := c) (env := env) (w := w4)
    rw [d.cleaned] at c1
    have hw4 : w4.cur.WF := by rw [s4.cur]; exact g1.wf
    have c2 := writeBuf_in (E := Eff.only (· = c.rsyncStatePath)) rfl (Ext.encRsync st2) env w5
    rw [show writeBuf c.rsyncStatePath (Ext.encRsync st2) env w5 = _ from d.persisted] at c2
    refine g4.of_leaf fun q hq => ?_
    rw [c2.frame (c1.wf hw4) q (by rintro rfl; exact rsyncState_not_current ha hq),
      c1.frame hw4 q (by rintro ⟨d, _, _, h⟩; exact rev_not_current h hq), s4.cur]

end

/-! ## Histories -/

theorem MoveServed.start {c : Config} {B : Notif → Prop} {f : FS} (hw : f.WF) (h : RsyncUnused c f) :
    MoveServed c B f := by
  refine ⟨hw, ?_, fun r => h _ (Or.inl (List.prefix_append _ _)),
    h _ (Or.inl (List.prefix_append _ _)),
    Or.inl fun q => h _ (Or.inl ((List.prefix_append _ _).trans (List.prefix_append _ _)))⟩
  rw [FS.link?_eq_none]
  intro t ht
  have := h _ (Or.inr rfl)
  unfold FS.leaf at this
  rw [ht] at this
  cases this

theorem AnyLifetime.ledger {c : Config} {base name : Str} {B : Notif → Prop} {f : FS}
    (h : AnyLifetime c base name B f) : ∃ A, Ledger c base name A f := by
  induction h with
  | start h => exact ⟨_, .start h.1⟩
  | run _ h1 h2 ih => obtain ⟨A, hA⟩ := ih; exact ⟨_, .cut hA h1.1 h2⟩

theorem Booked.clean {c : Config} {base name : Str} {A : Path → Prop} {f : FS} {env : Env}
    (h : Booked c base name A f) (hs : SoundSource c base name env f) : CleanSource c base env f :=
  ⟨hs.no304, h.staging, hs.oneHash⟩

theorem MoveServed.run {depth : Nat} {c : Config} {base name : Str} {B : Notif → Prop} {env : Env}
    {fs f : FS} (hl : Layout c base name) (ho : CleanObjects c.rsyncIncludeHost)
    (he : c.rsyncEnabled = true) (hm : c.rsyncUseSymlinks = false)
    (hc : RunConds c base name env fs) (hs : CleanSource c base env fs)
    (hB : ∀ n, Announces c base name env fs n → B n) (h : MoveServed c B fs)
    (hf : f ∈ (process depth c env (World.start fs)).2.crashPoints) : MoveServed c B f := by
  refine run_rsync_keeps hl hc he (P := MoveServed c B) ?_ ?_ ?_ f hf
  · exact fun f hw hf => h.of_leaf hw hf
  · exact fun f f' h hs hw => h.of_leaf hw hs.1
  · intro s x w hr h1
    obtain ⟨n, g1, g2, g3, g4⟩ := hr.version
    obtain ⟨hsl, hsb⟩ := hr.source hs
    exact (updateRsync_moveServed (n := n) ⟨hm, ho, hl.rsyncRsyncState, hr.snapshot,
      by rw [hr.path]; exact hsl, fun b hb => by rw [hr.path] at hb; rw [hsb b hb, g3],
      hB n g1, h1⟩).1 h1

theorem AnyLifetime.moveServed {c : Config} {base name : Str} {B : Notif → Prop} {f : FS}
    (hl : Layout c base name) (ho : CleanObjects c.rsyncIncludeHost)
    (he : c.rsyncEnabled = true) (hm : c.rsyncUseSymlinks = false)
    (h : AnyLifetime c base name B f) : MoveServed c B f := by
  induction h with
  | start h => exact .start h.1.pristine.wf h.2
  | run h0 h1 h2 ih =>
    obtain ⟨A, hA⟩ := AnyLifetime.ledger h0
    have hb := hA.booked hl (fun _ => ho)
    exact (ih.mono (fun n h => h1.2 n (Or.inl h))).run hl ho he hm (hb.conds hl (fun _ => ho) h1.1)
      (hb.clean h1.1) (fun n h => h1.2 n (Or.inr h)) h2

theorem MoveServed.servedDir {c : Config} {B : Notif → Prop} {f : FS} (h : MoveServed c B f) :
    servedDir c f = c.rsyncCurrent := by
  unfold KSync.servedDir
  have : f.link? c.rsyncCurrent = none := by
    rw [FS.link?_eq_none]
    intro t ht
    have := h.current
    unfold FS.leaf at this
    rw [ht] at this
    cases this
  rw [this]

/-- At the end of a run that published something. -/
theorem MoveServed.after {depth : Nat} {c : Config} {base name : Str} {B : Notif → Prop} {env : Env}
    {fs : FS} {w' : World} (hl : Layout c base name) (ho : CleanObjects c.rsyncIncludeHost)
    (he : c.rsyncEnabled = true) (hm : c.rsyncUseSymlinks = false)
    (hc : RunConds c base name env fs) (hs : CleanSource c base env fs)
    (hB : ∀ n, Announces c base name env fs n → B n) (h : MoveServed c B fs)
    (hok : process depth c env (World.start fs) = (.ok (), w')) : w'.crashPoints = [fs] ∨
      ∃ n b, Announces c base name env fs n ∧ Serves c w'.cur c.rsyncCurrent n b := by
  rcases run_rsync_ok hl hc he hok with h1 | ⟨s, x, w, w0, hr, hu, hsame, _, _⟩
  · exact Or.inl h1
  · right
    obtain ⟨n, g1, g2, g3, g4⟩ := hr.version
    obtain ⟨hsl, hsb⟩ := hr.source hs
    have hw : MoveServed c B w.cur := by
      refine h.of_leaf hr.wf fun q hq => hr.leaf q ?_ (fun h' => hl.rrdp_not_rsync h' hq)
      intro h'
      rcases hq with hq | rfl
      · exact hl.rsyncStaging.not_both hq h'
      · unfold Config.stagingDir Config.rsyncStatePath at h'
        rw [List.prefix_append_right_inj] at h'
        exact absurd h' (by decide)
    obtain ⟨_, k⟩ := updateRsync_moveServed (env := env) (n := n) ⟨hm, ho, hl.rsyncRsyncState, hr.snapshot,
      by rw [hr.path]; exact hsl, fun b hb => by rw [hr.path] at hb; rw [hsb b hb, g3],
      hB n g1, hw⟩
    rw [hu] at k
    obtain ⟨b, k1, k2, k3⟩ := k rfl
    exact ⟨n, b, g1, k1, k2, k3.of_leaf fun q hq => hsame.1 q (Or.inl ((List.prefix_append _ _).trans hq))⟩

end KSync
