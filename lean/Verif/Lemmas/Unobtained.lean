import Verif.Spec.Missing
import Verif.Lemmas.Outcome

/-!
# A file that cannot be had is not staged
-/

set_option linter.unusedVariables false

namespace KSync

variable [Ext]

/-- What cannot be had is not retrieved, as long as its place is as at the start. -/
theorem NotObtained.not_retrieved {c : Config} {env : Env} {fs : FS} {base uri rel : Str} {hash : Hash}
    (hun : NotObtained c env fs base uri hash) (h0 : No304 env) (hlinks : NoLinks fs c.stagingDir)
    (hrel : CleanRel rel) (hu : uri = base ++ rel) {w w' : World}
    (hleaf : w.cur.leaf (c.stagingPath rel) = fs.leaf (c.stagingPath rel)) :
    c.fetcher.retrieve uri hash (c.stagingPath rel) env w ≠ (.ok (), w') := by
  intro h
  have hpath : c.stagingPath rel = c.stagingDir ++ comps rel := joinPath_clean hrel
  obtain ⟨u1, u2⟩ := hun
  obtain ⟨b, hb, hcase⟩ := retrieve_ok h0 h
  rcases hcase with ⟨hr, _⟩ | ⟨_, src, e, hsrc, hbody⟩
  · rw [hpath] at hr hleaf
    have hlk : w.cur.link? (c.stagingDir ++ comps rel) = none := by
      rw [FS.link?_of_leaf hleaf]; exact hlinks _ (List.prefix_append _ _)
    refine u2 rel hu (Ext.sha b) ⟨b, ?_, rfl⟩ hb
    rw [← FS.file?_of_leaf hleaf]
    exact FS.file_of_read hr hlk
  · obtain ⟨u, m, rfl, hno⟩ := u1 src (resolve_locates.1 hsrc)
    obtain ⟨tick, hdr, h20, _⟩ := hbody
    exact hno tick hdr b h20 hb

theorem retrieve_leaf {f : Fetcher} {uri : Str} {hash : Hash} {target q : Path} {env : Env}
    {w w' : World} {r : Except Err Unit} (h : f.retrieve uri hash target env w = (r, w'))
    (hq : q ≠ target) : w'.cur.leaf q = w.cur.leaf q := by
  have := (retrieve_toFile (f := f) (uri := uri) (hash := hash) (target := target) env w).toFile
  rw [h] at this
  exact this.1 q hq

/-- The deltas are not staged if one of the new ones cannot be had. -/
theorem NotObtained.deltas_not_staged {c : Config} {env : Env} {fs : FS} {uri rel : Str} {hash : Hash}
    {s : RrdpState} {reset : Bool}
    (hun : NotObtained c env fs s.mappings.baseUri uri hash) (h0 : No304 env)
    (hlinks : NoLinks fs c.stagingDir) (hrel : CleanRel rel) (hu : uri = s.mappings.baseUri ++ rel)
    {ds : List DeltaInfo}
    (hclean : ∀ d ∈ ds, ∀ rel, d.uri = s.mappings.baseUri ++ rel → CleanRel rel)
    (honly : ∀ d ∈ ds, ∀ rel', d.uri = s.mappings.baseUri ++ rel' → comps rel' = comps rel →
      (d.uri, d.hash) = (uri, hash))
    (hd : ∃ d ∈ ds, s.deltaIsNew reset d.serial = true ∧ (d.uri, d.hash) = (uri, hash))
    {w w' : World} {l : List DeltaState}
    (hleaf : w.cur.leaf (c.stagingPath rel) = fs.leaf (c.stagingPath rel)) :
    s.deltasStage reset c.fetcher c ds env w ≠ (.ok l, w') := by
  induction ds generalizing w l with
  | nil => obtain ⟨d, hd, _⟩ := hd; cases hd
  | cons d ds ih =>
    intro h
    have ih' := fun hd w l => @ih (fun d hd => hclean d (List.mem_cons_of_mem _ hd))
      (fun d hd => honly d (List.mem_cons_of_mem _ hd)) hd w l
    rcases deltasStage_cons_ok h with ⟨h1, h2⟩ | ⟨h1, rel', t, w1, w2, rest, h2, rfl, h3, h4, h5⟩
    · refine ih' ?_ _ _ hleaf h2
      obtain ⟨d', hd', hn, he⟩ := hd
      rcases List.mem_cons.1 hd' with rfl | hd'
      · rw [h1] at hn; cases hn
      · exact ⟨d', hd', hn, he⟩
    · have hr' := hclean d (List.mem_cons_self ..) rel' h2
      by_cases hc : comps rel' = comps rel
      · obtain ⟨e1, e2⟩ := Prod.mk.inj (honly d (List.mem_cons_self ..) rel' h2 hc)
        have hp : c.stagingPath rel' = c.stagingPath rel := by
          rw [Config.stagingPath, Config.stagingPath, joinPath_clean hr', joinPath_clean hrel, hc]
        rw [e1, e2, hp] at h3
        exact hun.not_retrieved h0 hlinks hrel hu hleaf h3
      · have hp : c.stagingPath rel ≠ c.stagingPath rel' := by
          rw [Config.stagingPath, Config.stagingPath, joinPath_clean hr', joinPath_clean hrel]
          exact fun h => hc (List.append_cancel_left h).symm
        refine ih' ?_ w2 _ ?_ h5
        · obtain ⟨d', hd', hn, he⟩ := hd
          rcases List.mem_cons.1 hd' with rfl | hd'
          · refine absurd ?_ hc
            have : s.mappings.baseUri ++ rel' = s.mappings.baseUri ++ rel := by
              rw [← h2, ← hu]; exact (Prod.mk.inj he).1
            rw [List.append_cancel_left this]
          · exact ⟨d', hd', hn, he⟩
        · rw [h4.1, retrieve_leaf h3 hp, hleaf]

/-- A run gets to the publication only if all it needs could be had. -/
theorem prepare_obtained {depth : Nat} {c : Config} {base name : Str} {env : Env} {fs : FS}
    {s : RrdpState} {st : StagedChanges} {w1 : World}
    (h : prepare depth c env (World.start fs) = (.ok (some (s, st)), w1))
    (hc : RunConds c base name env fs) (h0 : No304 env) (hlinks : NoLinks fs c.stagingDir) :
    ∃ s0 n0 n, InUse c base name fs s0 ∧ Offers c env fs s0.source.etag n0 ∧ Limited c n0 n ∧
      NewVersion s0 n ∧ ¬ NotObtained c env fs base n.snapUri n.snapHash ∧
      (OrderedState c base fs → ¬ MissingDelta c env fs base s0 n) := by
  unfold prepare at h
  obtain ⟨s0, wa, h1, h2⟩ := M.bind_ok.1 h
  obtain ⟨staged, w2, h3, h4⟩ := M.bind_ok.1 h2
  cases staged with
  | none => dsimp only at h4; rw [M.pure_ok] at h4; cases h4.1
  | some st' =>
    have hcur : wa.cur = fs := (loadState_ok h1).1.1
    have huse := loadState_inUse hc.uri h1
    have hsane := huse.sane hc.state
    have hbase : s0.mappings.baseUri = base := by rw [hsane.mappings]
    obtain ⟨n0, etag, ds, w5, h9, h10, h11, h12, h13, h14⟩ := updateStaged_some h3
    rw [hcur] at h9
    have hlim : Limited c n0 { n0 with deltas := ds } := ⟨ds, sortVerify_limit h10, rfl⟩
    obtain ⟨hreset, hnew⟩ := decide_reset h11
    have hrefs : ∀ r ∈ ({ n0 with deltas := ds } : Notif).refs, ∀ rel, r.1 = base ++ rel →
        GoodRel name rel := (hc.source _ _ h9).limited h10
    refine ⟨s0, n0, _, huse, h9, hlim, hnew, ?_, ?_⟩
    all_goals
      obtain ⟨st2, w6, w7, h15, _, _, _, h16, h17, h18⟩ := stage_ok h14
      obtain ⟨rel, t, w8, h19, _, h20, h21⟩ := snapshotStage_ok h17
      rw [hbase] at h19
      have hrel := hrefs _ (List.mem_cons_self ..) rel h19
      have hw6 : Frame (· = c.stagingPath s0.source.name) w5.cur w6.cur := by
        have := (writeBuf_writing (c.stagingPath s0.source.name)
          (Ext.writeNotif { n0 with deltas := ds }) env w5)
        rw [h16] at this
        exact (this.mono (fun _ _ h => h.1)).ends
          (fun f => Frame.refl _) (fun f g k a b => a.trans b)
      have hname : c.stagingPath s0.source.name = c.stagingDir ++ [name] := by
        unfold Config.stagingPath
        rw [hsane.fileName, hc.uri.joinName]
      have hkeep : ∀ rel, GoodRel name rel →
          w6.cur.leaf (c.stagingPath rel) = fs.leaf (c.stagingPath rel) := by
        intro rel hrel
        rw [hw6 _ (fun he => ?_), h13.cur, hcur]
        rw [hname] at he
        have hp : c.stagingPath rel = c.stagingDir ++ comps rel := joinPath_clean hrel.clean
        rw [hp] at he
        have := List.append_cancel_left he
        exact hrel.notName (by rw [this]; rfl)
    · intro hun
      exact hun.not_retrieved h0 hlinks hrel.clean h19 (hkeep rel hrel) h20
    · rintro ho ⟨d, hd, hdn, hun, honly⟩
      have hmem : ∀ d ∈ ds, (d.uri, d.hash) ∈ ({ n0 with deltas := ds } : Notif).refs :=
        fun d hd => List.mem_cons_of_mem _ (List.mem_map.2 ⟨d, hd, rfl⟩)
      have hdnew := (deltaIsNew_iff (s := s0) (n := { n0 with deltas := ds }) (k := d.serial) hreset
        (huse.ordered ho)).2 hdn
      obtain ⟨rel', hrel'⟩ := h12.inside.2 d hd hdnew
      rw [hbase] at hrel'
      have hg' := hrefs _ (hmem d hd) rel' hrel'
      by_cases hcc : comps rel = comps rel'
      · have he := honly _ (List.mem_cons_self ..) rel rel' h19 hrel' hcc
        obtain ⟨e1, e2⟩ := Prod.mk.inj he
        have hrr : rel = rel' := by
          have : base ++ rel = base ++ rel' := by rw [← h19, ← hrel', e1]
          exact List.append_cancel_left this
        subst hrr
        dsimp only at h20 e1 e2
        rw [e1, e2] at h20
        exact hun.not_retrieved h0 hlinks hrel.clean hrel' (hkeep rel hrel) h20
      · have hp : c.stagingPath rel' ≠ c.stagingPath rel := by
          rw [Config.stagingPath, Config.stagingPath, joinPath_clean hrel.clean, joinPath_clean hg'.clean]
          exact fun h => hcc (List.append_cancel_left h).symm
        rw [← hbase] at hun hrel'
        refine hun.deltas_not_staged h0 hlinks hg'.clean hrel' (fun d hd rel h => ?_)
          (fun d' hd' rel'' h hcomp => ?_) ⟨d, hd, hdnew, rfl⟩ ?_ h18
        · rw [hbase] at h; exact (hrefs _ (hmem d hd) rel h).clean
        · rw [hbase] at h hrel'; exact honly _ (hmem d' hd') rel'' rel' h hrel' hcomp
        · rw [h21.1, retrieve_leaf h20 hp, hkeep rel' hg']

theorem run_withheld {depth : Nat} {c : Config} {base name : Str} {env : Env} {fs : FS}
    (hc : RunConds c base name env fs) :
    Withheld c fs (process depth c env (World.start fs)) ∨
    ∃ s st w1 n, AtPublish depth c base name env (World.start fs) s st w1 n ∧
      process depth c env (World.start fs) = publish c s st env w1 := by
  rcases run_cases (depth := depth) (w := World.start fs) hc with ⟨h1, h2⟩ | h
  · refine Or.inl ⟨fun f hf q hq => (h1.crash_frame hc.wf f hf).2 q hq, fun h => ?_⟩
    have h3 : process depth c env (World.start fs) = (.ok (), (process depth c env (World.start fs)).2) :=
      Prod.ext h rfl
    rcases run_ok (w := World.start fs) hc h3 with ⟨k1, _⟩ | ⟨s, st, w1, n, k1, _⟩
    · unfold World.crashPoints; rw [k1.1, k1.2]; rfl
    · exact absurd k1.prep (h2 s st w1)
  · exact Or.inr h

end KSync
