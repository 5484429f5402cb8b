import Verif.Spec.RsyncParty
import Verif.Props.Names
import Verif.Props.RsyncExact
import Verif.Props.RsyncClient

/-! # Relying parties that use rsync -/

set_option linter.unusedSectionVars false
set_option linter.unusedVariables false

namespace KSync

variable [Ext]

theorem CleanUri.comps_host {u : RsyncUri} (h : CleanUri u) : ∃ segs, u.path = withSlashes segs ∧
    comps (objectRel true u) = u.authority :: u.module :: segs := by
  obtain ⟨segs, _, h1, h2⟩ := h.path
  refine ⟨segs, h2, ?_⟩
  unfold objectRel
  rw [if_pos rfl, List.append_assoc]
  show comps (u.authority ++ '/' :: (u.module ++ '/' :: u.path)) = _
  rw [comps_append, h.authority.comps, comps_append, h.module.comps, h2, comps_withSlashes h1]
  rfl

/-- Clean URIs have files of their own. -/
theorem CleanUri.host_inj {u v : RsyncUri} (hu : CleanUri u) (hv : CleanUri v)
    (h : comps (objectRel true u) = comps (objectRel true v)) : u = v := by
  obtain ⟨s, h1, h2⟩ := hu.comps_host
  obtain ⟨t, g1, g2⟩ := hv.comps_host
  rw [h2, g2] at h
  injection h with e1 e2
  injection e2 with e2 e3
  cases u; cases v
  simp only at e1 e2 h1 g1
  rw [e1, e2, h1, g1, e3]

theorem CleanUri.path_inj {u v : RsyncUri} (hu : CleanUri u) (hv : CleanUri v)
    (ha : u.authority = v.authority) (hm : u.module = v.module)
    (h : comps (objectRel false u) = comps (objectRel false v)) : u = v := by
  obtain ⟨s, _, h1, h2⟩ := hu.path
  obtain ⟨t, _, g1, g2⟩ := hv.path
  unfold objectRel at h
  rw [if_neg (by simp), if_neg (by simp), h2, g2, comps_withSlashes h1, comps_withSlashes g1] at h
  cases u; cases v
  simp only at ha hm h2 g2
  rw [ha, hm, h2, g2, h]

/-- Clean URIs can be told from their texts. -/
theorem CleanUri.toStr_inj {u v : RsyncUri} (hu : CleanUri u) (hv : CleanUri v) (h : u.toStr = v.toStr) :
    u = v := by
  refine hu.host_inj hv ?_
  unfold RsyncUri.toStr at h
  simp only [List.append_assoc] at h
  have h := List.append_cancel_left h
  unfold objectRel
  rw [if_pos rfl, if_pos rfl, List.append_assoc, List.append_assoc]
  rw [h]

/-- Looking an object up by its path is looking it up by its URI. -/
theorem lastObject_by_uri {ih : Bool} {U : RsyncUri → Prop} {els : List (RsyncUri × Bytes)} {o : Objects}
    (hc : ∀ u, U u → CleanUri u) (hU : ∀ u v, U u → U v → comps (objectRel ih u) = comps (objectRel ih v) → u = v)
    (he : ∀ e ∈ els, U e.1) (ho : SnapshotOf els o) {u : RsyncUri} (hu : U u) :
    (lastObject ih els (comps (objectRel ih u))).map (·.2) = o u.toStr := by
  rw [ho u.toStr]
  unfold lastObject
  congr 1
  have he' : ∀ e ∈ els.reverse, U e.1 := fun e h => he e (List.mem_reverse.1 h)
  generalize els.reverse = l at he'
  induction l with
  | nil => rfl
  | cons e l ih' =>
    have h1 := he' e List.mem_cons_self
    have : (comps (objectRel ih e.1) = comps (objectRel ih u)) ↔ e.1.toStr = u.toStr :=
      ⟨fun h => by rw [hU _ _ h1 hu h], fun h => by rw [(hc _ h1).toStr_inj (hc _ hu) h]⟩
    rw [List.find?_cons, List.find?_cons, ih' (fun e h => he' e (List.mem_cons_of_mem _ h))]
    simp only [this]

/-- A directory with exactly the objects of a snapshot. -/
theorem tree_of_objects {ih : Bool} {U : RsyncUri → Prop} {els : List (RsyncUri × Bytes)} {o : Objects} {f : FS}
    {d : Path} (hc : ∀ u, U u → CleanUri u)
    (hU : ∀ u v, U u → U v → comps (objectRel ih u) = comps (objectRel ih v) → u = v)
    (he : ∀ e ∈ els, U e.1) (ho : SnapshotOf els o) (h1 : HasObjects f d ih els) (h2 : OnlyObjects f d ih els) :
    IsTreeOf ih U o (fun q => f.file? (d ++ q)) := by
  have hnone : ∀ q, lastObject ih els q = none → f.file? (d ++ q) = none := by
    intro q hq
    match h3 : f.file? (d ++ q) with
    | none => rfl
    | some b =>
      obtain ⟨t, h4⟩ := FS.file?_leaf h3
      obtain ⟨e, h5⟩ := h2 q (by rw [h4]; nofun)
      rw [hq] at h5; cases h5
  refine ⟨fun u hu => ?_, fun q b hb => ?_⟩
  · rw [← lastObject_by_uri hc hU he ho hu]
    match h3 : lastObject ih els (comps (objectRel ih u)) with
    | none => exact hnone _ h3
    | some e =>
      obtain ⟨t, h4⟩ := h1 _ e h3
      exact FS.file?_some.2 ⟨t, FS.leaf_eq_some_file.1 h4⟩
  · match h3 : lastObject ih els q with
    | none => rw [hnone q h3] at hb; cases hb
    | some e =>
      have h4 := List.find?_some h3
      have h5 := List.mem_of_find?_eq_some h3
      exact ⟨e.1, he e (List.mem_reverse.1 h5), (of_decide_eq_true h4).symm⟩

/-- All that is read in time is as it was when the client entered. -/
theorem ReadInTime.tree {life : SourceLife} {c : Config} {base name : Str} {t0 : Time} {p0 : Progress} {f0 : FS}
    {r : RsyncRevision} {got : Path → Option Bytes} (h : ReadInTime life c base name t0 p0 f0 r got)
    (hl : Layout c base name) (ho : CleanObjects c.rsyncIncludeHost) (he : c.rsyncEnabled = true)
    (hm : c.rsyncUseSymlinks = true) (h0 : NewLifetime life c base name p0 f0) (hr : Enters c f0 r) :
    ∀ q, got q = f0.file? (r.path c ++ q) := by
  intro q
  obtain ⟨p, f, h1, h2⟩ := h q
  rw [h2]
  have := C75_revision_stays_partial life c base name p0 p f0 f r t0 hl ho he hm h0 hr.accord hr.kept h1
    (r.path c ++ q) (List.prefix_append _ _)
  match h3 : f.file? (r.path c ++ q), h4 : f0.file? (r.path c ++ q) with
  | none, none => rfl
  | some b, x =>
    obtain ⟨t, h5⟩ := FS.file?_leaf h3
    rw [this] at h5
    rw [← h4, FS.file?_some.2 ⟨t, FS.leaf_eq_some_file.1 h5⟩]
  | none, some b =>
    obtain ⟨t, h5⟩ := FS.file?_leaf h4
    rw [← this] at h5
    rw [FS.file?_some.2 ⟨t, FS.leaf_eq_some_file.1 h5⟩] at h3
    cases h3

end KSync
