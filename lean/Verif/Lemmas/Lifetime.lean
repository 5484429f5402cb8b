import Verif.Lemmas.History
import Verif.Lemmas.Torn

/-! # The invariant of an installation -/

set_option linter.unusedSectionVars false
set_option linter.unusedVariables false

namespace KSync

variable [Ext]

theorem FS.read_of_leaf {f f' : FS} {p : Path} (hl : f.link? p = none) (he : f'.leaf p = f.leaf p) :
    f'.read p = f.read p := by
  have hl' : f'.link? p = none := by rw [FS.link?_of_leaf he]; exact hl
  have hf := FS.file?_of_leaf he
  have key : ∀ g : FS, g.link? p = none → g.read p = g.file? p := by
    intro g hg
    unfold FS.read FS.resolve FS.file?
    unfold FS.link? at hg
    cases h : g.get p with
    | none => rfl
    | some x =>
      cases x with
      | file b t => rfl
      | dir => rfl
      | link t => rw [h] at hg; cases hg
  rw [key f hl, key f' hl', hf]

theorem Recorded.of_leaf {c : Config} {f f' : FS} {s : RrdpState}
    (hl : f.link? c.rrdpStatePath = none) (he : f'.leaf c.rrdpStatePath = f.leaf c.rrdpStatePath) :
    Recorded c f' s ↔ Recorded c f s := by
  unfold Recorded
  rw [FS.read_of_leaf hl he]

theorem InUse.recorded {c : Config} {base name : Str} {f : FS} {s s' : RrdpState}
    (h : InUse c base name f s) (h' : Recorded c f s') : s' = s := by
  rcases h with h | ⟨h, _⟩
  · exact h'.unique h
  · obtain ⟨b, h1, _⟩ := h'
    rw [exists_of_read h1] at h; cases h

theorem writeNotif_inj {n n' : Notif} (h : Ext.writeNotif n = Ext.writeNotif n') : n = n' := by
  have h1 := Ext.parse_write n
  rw [h, Ext.parse_write] at h1
  cases h1; rfl

theorem Keeps.and {P Q : FS → Prop} {w w' : World} (h : Keeps P w w') (h' : Keeps Q w w') :
    Keeps (fun f => P f ∧ Q f) w w' := by
  rintro ⟨h1, h2⟩
  obtain ⟨a1, a2⟩ := h h1
  obtain ⟨b1, b2⟩ := h' h2
  refine ⟨⟨a1, b1⟩, fun f hf => ?_⟩
  rcases a2 f hf with h | h
  · exact Or.inl h
  · exact (b2 f hf).imp id (fun h' => ⟨h, h'⟩)

/-! ## The invariant -/

/-- The state has this file in use. -/
def HeldFile (s : RrdpState) (rel : Str) (h : Hash) : Prop :=
  (∃ x, s.snapshot = some x ∧ x.relPath = rel ∧ x.hash = h) ∨
    ∃ d ∈ s.deltas, d.relPath = rel ∧ d.hash = h

/-- No recorded state wants this file removed. -/
def Spared (c : Config) (f : FS) (rel : Str) : Prop :=
  ∀ s, Recorded c f s → ∀ e ∈ s.deprecated, e.path ≠ c.pubPath rel

/-- All that the notification refers to is there and will stay. -/
structure Backed (life : SourceLife) (c : Config) (base name : Str) (p : Progress) (f : FS)
    (n : Notif) : Prop where
  version : life.age n.session < p.age ∨ (life.age n.session = p.age ∧ n.serial ≤ p.serial)
  refs : ∀ r ∈ n.refs, ∃ rel, r.1 = base ++ rel ∧ GoodRel name rel ∧
    (life.role (comps rel)).hash = r.2 ∧ FileHas f (c.pubPath rel) r.2 ∧ Spared c f rel

structure Kept (life : SourceLife) (c : Config) (base name : Str) (p : Progress) (f : FS) :
    Prop where
  wf : f.WF
  links : NoLinks f c.stagingDir
  noLink : f.link? c.rrdpStatePath = none
  state : ∀ s, Recorded c f s → Proper life c base name p s
  files : ∀ s, Recorded c f s → ∀ rel h, HeldFile s rel h → FileHas f (c.pubPath rel) h
  notif : f.leaf (c.notifPath name) = none ∨ ∃ n t,
    f.leaf (c.notifPath name) = some (.file (Ext.writeNotif n) t) ∧ Backed life c base name p f n

section
variable {life : SourceLife} {c : Config} {base name : Str} {p p' : Progress}

theorem HeldFile.refers {s : RrdpState} {rel : Str} {h : Hash} (hh : HeldFile s rel h) :
    s.Refers c (c.pubPath rel) := by
  rcases hh with ⟨x, h1, h2, _⟩ | ⟨d, h1, h2, _⟩
  · exact Or.inl ⟨x, h1, by rw [h2]⟩
  · exact Or.inr ⟨d, h1, by rw [h2]⟩

theorem Proper.heldFile {s : RrdpState} (hs : Proper life c base name p s) {rel : Str} {h : Hash}
    (hh : HeldFile s rel h) : GoodRel name rel ∧ (life.role (comps rel)).hash = h ∧
      ∀ e ∈ s.deprecated, e.path ≠ c.pubPath rel := by
  refine ⟨?_, ?_, fun e he heq => hs.apart e he (heq ▸ hh.refers)⟩
  · rcases hh with ⟨x, h1, rfl, _⟩ | ⟨d, h1, rfl, _⟩
    · exact hs.sane.snapshot x h1
    · exact hs.sane.deltas d h1
  · rcases hh with ⟨x, h1, rfl, rfl⟩ | ⟨d, h1, rfl, rfl⟩
    · rw [(hs.snapshot x h1).1]
    · obtain ⟨x, _, h2⟩ := hs.deltas d h1
      rw [h2]

theorem Describes.heldFile {s : RrdpState} {n : Notif} (h : Describes base s n) {r : Str × Hash}
    (hr : r ∈ n.refs) : ∃ rel, r.1 = base ++ rel ∧ HeldFile s rel r.2 := by
  obtain ⟨x, h1, _, _, h4, h5⟩ := h.snapshot
  rcases List.mem_cons.1 hr with rfl | hr
  · exact ⟨x.relPath, h5, Or.inl ⟨x, h1, rfl, h4.symm⟩⟩
  · rw [h.deltas] at hr
    obtain ⟨d, hd, rfl⟩ := List.mem_map.1 hr
    obtain ⟨e, he, rfl⟩ := List.mem_map.1 hd
    exact ⟨e.relPath, rfl, Or.inr ⟨e, he, rfl, rfl⟩⟩

theorem Describes.heldRef {s : RrdpState} {n : Notif} (h : Describes base s n) {rel : Str} {k : Hash}
    (hr : HeldFile s rel k) : (base ++ rel, k) ∈ n.refs := by
  obtain ⟨x, h1, _, _, h4, h5⟩ := h.snapshot
  unfold Notif.refs
  rcases hr with ⟨y, h6, rfl, rfl⟩ | ⟨d, hd, rfl, rfl⟩
  · rw [h1] at h6; cases h6
    rw [← h4, ← h5]
    exact List.mem_cons_self ..
  · refine List.mem_cons_of_mem _ (List.mem_map.2 ⟨⟨d.serial, base ++ d.relPath, d.hash⟩, ?_, rfl⟩)
    rw [h.deltas]
    exact List.mem_map.2 ⟨d, hd, rfl⟩

theorem Backed.mono (hp : p.le p') {f : FS} {n : Notif} (h : Backed life c base name p f n) :
    Backed life c base name p' f n := by
  refine { h with version := ?_ }
  have := h.version
  rcases hp with hp | ⟨hp1, hp2, hp3⟩ <;> omega

theorem Kept.mono (hp : p.le p') {f : FS} (h : Kept life c base name p f) :
    Kept life c base name p' f :=
  { h with
    state := fun s hs => (h.state s hs).mono hp
    notif := h.notif.imp id (fun ⟨n, t, h1, h2⟩ => ⟨n, t, h1, h2.mono hp⟩) }

theorem Kept.start {f : FS} (h : Pristine c name f) : Kept life c base name p f := by
  have hl : f.link? c.rrdpStatePath = none := by
    unfold FS.link?
    rw [h.noState]
  have hr : ∀ s, ¬ Recorded c f s := by
    rintro s ⟨b, h1, _⟩
    unfold FS.read FS.resolve at h1
    rw [h.noState] at h1
    cases h1
  exact ⟨h.wf, h.noLinks, hl, fun s hs => (hr s hs).elim, fun s hs => (hr s hs).elim,
    Or.inl h.noNotification⟩

theorem Backed.transfer {f f' : FS} {n : Notif} (h : Backed life c base name p f n)
    (hrec : ∀ s, Recorded c f' s → Recorded c f s)
    (hf : ∀ rel k, GoodRel name rel → (life.role (comps rel)).hash = k → Spared c f rel →
      (base ++ rel, k) ∈ n.refs → FileHas f (c.pubPath rel) k → FileHas f' (c.pubPath rel) k) :
    Backed life c base name p f' n := by
  refine ⟨h.version, fun r hr => ?_⟩
  obtain ⟨rel, h1, h2, h3, h4, h5⟩ := h.refs r hr
  refine ⟨rel, h1, h2, h3, hf rel r.2 h2 h3 h5 ?_ h4, fun s hs => h5 s (hrec s hs)⟩
  rw [← h1]; exact hr

theorem Kept.transfer {f f' : FS} (h : Kept life c base name p f) (hw : f'.WF)
    (hn : NoLinks f' c.stagingDir) (hs : f'.leaf c.rrdpStatePath = f.leaf c.rrdpStatePath)
    (ha : f'.leaf (c.notifPath name) = f.leaf (c.notifPath name))
    (hf : ∀ rel k, GoodRel name rel → (life.role (comps rel)).hash = k → Spared c f rel →
      (InStep c base name f → ∃ s, Recorded c f s ∧ HeldFile s rel k) →
      FileHas f (c.pubPath rel) k → FileHas f' (c.pubPath rel) k) :
    Kept life c base name p f' := by
  have hrec : ∀ s, Recorded c f' s ↔ Recorded c f s := fun s => Recorded.of_leaf h.noLink hs
  refine ⟨hw, hn, by rw [FS.link?_of_leaf hs]; exact h.noLink,
    fun s hr => h.state s ((hrec s).1 hr), fun s hr rel k hh => ?_, ?_⟩
  · have hr' := (hrec s).1 hr
    obtain ⟨h1, h2, h3⟩ := (h.state s hr').heldFile hh
    exact hf rel k h1 h2 (fun s' hs' => by rw [hs'.unique hr']; exact h3) (fun _ => ⟨s, hr', hh⟩)
      (h.files s hr' rel k hh)
  · rw [ha]
    refine h.notif.imp id ?_
    rintro ⟨n, t, h1, h2⟩
    refine ⟨n, t, h1, h2.transfer (fun s => (hrec s).1) (fun rel k g1 g2 g3 g4 g5 => ?_)⟩
    refine hf rel k g1 g2 g3 ?_ g5
    rintro (hi | ⟨s, n', t', hi1, hi2, hi3⟩)
    · rw [h1] at hi; cases hi
    · rw [h1] at hi3
      injection hi3 with hi3
      injection hi3 with hi3 _
      have := writeNotif_inj hi3
      subst this
      obtain ⟨rel', e1, e2⟩ := hi2.heldFile g4
      have := List.append_cancel_left e1
      subst this
      exact ⟨s, hi1, e2⟩

end

end KSync
