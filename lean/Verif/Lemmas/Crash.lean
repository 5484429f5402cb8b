import Verif.Lemmas.Paths

/-! # What crashes during an operation can leave behind -/

set_option linter.unusedSectionVars false
set_option linter.unusedSimpArgs false
set_option linter.unusedVariables false

namespace KSync

/-- One step of writing `b` to `p`: other files stay, `p` becomes a prefix of `b`. -/
def Writing (p : Path) (b : Bytes) (f f' : FS) : Prop :=
  Frame (· = p) f f' ∧ (f'.leaf p = f.leaf p ∨ ∃ k t, f'.leaf p = some (.file (b.take k) t))

theorem Does.and {R R' : FS → FS → Prop} {m : M α} (h : Does R m) (h' : Does R' m) :
    Does (fun f f' => R f f' ∧ R' f f') m := fun env w => (h env w).and (h' env w)

theorem writeBuf_writing (p : Path) (b : Bytes) : Does (Writing p b) (writeBuf p b) := by
  have h1 : Does (Writing p b) (createPathForFile p) :=
    Does.mono (createPathForFile_writes (fun _ => False) p)
      (fun f f' h => ⟨h.mono (by simp), Or.inl (h p (by simp))⟩)
  have h2 : Does (Writing p b) (fileCreate p) := by
    unfold fileCreate
    refine io_getFs_does (fun n env w => ?_)
    by_cases h : p = [] ∨ w.cur.get p.dropLast ≠ some .dir
    · rw [if_pos h]; exact Steps.refl
    · rw [if_neg h]
      simp only [not_or] at h
      split
      · exact Steps.refl
      · exact Steps.refl
      · refine Steps.of_push (env := env) ⟨fun q hq => FS.leaf_set_ne _ _ hq,
          Or.inr ⟨0, env.clock n, ?_⟩⟩
        rw [FS.leaf_set _ h.1 _ (by simp)]; simp
  have h3 : ∀ env w, p ≠ [] → Steps (Writing p b) w (writeAll p b env w).2 := by
    intro env w hp
    refine writeAll_steps p b env w (fun f i t hf => ⟨fun q hq => ?_, Or.inr ⟨i, t, ?_⟩⟩)
    · rw [FS.leaf_set_ne _ _ hq]
      rcases hf with rfl | ⟨j, t', rfl⟩
      · rfl
      · rw [FS.leaf_set_ne _ _ hq]
    · rw [FS.leaf_set _ hp _ (by simp)]; simp
  unfold writeBuf createFile
  rw [M.bind_assoc]
  refine Rel.bind h1 (fun _ => Rel.bindOk h2 (fun env w a w1 h => h3 env w1 ?_))
  exact (fileCreate_ok h).1

/-- At every crash point of a write: other files as before; this one as before or a prefix. -/
theorem writeBuf_crash {p : Path} {b : Bytes} {env : Env} {fs : FS} {f : FS}
    (hf : f ∈ (writeBuf p b env (World.start fs)).2.crashPoints) : Writing p b fs f := by
  refine crashPoints_start (writeBuf_writing p b env (World.start fs)) ?_ ?_ f hf
  · rintro g g' ⟨h1, h2⟩ ⟨h3, h4⟩
    refine ⟨h1.trans h3, ?_⟩
    rcases h4 with h4 | h4
    · rw [h4]; exact h2
    · exact Or.inr h4
  · exact ⟨Frame.refl _, Or.inl rfl⟩

variable [Ext]

theorem raw_same (src : FetchSource) (etag : Option Str) : Rel Same (src.raw etag) := by
  unfold FetchSource.raw
  cases src with
  | uri u m =>
    have h1 := httpGet_same ⟨u, m, etag⟩
    rel_auto
  | file p =>
    have h1 := readFile_same p
    rel_auto

/-- One step of a checked download. -/
def Saving (src : FetchSource) (hash : Option Hash) (etag : Option Str) (env : Env) (fs : FS)
    (t : Path) (f f' : FS) : Prop :=
  Frame (· = t) f f' ∧ (f'.leaf t = f.leaf t ∨ ∃ b e k τ, src.Body env fs etag b e ∧
    (∀ h, hash = some h → Ext.sha b = h) ∧ f'.leaf t = some (.file (b.take k) τ))

theorem fetch_saving {src : FetchSource} {hash : Option Hash} {etag : Option Str}
    {t : Path} {env : Env} {w : World} :
    Steps (Saving src hash etag env w.cur t) w (src.fetch hash etag (some t) env w).2 := by
  unfold FetchSource.fetch
  rcases M.bind_cases (src.raw etag) _ env w with ⟨e, w1, h1, h2⟩ | ⟨r, w1, h1, h2⟩
  · rw [h2]
    have := raw_same src etag env w
    rw [h1] at this
    exact this.steps
  · rw [h2]
    obtain ⟨hs, hc⟩ := raw_ok h1
    refine Steps.trans hs.steps ?_
    rcases hc with ⟨b, e, rfl, hb⟩ | ⟨rfl, _⟩
    · have save : (∀ h, hash = some h → Ext.sha b = h) →
          Steps (Saving src hash etag env w.cur t) w1
            ((do writeBuf t b; pure .saved : M FetchResponse) env w1).2 := by
        intro hh
        have : Does (Saving src hash etag env w.cur t) (do writeBuf t b; pure .saved : M FetchResponse) := by
          refine Rel.bind (Does.mono (writeBuf_writing t b) ?_) (fun _ => Rel.pure _)
          rintro f f' ⟨h3, h4⟩
          refine ⟨h3, h4.imp id ?_⟩
          rintro ⟨k, τ, h5⟩
          exact ⟨b, e, k, τ, hb, hh, h5⟩
        exact this env w1
      dsimp only
      cases hash with
      | none => exact save (by simp)
      | some h =>
        dsimp only
        by_cases hsha : Ext.sha b ≠ h
        · rw [if_pos hsha]; exact Steps.refl
        · rw [if_neg hsha]
          exact save (by rintro x ⟨⟩; exact Decidable.not_not.1 hsha)
    · exact Steps.refl

theorem fetch_same {src : FetchSource} {hash : Option Hash} {etag : Option Str} :
    Rel Same (src.fetch hash etag none) := by
  unfold FetchSource.fetch
  have h1 := raw_same src etag
  rel_auto

end KSync
