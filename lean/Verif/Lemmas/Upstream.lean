import Verif.Spec.Upstream
import Verif.Lemmas.Party
import Verif.Lemmas.Chain

/-! # Runs that get their files from another installation (C91) -/

set_option linter.unusedSectionVars false
set_option linter.unusedVariables false

namespace KSync

variable [Ext]

theorem Published.file? {c : Config} {name : Str} {f : FS} {n : Notif} (h : Published c name f n) :
    f.file? (c.notifPath name) = some (Ext.writeNotif n) := by
  obtain ⟨t, h⟩ := h
  unfold FS.leaf at h
  split at h
  · cases h
  · simp [FS.file?, h]

theorem Mirrors.gapless {c : Config} {m n : Notif} (h : Mirrors c m n) : Gapless n.deltas := by
  obtain ⟨ds, h1, rfl⟩ := h
  exact ⟨ds, (List.reverse_perm ds).symm, h1.contig⟩

theorem Mirrors.good {c : Config} {m n : Notif} {base name : Str} (h : Mirrors c m n)
    (hg : GoodNotif base name m) : GoodNotif base name n := by
  obtain ⟨ds, h1, rfl⟩ := h
  intro r hr
  refine hg r ?_
  rcases List.mem_cons.1 hr with rfl | hr
  · exact List.mem_cons_self
  · obtain ⟨d, hd, rfl⟩ := List.mem_map.1 hr
    exact List.mem_cons_of_mem _ (List.mem_map.2 ⟨d, h1.subset d (List.mem_reverse.1 hd), rfl⟩)

/-- An installation supplies what it has published. -/
theorem ServedBy.supplies {σ : Nat → Notif} {life : SourceLife} {cp c : Config} {base name : Str} {t0 : Time}
    {i : Progress × Nat} {x f : FS} {env : Env} {n : Notif}
    (h : ServedBy life cp base name t0 i.1 x c env) (hlp : Layout cp base name) (hl : Layout c base name)
    (ho : cp.rsyncEnabled = true → CleanObjects cp.rsyncIncludeHost) (hσ : FollowsRfc σ)
    (hg : ∀ m, GoodNotif base name (σ m))
    (hwhole : ∀ m b, Ext.sha b = (σ m).snapHash → (Ext.streamSnapshot b).2 = true)
    (hx : Mirroring σ life cp base name i x) (hn : Published cp name x n)
    (stay : ∀ p y, Meanwhile life cp base name t0 i.1 x p y →
      ∀ r ∈ n.refs, ∃ rel, r.1 = base ++ rel ∧ FileHas y (cp.pubPath rel) r.2) :
    Supplies c base env f n := by
  obtain ⟨k, hk, hm⟩ := hx.mirrors hlp ho hσ hn
  have hgood := hm.good (hg k)
  refine ⟨?_, fun r hr => ?_, hm.gapless, ?_⟩
  · obtain ⟨v, m, h1, h2⟩ := h.notification
    refine ⟨.uri v m, hl.uri.eq.symm ▸ h1, fun _ _ tick => ?_⟩
    obtain ⟨hdr, h3, h4⟩ := h2 tick
    rw [hn.file?] at h4
    exact ⟨hdr, _, h4, h3, Ext.parse_write n⟩
  · obtain ⟨rel, h1, _⟩ := stay i.1 x (.start ⟨rfl, rfl⟩) r hr
    have hrel := hgood r hr rel h1
    have hne : rel ≠ name := by
      rintro rfl
      exact hrel.notName (by rw [comps_plain hl.uri.plain hl.uri.nonempty hl.uri.notDot]; rfl)
    obtain ⟨v, m, h2, h3⟩ := h.files rel hne
    refine ⟨⟨rel, h1⟩, .uri v m, h1.symm ▸ h2, fun _ _ tick => ?_⟩
    obtain ⟨hdr, p, y, a1, a2, a3⟩ := h3 tick
    obtain ⟨rel', b1, b, b2, b3⟩ := stay p y a2 r hr
    obtain rfl := List.append_cancel_left (h1.symm.trans b1)
    rw [b2] at a3
    exact ⟨hdr, b, a3, a1, b3⟩
  · obtain ⟨ds, _, rfl⟩ := hm
    exact hwhole k

end KSync
