import Verif.Lemmas.Party
import Verif.Spec.Polling

/-! # Relying parties that poll (C86) -/

set_option linter.unusedSectionVars false
set_option linter.unusedVariables false

namespace KSync

variable [Ext]

/-- What holds of the disk and the relying party: what is published is not before the last version of the
party. -/
structure PollInv (content : Uuid → Nat → Objects) (σ : Nat → Notif) (c : Config) (base name : Str) (i : Nat)
    (f : FS) (ps : List Party) : Prop where
  inv : Invariant c base name (MirrorState σ c base) (fun i n => ∃ k ≤ i, Mirrors c (σ k) n) i f
  order : Party.InOrder content σ i ps
  shown : ps ≠ [] → ∃ m ≤ i, ∃ n t, Party.InOrder content σ m ps ∧ Mirrors c (σ m) n ∧
    f.leaf (c.notifPath name) = some (.file (Ext.writeNotif n) t)

theorem Party.InOrder.later {content : Uuid → Nat → Objects} {σ : Nat → Notif} {m m' : Nat} {ps : List Party}
    (h : Party.InOrder content σ m ps) (hm : m ≤ m') : Party.InOrder content σ m' ps := by
  cases h with
  | none => exact .none
  | one h1 h2 h3 => exact .one (Nat.le_trans h1 hm) h2 h3

theorem Party.InOrder.each {content : Uuid → Nat → Objects} {σ : Nat → Notif} {m : Nat} {ps : List Party}
    (h : Party.InOrder content σ m ps) : ∀ p ∈ ps, ∃ k ≤ m, p.Has content σ k := by
  induction h with
  | none => nofun
  | one h1 h2 _ ih =>
    intro p hp
    rcases List.mem_cons.1 hp with rfl | hp
    · exact ⟨_, h1, h2⟩
    · obtain ⟨k, k1, k2⟩ := ih p hp
      exact ⟨k, Nat.le_trans k1 h1, k2⟩

theorem Party.InOrder.serials {content : Uuid → Nat → Objects} {σ : Nat → Notif} {m : Nat} {ps : List Party}
    (hσ : FollowsRfc σ) (h : Party.InOrder content σ m ps) :
    ps.Pairwise (fun q p => p.session = q.session → p.serial ≤ q.serial) := by
  induction h with
  | none => exact .nil
  | one h1 h2 h3 ih =>
    refine List.pairwise_cons.2 ⟨fun p hp hs => ?_, ih⟩
    obtain ⟨k, k1, k2⟩ := h3.each p hp
    rw [k2.serial, h2.serial]
    exact hσ.forward _ _ k1 (by rw [← k2.session, ← h2.session, hs])

theorem Party.Gets.has {content : Uuid → Nat → Objects} {σ : Nat → Notif} {c : Config} {k : Nat} {n : Notif}
    {get : Str → Option Bytes} {p : Option Party} {q : Party} (ht : Truthful content (σ k))
    (hm : Mirrors c (σ k) n) (hp : ∀ p', p = some p' → p'.Genuine content) (hq : Party.Gets get n p q) :
    q.Has content σ k := by
  have htn := hm.truthful ht
  obtain ⟨ds, _, rfl⟩ := hm
  cases hq with
  | snapshot h1 h2 h3 h4 => exact ⟨rfl, rfl, fun u => (h4 u).trans (htn.snapshot _ _ h2 h3 u).symm⟩
  | @deltas p' o hs hd =>
    refine ⟨rfl, rfl, hd.right htn (fun u => ?_)⟩
    rw [hp p' rfl u, hs]

theorem Party.Has.genuine {content : Uuid → Nat → Objects} {σ : Nat → Notif} {p : Party} {k : Nat}
    (h : p.Has content σ k) : p.Genuine content := by
  intro u
  rw [h.objects u, h.session, h.serial]

theorem PollInv.run {content : Uuid → Nat → Objects} {σ : Nat → Notif} {c : Config} {base name : Str}
    {i j depth : Nat} {env : Env} {f f' : FS} {ps : List Party} (hσ : FollowsRfc σ)
    (hl : Layout c base name) (ho : c.rsyncEnabled = true → CleanObjects c.rsyncIncludeHost)
    (h : PollInv content σ c base name i f ps) (hr : FollowingRun σ c base name i j depth env f)
    (hf : f' ∈ (process depth c env (World.start f)).2.crashPoints) :
    PollInv content σ c base name j f' ps := by
  refine ⟨h.inv.run hl ho (following_inductive hσ hl) hr hf, h.order.later hr.later, fun hne => ?_⟩
  rcases following_run hσ hl ho h.inv hr hf with h1 | ⟨m, m1, m2, n, t, h1, h2⟩
  · rw [h1]
    obtain ⟨m, m1, m2⟩ := h.shown hne
    exact ⟨m, Nat.le_trans m1 hr.later, m2⟩
  · exact ⟨m, m2, n, t, h.order.later m1, h1, h2⟩

theorem Polling.inv {content : Uuid → Nat → Objects} {σ : Nat → Notif} {c : Config} {base name : Str}
    {i : Nat} {f : FS} {ps : List Party} (hσ : FollowsRfc σ) (ht : ∀ k, Truthful content (σ k))
    (hl : Layout c base name) (ho : c.rsyncEnabled = true → CleanObjects c.rsyncIncludeHost)
    (h : Polling σ c base name i f ps) : PollInv content σ c base name i f ps := by
  induction h with
  | start h => exact ⟨.start h, .none, fun h => absurd rfl h⟩
  | run _ hr hf ih => exact ih.run hσ hl ho hr hf
  | @poll i f ps n get q _ hn hq ih =>
    obtain ⟨t, hn⟩ := hn
    have hg : ∀ p', ps.head? = some p' → p'.Genuine content := by
      intro p' hp'
      obtain ⟨k, _, hk⟩ := ih.order.each p' (List.mem_of_head? hp')
      exact hk.genuine
    have key : ∃ m ≤ i, Party.InOrder content σ m ps ∧ Mirrors c (σ m) n := by
      by_cases hne : ps = []
      · subst hne
        rcases ih.inv.notif with e | ⟨n1, t1, e1, m, hm, e2⟩
        · rw [hn] at e; cases e
        rw [hn] at e1
        injection e1 with e1
        injection e1 with e1 _
        obtain rfl := writeNotif_inj e1
        exact ⟨m, hm, .none, e2⟩
      · obtain ⟨m, hm, n1, t1, e0, e2, e1⟩ := ih.shown hne
        rw [hn] at e1
        injection e1 with e1
        injection e1 with e1 _
        obtain rfl := writeNotif_inj e1
        exact ⟨m, hm, e0, e2⟩
    obtain ⟨m, m1, m2, m3⟩ := key
    have := Party.InOrder.one (Nat.le_refl m) (hq.has (ht m) m3 hg) m2
    exact ⟨ih.inv, this.later m1, fun _ => ⟨m, m1, n, t, this, m3, hn⟩⟩

end KSync
