import Verif.Lemmas.Unbroken

/-! # Deltas and versions over histories -/

set_option linter.unusedSectionVars false
set_option linter.unusedVariables false

namespace KSync

theorem orderly_invariant [Ext] {c : Config} {base name : Str} (hl : Layout c base name)
    (ho : c.rsyncEnabled = true → CleanObjects c.rsyncIncludeHost) {f : FS}
    (h : OrderlyUpdates c base name f) :
    Invariant (ι := Unit) c base name (fun _ s => UnbrokenState base s)
      (fun _ n => Unbroken n.deltas n.serial ∧
        ∀ m, c.rrdpMaxDeltas = some m → 0 < m → n.deltas.length ≤ m) () f := by
  have key : ∀ {env : Env} {f : FS} {depth : Nat} {s0 s : RrdpState} {st : StagedChanges} {w : World}
      {n n0 : Notif}, UnbrokenState base s0 → (∃ v, s = { s0 with validator := v }) →
      ReachesSerial n0 → Limited c n0 n → n.deltas.Pairwise (fun a b => a.serial < b.serial) →
      AtPublish depth c base name env (World.start f) s st w n →
      Descending (newNotif s st).deltas ∧ Unbroken (newNotif s st).deltas (newNotif s st).serial ∧
        (newNotif s st).deltas.length ≤ n.deltas.length := by
    rintro env f depth s0 s st w n n0 h1 ⟨v, rfl⟩ he hlim h2 h3
    have hu := newNotif_update hl.uri h3.sane h3.staged h2 h3.prepared.decided h1.1
    obtain ⟨a, b⟩ := hu.unbroken (c := c) h1 (decide_reset h3.prepared.decided).2 hlim he
    exact ⟨hu.order, a, b⟩
  have hi : Inductive (ι := Unit) c base name (fun _ _ _ env fs => GoodSource c base name env fs ∧
      ∀ etag n, Offers c env fs etag n → ReachesSerial n)
      (fun _ s => UnbrokenState base s) (fun _ n => Unbroken n.deltas n.serial ∧
        ∀ m, c.rrdpMaxDeltas = some m → 0 < m → n.deltas.length ≤ m) := by
    refine ⟨fun _ _ _ _ _ h => h.1, fun _ => freshState_unbroken, fun _ s h => h.persisted,
      fun _ _ _ _ _ _ _ h => h, fun _ _ _ _ _ _ _ h => h, ?_, ?_⟩
    · intro _ _ _ _ _ _ _ _ _ n n0 hok h1 _ h2 h3 h4 h5 h6
      obtain ⟨_, a, b⟩ := key h1 h2 (hok.2 _ _ h3) h4 h5 h6
      refine ⟨a, fun m hm hpos => Nat.le_trans b ?_⟩
      obtain ⟨ds, hd, rfl⟩ := h4
      have := hd.length
      rw [hm] at this
      match m, hpos with
      | m + 1, _ =>
        dsimp only at this ⊢
        rw [this]
        exact Nat.min_le_left _ _
    · intro _ _ _ _ _ _ _ _ _ _ _ _ hok h1 _ h2 h3 h4 h5 h6 h7
      obtain ⟨a, b, _⟩ := key h1 h2 (hok.2 _ _ h3) h4 h5 h6
      obtain ⟨x, x1, x2, x3, _⟩ := h7.describes.snapshot
      unfold UnbrokenState
      rw [← h7.describes.deltas]
      refine ⟨a, fun h => ?_, fun y hy => ?_⟩
      · rw [x1] at h; cases h
      · rw [x1] at hy; cases hy
        rw [← x3]; exact b
  exact History.invariant hl ho hi h

theorem Version.le_trans {a b c : Version} (h : a.le b) (h' : b.le c) : a.le c := by
  unfold Version.le at *
  omega

theorem Version.le_refl (a : Version) : a.le a := Or.inr ⟨rfl, Nat.le_refl _⟩

theorem forward_invariant [Ext] {age : Uuid → Nat} {c : Config} {base name : Str}
    (hl : Layout c base name) :
    Inductive c base name (ForwardRun age c base name) (fun _ _ => True)
      (fun p n => (n.version age).le p) := by
  refine ⟨fun _ _ _ _ _ h => h.source, fun _ => trivial, fun _ _ _ => trivial,
    fun _ _ _ _ _ _ _ _ => trivial, fun _ _ _ _ _ _ h h' => Version.le_trans h' h.later, ?_,
    fun _ _ _ _ _ _ _ _ _ _ _ _ _ _ _ _ _ _ _ _ _ => trivial⟩
  intro i j depth env f s0 s st w n n0 hok _ _ _ h1 _ _ h2
  obtain ⟨etag, n1, a1, a2⟩ := sameVersion_newNotif hl.uri h2
  have := hok.notAfter _ _ a1
  unfold Notif.version at *
  rw [a2.session, a2.serial]
  exact this

end KSync
