import Verif.Lemmas.Mirror
import Verif.Props.History

/-!
# What is published is what the source has (property C66)

`Following` and `FollowsRfc` are in Verif/Spec/Mirror.lean.
-/

set_option linter.unusedVariables false

namespace KSync

/-- **C66.** At any time at a server that follows a source which behaves as RFC 8182 has it, whatever
runs were completed, failed or were interrupted and whatever notifications of the source were skipped:
the notification file is absent, or it is, byte for byte, a notification that the source has had, with
the deltas from the latest down, as many as the configuration allows. -/
theorem C66_exact [Ext] (σ : Nat → Notif) (c : Config) (base name : Str) (i : Nat) (f : FS)
    (hl : Layout c base name) (ho : c.rsyncEnabled = true → CleanObjects c.rsyncIncludeHost)
    (hσ : FollowsRfc σ) (h : Following σ c base name i f) :
    f.leaf (c.notifPath name) = none ∨ ∃ k ≤ i, ∃ n t, Mirrors c (σ k) n ∧
      f.leaf (c.notifPath name) = some (.file (Ext.writeNotif n) t) :=
  (following_invariant hσ hl ho h).notif.imp id
    (fun ⟨n, t, h1, k, h2, h3⟩ => ⟨k, h2, n, t, h3, h1⟩)

/-- **C66, servers agree.** Two servers follow one source, which has a new serial for every change, with
the same maximum (not 0) for the deltas.  They may have started at different times, have seen different
notifications of the source, and have had different failures.  If they publish the same version, they
publish the same bytes. -/
theorem C66_servers_agree [Ext] (σ : Nat → Notif) (c c' : Config) (base name base' name' : Str)
    (i i' : Nat) (f f' : FS) (n n' : Notif) (t t' : Time)
    (hl : Layout c base name) (ho : c.rsyncEnabled = true → CleanObjects c.rsyncIncludeHost)
    (hl' : Layout c' base' name') (ho' : c'.rsyncEnabled = true → CleanObjects c'.rsyncIncludeHost)
    (hmax : c.rrdpMaxDeltas = c'.rrdpMaxDeltas) (hpos : c.rrdpMaxDeltas ≠ some 0)
    (hσ : FollowsRfc σ) (hone : NewSerialPerChange σ)
    (h : Following σ c base name i f) (h' : Following σ c' base' name' i' f')
    (hn : f.leaf (c.notifPath name) = some (.file (Ext.writeNotif n) t))
    (hn' : f'.leaf (c'.notifPath name') = some (.file (Ext.writeNotif n') t'))
    (hsession : n.session = n'.session) (hserial : n.serial = n'.serial) :
    Ext.writeNotif n = Ext.writeNotif n' := by
  have key : ∀ {c : Config} {base name : Str} {i : Nat} {f : FS} {n : Notif} {t : Time},
      Layout c base name → (c.rsyncEnabled = true → CleanObjects c.rsyncIncludeHost) →
      Following σ c base name i f →
      f.leaf (c.notifPath name) = some (.file (Ext.writeNotif n) t) → ∃ k, Mirrors c (σ k) n := by
    intro c base name i f n t hl ho h hn
    rcases C66_exact σ c base name i f hl ho hσ h with h1 | ⟨k, _, m, t', h1, h2⟩
    · rw [hn] at h1; cases h1
    · rw [hn] at h2
      injection h2 with h2
      injection h2 with h2 _
      obtain rfl := writeNotif_inj h2
      exact ⟨k, h1⟩
  obtain ⟨k, ds, a1, rfl⟩ := key hl ho h hn
  obtain ⟨k', ds', b1, rfl⟩ := key hl' ho' h' hn'
  have he : σ k = σ k' := hone k k' hsession hserial
  rw [← he, ← hmax] at b1
  rw [← he, a1.unique b1 (hσ.reaches k) (hσ.once k) hpos]

/-! ## The hypotheses can be met -/

section

open Demo

set_option maxRecDepth 100000

/-- Three versions. -/
def Demo.threeVersions : Nat → Notif
  | 0 => notif1
  | 1 => notif2
  | _ => notif3

theorem Demo.followsRfc3 : FollowsRfc threeVersions := by
  have same : ∀ k, (threeVersions k).session = 1 := by
    intro k
    match k with
    | 0 => rfl
    | 1 => rfl
    | k + 2 => rfl
  refine ⟨fun k => ?_, fun k => ?_, fun k k' hk _ => ?_, fun k k' hk _ => ?_⟩
  · match k with
    | 0 => exact reachesSerial1
    | 1 => exact reachesSerial2
    | k + 2 => exact reachesSerial3
  · match k with
    | 0 => exact (by decide : ∀ d ∈ notif1.deltas, ∀ d' ∈ notif1.deltas, d.serial = d'.serial → d = d')
    | 1 => exact (by decide : ∀ d ∈ notif2.deltas, ∀ d' ∈ notif2.deltas, d.serial = d'.serial → d = d')
    | k + 2 =>
      exact (by decide : ∀ d ∈ notif3.deltas, ∀ d' ∈ notif3.deltas, d.serial = d'.serial → d = d')
  · match k, k' with
    | 0, 0 => exact Nat.le_refl _
    | 0, 1 => exact (by decide : notif1.serial ≤ notif2.serial)
    | 0, k' + 2 => exact (by decide : notif1.serial ≤ notif3.serial)
    | 1, 0 => omega
    | 1, 1 => exact Nat.le_refl _
    | 1, k' + 2 => exact (by decide : notif2.serial ≤ notif3.serial)
    | k + 2, 0 => omega
    | k + 2, 1 => omega
    | k + 2, k' + 2 => exact Nat.le_refl _
  · match k, k' with
    | 0, 0 => exact fun d hd _ => hd
    | 0, 1 => exact (by decide : ∀ d ∈ notif2.deltas, d.serial ≤ notif1.serial → d ∈ notif1.deltas)
    | 0, k' + 2 =>
      exact (by decide : ∀ d ∈ notif3.deltas, d.serial ≤ notif1.serial → d ∈ notif1.deltas)
    | 1, 0 => omega
    | 1, 1 => exact fun d hd _ => hd
    | 1, k' + 2 =>
      exact (by decide : ∀ d ∈ notif3.deltas, d.serial ≤ notif2.serial → d ∈ notif2.deltas)
    | k + 2, 0 => omega
    | k + 2, 1 => omega
    | k + 2, k' + 2 => exact fun d hd _ => hd

theorem Demo.newSerial3 : NewSerialPerChange threeVersions := by
  intro k k' _ h
  match k, k', h with
  | 0, 0, _ => rfl
  | 0, 1, h => exact absurd h (by decide)
  | 0, k' + 2, h => exact absurd (show notif1.serial = notif3.serial from h) (by decide)
  | 1, 0, h => exact absurd h (by decide)
  | 1, 1, _ => rfl
  | 1, k' + 2, h => exact absurd (show notif2.serial = notif3.serial from h) (by decide)
  | k + 2, 0, h => exact absurd (show notif3.serial = notif1.serial from h) (by decide)
  | k + 2, 1, h => exact absurd (show notif3.serial = notif2.serial from h) (by decide)
  | k + 2, k' + 2, _ => rfl

/-- A server that has seen the three versions, at most one delta. -/
theorem Demo.followingM3 : Following threeVersions confMax base name 2 fsM3 := by
  have h0 : Pristine confMax name fs0 := ⟨pristine0.wf, pristine0.noState, pristine0.noNotification,
    pristine0.noLinks⟩
  refine History.run (i := 1) (History.run (i := 0) (History.run (i := 0) (History.start h0)
    (env := envAt 0 notif1) (f' := fsM1) (depth := 5) ⟨goodSourceMax (by decide), by decide, fun _ _ h => ?_⟩
      List.mem_cons_self)
    (env := envAt 1 notif2) (f' := fsM2) (depth := 5) ⟨goodSourceMax (by decide), by decide, fun _ _ h => ?_⟩
      List.mem_cons_self)
    (env := envAt 2 notif3) (f' := fsM3) (depth := 5) ⟨goodSourceMax (by decide), by decide, fun _ _ h => ?_⟩
      List.mem_cons_self
  · exact ⟨0, by decide, by decide, offersMax h⟩
  · exact ⟨1, by decide, by decide, offersMax h⟩
  · exact ⟨2, by decide, by decide, offersMax h⟩

/-- The disk of a server that has seen all versions, and of one set up late. -/
def Demo.fsAll : FS := after conf (envAt 2 notif3) fs2
def Demo.fsLate : FS := after conf (envAt 7 notif3) fs0

theorem Demo.followingAll : Following threeVersions conf base name 2 fsAll := by
  refine History.run (i := 1) (History.run (i := 0) (History.run (i := 0) (History.start pristine0)
    (env := envAt 0 notif1) (f' := fs1) (depth := 5) ⟨goodSource (by decide), by decide, fun _ _ h => ?_⟩
      fs1_crash)
    (env := envAt 1 notif2) (f' := fs2) (depth := 5) ⟨goodSource (by decide), by decide, fun _ _ h => ?_⟩
      fs2_crash)
    (env := envAt 2 notif3) (f' := fsAll) (depth := 5) ⟨goodSource (by decide), by decide, fun _ _ h => ?_⟩
      List.mem_cons_self
  · exact ⟨0, by decide, by decide, offers h⟩
  · exact ⟨1, by decide, by decide, offers h⟩
  · exact ⟨2, by decide, by decide, offers h⟩

theorem Demo.followingLate : Following threeVersions conf base name 9 fsLate :=
  History.run (i := 4) (History.start pristine0) (env := envAt 7 notif3) (f' := fsLate) (depth := 5)
    ⟨goodSource (by decide), by decide, fun _ _ h => ⟨5, by decide, by decide, offers h⟩⟩ List.mem_cons_self

example := C66_exact threeVersions confMax base name 2 fsM3 layoutMax (fun _ => cleanObjects _)
  followsRfc3 followingM3

example := C66_exact threeVersions conf base name 2 fsAll layout (fun _ => cleanObjects _)
  followsRfc3 followingAll

/-- Both have a notification. -/
example : fsAll.leaf (conf.notifPath name) =
      some (.file (Ext.writeNotif { notif3 with deltas := notif3.deltas.reverse }) 2) ∧
    fsLate.leaf (conf.notifPath name) =
      some (.file (Ext.writeNotif { notif3 with deltas := notif3.deltas.reverse }) 7) := by
  decide +kernel

example (h : fsAll.leaf (conf.notifPath name) =
      some (.file (Ext.writeNotif { notif3 with deltas := notif3.deltas.reverse }) 2))
    (h' : fsLate.leaf (conf.notifPath name) =
      some (.file (Ext.writeNotif { notif3 with deltas := notif3.deltas.reverse }) 7)) :=
  C66_servers_agree threeVersions conf conf base name base name 2 9 fsAll fsLate _ _ 2 7 layout
    (fun _ => cleanObjects _) layout (fun _ => cleanObjects _) rfl (by decide) followsRfc3 newSerial3
    followingAll followingLate h h' rfl rfl

/-! ### Where the claim fails -/

/-- Version 3, with a delta for serial 1, which version 2 does not have. -/
def Demo.notifAgain : Notif := { notif3 with deltas := ⟨1, uri "b1", snap 9⟩ :: notif3.deltas }

/-- **C66 fails when the source lists an old delta again.**  A server that has seen version 2 before does
not list it; one that starts with version 3 does.  They publish different notifications for the same
version of the same source. -/
theorem C66_refuted_when_listed_again :
    (after conf (envAt 2 notifAgain) fs2).file? (conf.notifPath name) =
      some (Ext.writeNotif { notif3 with deltas := notif3.deltas.reverse }) ∧
    (after conf (envAt 2 notifAgain) fs0).file? (conf.notifPath name) =
      some (Ext.writeNotif { notifAgain with deltas := notifAgain.deltas.reverse }) ∧
    ¬ (∃ ds, IsLimit conf.rrdpMaxDeltas notifAgain.deltas ds ∧
      notif3.deltas.reverse = ds.reverse) := by
  refine ⟨by decide +kernel, by decide +kernel, ?_⟩
  rintro ⟨ds, h, he⟩
  have := h.length
  rw [← List.reverse_inj.1 he] at this
  exact absurd (show notif3.deltas.length = notifAgain.deltas.length from this) (by decide)

end

end KSync
