import Verif.Props.Gates
import Verif.Props.Validation

/-! # The validator recorded by a run (property C43) -/

set_option linter.unusedVariables false

namespace KSync

/-- **C43, whole runs.** After a successful update the state on disk holds no validator if there are no
TALs configured, whatever was recorded before; and otherwise one with exactly the TALs in the configured
files, as they are at an instant at which at most the staging area has been changed. -/
theorem C43_recorded [Ext] (depth : Nat) (c : Config) (env : Env) (fs : FS)
    (base name : Str) (w' : World) (hl : Layout c base name) (hc : RunConds c base name env fs)
    (h : process depth c env (World.start fs) = (.ok (), w')) :
    w'.crashPoints = [fs] ∨
    ∃ s, Recorded c w'.cur s ∧
      ((c.talFiles = [] ∧ s.validator = none) ∨
        c.talFiles ≠ [] ∧ ∃ v g, s.validator = some v ∧ Frame (c.stagingDir <+: ·) fs g ∧
          TalsOf g c.talFiles v.tals) := by
  rcases run_ok (w := World.start fs) hc h with ⟨h1, s, h2, h3⟩ | ⟨s, st, w1, n1, h1, h2⟩
  · left
    unfold World.crashPoints; rw [h1.1, h1.2]; rfl
  · right
    obtain ⟨wa, wb, wc, s1, s2, kept, gone, new, hd⟩ := publish_done hl (h1.pubPre hc) h1.wf h2
    obtain ⟨t, ht⟩ := hd.state
    have hv : s2.validator = s.validator := by
      obtain ⟨l, hs2⟩ := clean_state hd.cleaned
      rw [hs2]; exact hd.book.validator
    obtain ⟨s0, wl, w2, w3, k1, k2, k3, k4⟩ := prepare_parts h1.prep
    have hcur : wl.cur = fs := (loadState_ok k1).1.1
    have hfr : Frame (c.stagingDir <+: ·) fs w2.cur := by
      have := updateStaged_within hc.uri ((loadState_inUse hc.uri k1).sane hc.state) (w := wl)
        (env := env) (hcur ▸ hc.source)
      rw [k2] at this
      have := this.frame (hcur ▸ hc.wf)
      rw [hcur] at this
      exact this
    refine ⟨s2.persisted, recorded_of_get ht, ?_⟩
    have hp : ∀ o, s.validator = o → s2.persisted.validator = ({ s2 with validator := o }.persisted).validator := by
      rintro _ rfl
      rw [← hv]
    rcases C43_prevalidate k3 with ⟨g1, rfl⟩ | ⟨v, v1, v2, rep, wx, wy, g1, g2, g3, g4, g5, rfl⟩
    · exact Or.inl ⟨g1, hp _ rfl⟩
    · rcases C43_reused_only_if_same g1 with ⟨_, g6⟩ | ⟨g6, v', b', g7, g8, _⟩
      · cases g6
      · cases g7
        refine Or.inr ⟨g6, _, w2.cur, hp _ rfl, hfr, ?_⟩
        show TalsOf _ _ v2.tals
        rw [g5]
        exact g8

section
open Demo
set_option maxRecDepth 100000

/-- The same without TALs. -/
def Demo.confN : Config := { confT with talFiles := [] }

theorem Demo.layoutT : Layout confT base nameT :=
  ⟨notifUriT, apart_of (by decide), apart_of (by decide), apart_of (by decide), apart_of (by decide),
    apart_of (by decide), apart_of (by decide), apart_of (by decide)⟩

/-- A run with a TAL. -/
example : RunConds confT base nameT (serving 50 goodNotif goodSnap) fsT ∧
    Layout confT base nameT ∧
    (process 5 confT (serving 50 goodNotif goodSnap) (World.start fsT)).1 = .ok () ∧
    (process 5 confT (serving 50 goodNotif goodSnap) (World.start fsT)).2.past ≠ [] :=
  ⟨runCondsT 50 (by decide), layoutT, by decide +kernel, by decide +kernel⟩

/-- A run without TALs after one with a TAL: the validator recorded is dropped. -/
example : (∀ s, Recorded confN fsG s → s.validator.isSome = true) ∧
    RunConds confN base nameT (serving 3650 nextNotif goodSnap) fsG ∧ Layout confN base nameT ∧
    (process 5 confN (serving 3650 nextNotif goodSnap) (World.start fsG)).1 = .ok () ∧
    (process 5 confN (serving 3650 nextNotif goodSnap) (World.start fsG)).2.past ≠ [] := by
  have hr := runCondsG 3650 (n := nextNotif) (snap := goodSnap) (by decide)
  have hu : NotifUri confN base nameT := ⟨hr.uri.1, hr.uri.2, hr.uri.3, hr.uri.4, hr.uri.5, hr.uri.6, hr.uri.7⟩
  refine ⟨stateG_is (by decide +kernel), ⟨hu, hr.wf, fun s hs => ?_, fun etag n' hn => ?_, fun _ => cleanObjects _⟩,
    ⟨hu, apart_of (by decide), apart_of (by decide), apart_of (by decide), apart_of (by decide),
    apart_of (by decide), apart_of (by decide), apart_of (by decide)⟩, by decide +kernel, by decide +kernel⟩
  · have := hr.state s hs
    exact ⟨this.1, this.2, this.3, this.4, this.5, this.6⟩
  · rw [offersT rfl rfl hn]
    exact goodNotif_of_check (by decide)

end

end KSync
