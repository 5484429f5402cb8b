import Verif.Lemmas.Dated
import Verif.Props.Ledger
import Verif.Props.RsyncLedger

/-!
# Nothing that was replaced stays longer than configured (property C77)

`Dated` is defined in `Verif/Spec/Dated.lean`.
-/

set_option linter.unusedVariables false

namespace KSync

/-- **C77, recorded times.** Take an installation that starts with nothing, and any number of runs, failures
and crashes, in all of which the clock shows times in `P` only.  Then all times at which the state has files
scheduled for removal, and all times at which the rsync state has revisions replaced, are in `P`. -/
theorem C77_recorded_times [Ext] (c : Config) (base name : Str) (P : Time → Prop) (A : Path → Prop) (f : FS)
    (hl : Layout c base name) (ho : c.rsyncEnabled = true → CleanObjects c.rsyncIncludeHost)
    (h : Dated c base name P A f) :
    (∀ s, Recorded c f s → ∀ d ∈ s.deprecated, P d.since) ∧
    (c.rsyncEnabled = true → ∀ st, RsyncRecorded c f st → ∀ d ∈ st.old, P d.since) :=
  ⟨h.fileTimes hl ho, fun he => (h.revisionTimes hl (ho he) he).times⟩

/-- **C77, RRDP.** If no run before took place after `t`, then a run that takes place the cleanup time after
`t` or later, and ends well, found nothing new, or leaves in the RRDP directory nothing but the notification
file, the files of the version it has published and of the one which that replaces, and what runs have left
that were cut off (`A`, see C62). -/
theorem C77_rrdp_two_versions [Ext] (depth : Nat) (c : Config) (env : Env) (base name : Str) (t : Time)
    (A : Path → Prop) (f : FS) (w : World) (hl : Layout c base name)
    (ho : c.rsyncEnabled = true → CleanObjects c.rsyncIncludeHost)
    (h : Dated c base name (· ≤ t) A f) (hs : SoundSource c base name env f)
    (hlate : ∀ k, t + c.cleanupAfter ≤ env.clock k)
    (hrun : process depth c env (World.start f) = (.ok (), w)) :
    ∃ s, InUse c base name f s ∧
      ((w.crashPoints = [f] ∧ NothingNew c env f s) ∨
      ∃ s', Recorded c w.cur s' ∧ ∀ q, c.rrdpDir <+: q → w.cur.leaf q ≠ none →
        q = c.notifPath name ∨ s'.Refers c q ∨ s.Refers c q ∨ A q) := by
  have hb := h.booked hl ho
  have hc := hb.conds hl ho hs
  obtain ⟨s, h1, h2 | ⟨s', k, now, rfl, h3, h4, _⟩⟩ := C15_cleanup depth c env f base name w hl hc hb.staging
    hb.rrdp hrun
  · exact ⟨s, h1, Or.inl h2⟩
  · refine ⟨s, h1, Or.inr ⟨s', h3, fun q hq hne => ?_⟩⟩
    rcases (hb.done hl ho hs hrun).accounted s' (Or.inl h3) q hq hne with h5 | h5 | ⟨d, hd, rfl⟩ | h5
    · exact Or.inl h5
    · exact Or.inr (Or.inl h5)
    · obtain ⟨s1, h6, h7⟩ := run_deprecated hl hc hb.noLink w.cur (by rw [hrun]; exact List.mem_cons_self) s' h3
        d hd
      obtain rfl := h6.unique h1
      rcases h7 with h7 | ⟨h7, _⟩
      · exfalso
        have h8 : d.since ≤ t := by
          rcases h6 with h6 | ⟨_, rfl⟩
          · exact h.fileTimes hl ho _ h6 d h7
          · cases h7
        have h9 := h4.rest d hd
        exact absurd (Int.lt_of_lt_of_le h9 (Int.add_le_add_right h8 _)) (Int.not_lt.2 (hlate k))
      · exact Or.inr (Or.inr (Or.inl h7))
    · exact Or.inr (Or.inr (Or.inr h5))

/-- **C77, rsync.** Likewise for the rsync directory, with links and with moves: such a run leaves nothing but
`current`, the directories of the revision it has published and of the one which that replaces, and what runs
have left that were cut off (`A`, see C65). -/
theorem C77_rsync_two_revisions [Ext] (depth : Nat) (c : Config) (env : Env) (base name : Str) (t : Time)
    (A : Path → Prop) (f : FS) (w : World) (hl : Layout c base name) (ho : CleanObjects c.rsyncIncludeHost)
    (he : c.rsyncEnabled = true)
    (h : Dated c base name (· ≤ t) A f) (hs : SoundSource c base name env f)
    (hlate : ∀ k, t + c.cleanupAfter ≤ env.clock k)
    (hrun : process depth c env (World.start f) = (.ok (), w)) :
    w.crashPoints = [f] ∨
    ∃ n st, Announces c base name env f n ∧ RsyncRecorded c f st ∧
      ∀ q, c.rsyncDir <+: q → w.cur.leaf q ≠ none →
        c.rsyncCurrent <+: q ∨ n.rev.path c <+: q ∨
        (∃ r, st.current = some r ∧ r.path c <+: q) ∨ A q := by
  have hb := h.booked hl (fun _ => ho)
  have hc := hb.conds hl (fun _ => ho) hs
  have ht := h.revisionTimes hl ho he
  rcases C27_after_success depth c env f base name w hl hc he ht.noLink hrun with
    h1 | ⟨n, st, st', i, k, h2, h3, h4, h5, _, h6⟩
  · exact Or.inl h1
  · refine Or.inr ⟨n, st, h2, h3, fun q hq hne => ?_⟩
    obtain ⟨A', hA, hsub⟩ := h.rsyncLedger
    rcases ((RsyncLedger.done hA hs hrun).held hl ho he).2 st' h4 q hq hne with
      h7 | ⟨r, h7 | ⟨d, hd, rfl⟩, h8⟩ | h7
    · exact Or.inl h7
    · rw [h5] at h7
      rw [Option.some.inj h7]
      exact Or.inr (Or.inl h8)
    · obtain ⟨h9 | ⟨h9, _⟩, h10⟩ := (h6 d).1.1 hd
      · have := ht.times st h3 d h9
        exact absurd (Int.lt_of_lt_of_le h10 (Int.add_le_add_right this _)) (Int.not_lt.2 (hlate k))
      · exact Or.inr (Or.inr (Or.inl ⟨_, h9, h8⟩))
    · exact Or.inr (Or.inr (Or.inr (hsub q h7)))

section

open Demo

set_option maxRecDepth 100000

namespace Demo

theorem dated1 : Dated conf base name (· ≤ 0) (fun _ => False) fs1 :=
  .done (.start unused0 rsyncUnused0) (fun _ => Int.le_refl 0) (soundSource (by decide) (by decide)) run1

theorem dated2 : Dated conf base name (· ≤ 1) (fun _ => False) fs2 :=
  .done (.done (.start unused0 rsyncUnused0) (fun _ => (by decide : (0 : Int) ≤ 1))
    (soundSource (by decide) (by decide)) run1)
    (fun _ => Int.le_refl 1) (soundSource (by decide) (by decide)) run2

/-- The third version is published long after the second. -/
theorem runLate : process 5 conf (envAt 1000000 notif3) (World.start fs2) =
    (.ok (), (process 5 conf (envAt 1000000 notif3) (World.start fs2)).2) :=
  Prod.ext (by decide +kernel) rfl

end Demo

example := C77_recorded_times conf base name _ _ fs2 layout (fun _ => cleanObjects _) dated2

/-- There are such times. -/
example : ((fs2.read conf.rrdpStatePath).bind Ext.decState).map (fun s => s.deprecated.map (·.since)) = some [1] ∧
    ((fs2.file? conf.rsyncStatePath).bind Ext.decRsync).map (fun s => s.old.map (·.since)) = some [1] := by
  decide +kernel

example := C77_rrdp_two_versions 5 conf (envAt 1000000 notif3) base name 1 _ fs2 _ layout
  (fun _ => cleanObjects _) dated2 (soundSource (by decide) (by decide)) 
  (fun _ => (by decide : 1 + conf.cleanupAfter ≤ (1000000 : Int))) runLate

example := C77_rsync_two_revisions 5 conf (envAt 1000000 notif3) base name 1 _ fs2 _ layout
  (cleanObjects _) rfl dated2 (soundSource (by decide) (by decide)) 
  (fun _ => (by decide : 1 + conf.cleanupAfter ≤ (1000000 : Int))) runLate

/-- The run has removed what the first version had: its snapshot and the directory of its revision. -/
example : fs2.leaf (conf.pubPath "s1".toList) ≠ none ∧
    (process 5 conf (envAt 1000000 notif3) (World.start fs2)).2.cur.leaf (conf.pubPath "s1".toList) = none ∧
    fs2.leaf (notif1.rev.path conf ++ ["a.cer".toList]) ≠ none ∧
    (process 5 conf (envAt 1000000 notif3) (World.start fs2)).2.cur.leaf
      (notif1.rev.path conf ++ ["a.cer".toList]) = none := by
  decide +kernel

end

end KSync
