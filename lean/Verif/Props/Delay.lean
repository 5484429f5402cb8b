import Verif.Lemmas.Delay
import Verif.Props.History

/-!
# The delay before a new notification (property C57)
-/

set_option linter.unusedVariables false

namespace KSync

/-- **C57.** With a delay configured a run either leaves the notification file as it is, or it waits
exactly once, for the configured time: while it waits the old notification is in place, and
everything else the run does is done already.  Afterwards only the notification and the state are
written.  This is so at every instant, however the run ends. -/
theorem C57_announced_after_delay [Ext] (depth : Nat) (c : Config) (env : Env) (fs : FS)
    (base name : Str) (hl : Layout c base name) (h : RunConds c base name env fs)
    (hd : 0 < c.rrdpNotifyDelay) :
    NotAnnounced c name fs (process depth c env (World.start fs)).2 ∨
    ∃ g, Waited c name c.rrdpNotifyDelay fs (process depth c env (World.start fs)).2 g := by
  rcases process_delay (depth := depth) hl h with ⟨h1, h2⟩ | ⟨_, g, h2⟩
  · rcases h2 with h2 | h2
    · rw [h2] at hd; exact absurd hd (Nat.lt_irrefl 0)
    · exact Or.inl ⟨h1, h2.notif⟩
  · exact Or.inr ⟨g, h2.waited⟩

/-- **C57, without a delay.** Nothing is waited for when no delay is configured. -/
theorem C57_no_delay [Ext] (depth : Nat) (c : Config) (env : Env) (fs : FS)
    (base name : Str) (hl : Layout c base name) (h : RunConds c base name env fs)
    (hd : c.rrdpNotifyDelay = 0) :
    (process depth c env (World.start fs)).2.slept = [] := by
  rcases process_delay (depth := depth) hl h with ⟨h1, h2⟩ | ⟨h1, _⟩
  · exact h1
  · rw [hd] at h1; exact absurd h1 (Nat.lt_irrefl 0)

/-- **C57, the announced files.** Under the conditions of `C01_files_in_place_partial`: the files of
a notification that replaced another were all in place, with their hashes, during the delay. -/
theorem C57_files_there_during_delay [Ext] (life : SourceLife) (c : Config) (base name : Str)
    (p p' : Progress) (fs : FS) (hl : Layout c base name)
    (ho : c.rsyncEnabled = true → CleanObjects c.rsyncIncludeHost)
    (h : Lifetime life c base name p fs) (depth : Nat) (env : Env)
    (hr : GoodRun life c base name p p' depth env fs) (hd : 0 < c.rrdpNotifyDelay) :
    ∀ f ∈ (process depth c env (World.start fs)).2.crashPoints, ∀ n t,
      f.leaf (c.notifPath name) = some (.file (Ext.writeNotif n) t) →
      f.leaf (c.notifPath name) ≠ fs.leaf (c.notifPath name) →
      ∃ g before, (process depth c env (World.start fs)).2.slept =
          [(c.rrdpNotifyDelay, g :: before)] ∧
        g.leaf (c.notifPath name) = fs.leaf (c.notifPath name) ∧
        ∀ r ∈ n.refs, ∃ rel, r.1 = base ++ rel ∧ FileHas g (c.pubPath rel) r.2 := by
  intro f hf n t hn hne
  have hk := h.kept hl ho
  have hc : RunConds c base name env fs :=
    ⟨hl.uri, hk.wf, fun s hs => (hk.state s hs).sane, hr.source, ho⟩
  rcases C57_announced_after_delay depth c env fs base name hl hc hd with h1 | ⟨g, before, after, g1, g2, g3, g4⟩
  · exact absurd (h1.2 f hf) hne
  · refine ⟨g, before, g1, g3 g List.mem_cons_self, fun r hrn => ?_⟩
    have hfa : f ∈ after := by
      rw [g2] at hf
      rcases List.mem_append.1 hf with hf | hf
      · exact hf
      · exact absurd (g3 f hf) hne
    rcases (run_kept hl ho hk hr f hf).notif with h1 | ⟨n', t', h1, h2⟩
    · rw [hn] at h1; cases h1
    · rw [hn] at h1
      injection h1 with h1
      injection h1 with h1 _
      obtain rfl := writeNotif_inj h1
      obtain ⟨rel, a1, a2, _, a4, _⟩ := h2.refs r hrn
      refine ⟨rel, a1, ?_⟩
      obtain ⟨b, b1, b2⟩ := a4
      refine ⟨b, ?_, b2⟩
      rw [← FS.file?_of_leaf (g4 f hfa (c.pubPath rel) ?_)]
      · exact b1
      · rintro (hq | hq | hq)
        · exact not_dataPath_below (Or.inl rfl) hq (a2.dataPath (List.prefix_refl _))
        · exact not_dataPath_below (Or.inr rfl) hq (a2.dataPath (List.prefix_refl _))
        · exact hl.rrdpState.1 (hq ▸ List.prefix_append _ _)

/-! ## The hypotheses can be met -/

section
open Demo
set_option maxRecDepth 100000

/-- A delay of thirty seconds. -/
example : conf.rrdpNotifyDelay = 30 := rfl

example := C57_announced_after_delay 5 conf (envAt 1 notif2) fs1 base name layout (runConds1 1)
  (by decide)

/-- The second run waits, with the new files in place and the old notification, and then announces
the new version. -/
example : ∃ g before, (process 5 conf (envAt 1 notif2) (World.start fs1)).2.slept = [(30, g :: before)] ∧
    g.file? (conf.notifPath name) = some (Ext.writeNotif notif1) ∧
    (∀ r ∈ notif2.refs, ∃ rel, r.1 = base ++ rel ∧ FileHas g (conf.pubPath rel) r.2) := by
  obtain ⟨g, before, h1, h2, h3⟩ := C57_files_there_during_delay life conf base name p1 p2 fs1 layout
    (fun _ => cleanObjects _) lifetime1 5 (envAt 1 notif2) goodRun1' (by decide) fs2 fs2_crash notif2 1
    (by decide +kernel) (by decide +kernel)
  refine ⟨g, before, h1, ?_, h3⟩
  rw [FS.file?_of_leaf h2]
  decide +kernel

/-- A run that finds nothing new does not wait. -/
example : (process 5 conf (envAt 1 notif2) (World.start fs2)).2.slept = [] := by decide +kernel

/-- The same installation without a delay. -/
def Demo.confNow : Config := { conf with rrdpNotifyDelay := 0 }

theorem Demo.layoutNow : Layout confNow base name :=
  ⟨⟨by decide, by decide, by decide, by decide, by decide, by decide, by decide⟩,
    apart_of (by decide), apart_of (by decide), apart_of (by decide),
    apart_of (by decide), apart_of (by decide), apart_of (by decide), apart_of (by decide)⟩

theorem Demo.runCondsNow : RunConds confNow base name (envAt 0 notif1) fs0 :=
  ⟨layoutNow.uri, FS.wf_of_check (by decide +kernel), (fun s hs => by
      obtain ⟨b, h, _⟩ := hs
      have : fs0.read confNow.rrdpStatePath = none := by decide
      rw [this] at h; cases h),
    (fun etag n' hn => by
      rw [show n' = notif1 from offers_only rfl (fun _ _ h => if_pos h) hn]
      exact goodNotif_of_check (by decide)),
    fun _ => cleanObjects _⟩

example : (process 5 confNow (envAt 0 notif1) (World.start fs0)).2.slept = [] :=
  C57_no_delay 5 confNow (envAt 0 notif1) fs0 base name layoutNow runCondsNow rfl

/-- It publishes. -/
example : (process 5 confNow (envAt 0 notif1) (World.start fs0)).2.cur.file? (confNow.notifPath name) =
    some (Ext.writeNotif notif1) := by decide +kernel

end

end KSync
