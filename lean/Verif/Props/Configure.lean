import Verif.Lemmas.Configure
import Verif.Examples.Conds

/-!
# The command line (property C71)

`InDirectory`, `UsableBase`, `SameOptions` and `EmptyButLock` are in `Verif/Spec/Configure.lean`.
-/

namespace KSync

/-- **C71.** The options are accepted just if the notification URI names something in a directory of
the server, and the source, if one is given, is a URI that ends in a slash or a directory that is there. -/
theorem C71_accepted_iff [Ext] (r : RawConfig) (env : Env) (w : World) :
    (∃ c, (postConfigure r env w).1 = .ok c) ↔
      (∃ base name, InDirectory r.rest.notificationUri base name) ∧
      ∀ s, r.rest.sourceUriBase = some s → UsableBase w.cur s := by
  rw [postConfigure_run, ← httpsParent_iff, ← effectiveSource_usable w.cur r.rest.insecure]
  cases httpsParent r.rest.notificationUri with
  | none => simp
  | some base =>
    cases effectiveSource r.rest.insecure r.rest.sourceUriBase with
    | none => simp
    | some s =>
      dsimp only
      by_cases hd : s.isDir w.cur = true
      · rw [if_pos hd]; simpa using hd
      · rw [if_neg hd]; simpa using hd

/-- **C71.** Nothing is written, asked for or run meanwhile, whether or not the options are accepted. -/
theorem C71_no_effect [Ext] (r : RawConfig) (env : Env) (w : World) : (postConfigure r env w).2 = w := by
  rw [postConfigure_run]
  cases httpsParent r.rest.notificationUri with
  | none => rfl
  | some base =>
    cases effectiveSource r.rest.insecure r.rest.sourceUriBase with
    | none => rfl
    | some s =>
      dsimp only
      by_cases hd : s.isDir w.cur = true
      · rw [if_pos hd]
      · rw [if_neg hd]

/-- **C71.** The options that do not say where things are take effect as they were given. -/
theorem C71_options_kept [Ext] (r : RawConfig) (env : Env) (w : World) (c : Config)
    (h : (postConfigure r env w).1 = .ok c) : SameOptions c r.rest := by
  rw [postConfigure_run] at h
  cases hp : httpsParent r.rest.notificationUri with
  | none => rw [hp] at h; simp at h
  | some base =>
    cases hs : effectiveSource r.rest.insecure r.rest.sourceUriBase with
    | none =>
      rw [hp, hs] at h
      injection h with h
      subst h
      exact ⟨rfl, rfl, rfl, rfl, rfl, rfl, rfl, rfl, rfl, rfl, rfl, rfl⟩
    | some s =>
      rw [hp, hs] at h
      dsimp only at h
      by_cases hd : s.isDir w.cur = true
      · rw [if_pos hd] at h
        injection h with h
        subst h
        exact ⟨rfl, rfl, rfl, rfl, rfl, rfl, rfl, rfl, rfl, rfl, rfl, rfl⟩
      · rw [if_neg hd] at h; simp at h

/-- **C71.** Whatever state directory is given, with the other directories left at their defaults the
places in which the program keeps things are separate, as is assumed for most other properties. -/
theorem C71_default_layout [Ext] (r : RawConfig) (env : Env) (w : World) (c : Config) (base name : Str)
    (h : (postConfigure r env w).1 = .ok c)
    (hr : r.rrdpDir = "/var/lib/krill-sync/rrdp".toList)
    (hs : r.rsyncDir = "/var/lib/krill-sync/rsync".toList)
    (hu : InDirectory r.rest.notificationUri base name) (hn : PlainName name) :
    Layout c base name ∧ c.rrdpDir = c.stateDir ++ ["rrdp".toList] ∧
      c.rsyncDir = c.stateDir ++ ["rsync".toList] := by
  have h' : postConfigure r env w = (.ok c, (postConfigure r env w).2) := by
    rw [← h]
  obtain ⟨e1, e2⟩ : c.rrdpDir = c.stateDir ++ ["rrdp".toList] ∧
      c.rsyncDir = c.stateDir ++ ["rsync".toList] := by
    by_cases hd : SamePath r.stateDir "/var/lib/krill-sync".toList
    · obtain ⟨g1, g2, g3⟩ := C44_explicit_unchanged r env w _ c h'
      rw [g1, g2 (Or.inl hd), g3 (Or.inl hd), hr, hs]
      have e : joinPath [] r.stateDir = joinPath [] "/var/lib/krill-sync".toList := by
        unfold joinPath
        rw [hd.2]
        simp
      rw [e]
      exact ⟨by decide, by decide⟩
    · obtain ⟨g1, g2⟩ := C44_defaults_follow r env w _ c h' hd
      exact ⟨g1 hr, g2 hs⟩
  have hc := C71_options_kept r env w c h
  have ap : ∀ a b : Name, a ≠ b → Apart (c.stateDir ++ [a]) (c.stateDir ++ [b]) := by
    intro a b hne
    constructor
    · intro hp
      have := (hp.eq_of_length (by simp))
      exact hne (by simpa using this)
    · intro hp
      have := (hp.eq_of_length (by simp))
      exact hne (by simpa using this.symm)
  refine ⟨⟨⟨?_, hu.slash, hu.host, hn.nonempty, hn.noSlash, hn.notDot, hn.notDotDot⟩, ?_, ?_, ?_, ?_, ?_, ?_, ?_⟩,
    e1, e2⟩
  · rw [hc.uri]; exact hu.eq
  · rw [e1]; exact ap _ _ (by decide)
  · rw [e1, e2]; exact ap _ _ (by decide)
  · rw [e2]; exact ap _ _ (by decide)
  · rw [e1]; exact ap _ _ (by decide)
  · rw [e1]; exact ap _ _ (by decide)
  · rw [e2]; exact ap _ _ (by decide)
  · rw [e2]; exact ap _ _ (by decide)

/-- **C71, the first start.** With such options, an installation that begins with an empty state directory
(the lock file aside) begins as is assumed for the properties of all histories. -/
theorem C71_fresh_start [Ext] (r : RawConfig) (env : Env) (w : World) (c : Config) (base name : Str)
    (fs : FS) (h : (postConfigure r env w).1 = .ok c)
    (hr : r.rrdpDir = "/var/lib/krill-sync/rrdp".toList)
    (hs : r.rsyncDir = "/var/lib/krill-sync/rsync".toList)
    (hu : InDirectory r.rest.notificationUri base name) (hn : PlainName name)
    (hw : fs.WF) (he : EmptyButLock c fs) : Layout c base name ∧ Pristine c name fs := by
  obtain ⟨hl, e1, _⟩ := C71_default_layout r env w c base name h hr hs hu hn
  refine ⟨hl, hw, ?_, ?_, ?_⟩
  · refine he _ (List.prefix_append _ _) ?_ ?_
    · unfold Config.rrdpStatePath; simp
    · unfold Config.rrdpStatePath Config.lockFile
      intro h; exact absurd (List.append_cancel_left h) (by decide)
  · unfold FS.leaf
    rw [he _ ?_ ?_ ?_]
    · unfold Config.notifPath; rw [e1, List.append_assoc]; exact List.prefix_append _ _
    · unfold Config.notifPath; rw [e1]; simp
    · unfold Config.notifPath Config.lockFile
      rw [e1]
      intro h
      have := congrArg List.length h
      simp at this
  · intro q hq
    obtain ⟨t, rfl⟩ := hq
    have : fs.get (c.stagingDir ++ t) = none := by
      refine he _ ?_ ?_ ?_
      · unfold Config.stagingDir; rw [List.append_assoc]; exact List.prefix_append _ _
      · unfold Config.stagingDir; simp
      · unfold Config.stagingDir Config.lockFile
        rw [List.append_assoc]
        intro h
        have := List.append_cancel_left h
        injection this with h1 _
        exact absurd h1 (by decide)
    unfold FS.link?
    rw [this]

/-! ## The hypotheses can be met -/

section
open Demo
set_option maxRecDepth 100000

/-- Only the state directory and the notification URI are given. -/
def Demo.rawPlain : RawConfig :=
  ⟨"/s/".toList, "/var/lib/krill-sync/rrdp".toList, "/var/lib/krill-sync/rsync".toList,
    { conf with sourceUriBase := none, fetchMap := none }⟩

def Demo.confPlain : Config :=
  { conf with
      stateDir := ["s".toList]
      rrdpDir := ["s".toList, "rrdp".toList]
      rsyncDir := ["s".toList, "rsync".toList]
      sourceUriBase := none
      fetchMap := none }

theorem Demo.confPlain_ok : (postConfigure rawPlain (envAt 0 notif1) (World.start fs0)).1 = .ok confPlain := rfl

theorem Demo.inDirectory : InDirectory rawPlain.rest.notificationUri base name :=
  ⟨by decide, by decide, by decide, by decide⟩

example : (∃ base name, InDirectory rawPlain.rest.notificationUri base name) ∧
    ∀ s, rawPlain.rest.sourceUriBase = some s → UsableBase fs0 s :=
  (C71_accepted_iff rawPlain (envAt 0 notif1) (World.start fs0)).1 ⟨_, confPlain_ok⟩

/-- A URI without a path is refused, and so is a source that does not end in a slash. -/
example : (postConfigure { rawPlain with rest := { rawPlain.rest with notificationUri := "https://h/".toList } }
      (envAt 0 notif1) (World.start fs0)).1 = .error .noParent ∧
    (postConfigure { rawPlain with rest := { rawPlain.rest with sourceUriBase := some (.uri "https://m/x".toList false) } }
      (envAt 0 notif1) (World.start fs0)).1 = .error .badSource ∧
    ¬ UsableBase fs0 (.uri "https://m/x".toList false) := by
  refine ⟨rfl, rfl, ?_⟩
  rintro ⟨t, h⟩
  have := congrArg List.getLast? h
  rw [List.getLast?_append, show ("https://m/x".toList : Str).getLast? = some 'x' by decide] at this
  simp at this

example : SameOptions confPlain rawPlain.rest :=
  C71_options_kept _ _ _ _ confPlain_ok

/-- A file system with the state directory and the lock file in it. -/
def Demo.fsLock : FS := ⟨[(["s".toList, "krill-sync.lock".toList], .file [] 0), (["s".toList], .dir)]⟩

theorem Demo.fsLock_empty : EmptyButLock confPlain fsLock := by
  intro q hq h1 h2
  by_cases h0 : q = []
  · subst h0; exact absurd hq (by decide)
  · unfold FS.get
    rw [if_neg h0]
    cases hl : fsLock.ents.lookup q with
    | none => rfl
    | some x =>
      rcases List.mem_cons.1 (mem_of_lookup hl) with h | h
      · exact absurd (congrArg Prod.fst h) h2
      · exact absurd (congrArg Prod.fst (List.mem_singleton.1 h)) h1

example : Layout confPlain base name ∧ Pristine confPlain name fsLock :=
  C71_fresh_start rawPlain (envAt 0 notif1) (World.start fs0) confPlain base name fsLock confPlain_ok
    (by decide) (by decide) inDirectory ⟨by decide, by decide, by decide, by decide⟩
    (FS.wf_of_check (by decide +kernel)) fsLock_empty

end

end KSync
