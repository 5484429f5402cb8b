import Verif.Lemmas.UpToDate
import Verif.Props.Tags

/-!
# The version of the validator's data (property C68)

`RepoData.KeptFrom`, `RepoData.BroughtTo`, `WellBehaved`, `Servers`, `ServedUpdates` are defined in
`Verif/Spec/UpToDate.lean`.
-/

set_option linter.unusedVariables false

namespace KSync

/-- **C68**, one validation: the data for a repository are afterwards those there were before, or they are
of the version of a notification that the repository was found to have, and have the time of the
validation.

Partial: if the repository lists deltas then they go up to its serial, and its serial is not below that of
the data kept for the same session. -/
theorem C68_validation_partial [Ext] (depth : Nat) (v v' : Validator) (offline : Bool) (env : Env)
    (w w' : World) (rep : Report) (u : Str) (d : RepoData)
    (h : v.validate depth offline env w = (.ok (rep, v'), w')) (hb : WellBehaved env w.cur v.repos u)
    (hd : mapGet v'.repos.data u = some d) :
    (∃ d0, mapGet v.repos.data u = some d0 ∧ d.KeptFrom d0) ∨
    ∃ n, (v.repos.fetcherOf u).Finds env w.cur n ∧ d.BroughtTo n (env.clock w.tick) := by
  rcases (validate_upToDate hb h).data d hd with h1 | ⟨_, h1⟩
  · exact Or.inl h1
  · exact Or.inr h1

/-- **C68**, over histories: whatever was cut off or failed, the data recorded for a repository (other
than the one being synchronised) are exactly the objects of a version that its server announced at the
time recorded with them.

Partial: as before, over the whole history. -/
theorem C68_data_of_announced_version_partial [Ext] (content : Str → Uuid → Nat → Objects)
    (said : Str → Uuid → Nat → Time → Prop) (c : Config) (base name : Str) (p : Str → Uuid → Nat)
    (f : FS) (hl : Layout c base name) (ho : c.rsyncEnabled = true → CleanObjects c.rsyncIncludeHost)
    (h : ServedUpdates content said c base name p f) (s : RrdpState) (v : Validator) (u : Str)
    (d : RepoData) (hs : Recorded c f s) (hv : s.validator = some v) (hu : u ≠ c.notificationUri)
    (hd : mapGet v.repos.data u = some d) :
    said u d.session d.serial d.lastFetch ∧ ∀ x, mapGet d.objects x = content u d.session d.serial x := by
  have h1 := ((h.invariant hl ho (honest_invariant hl)).state s hs).2
  have h2 := (h1 v hv).2 u d hu hd
  exact ⟨h2.said, h2.genuine⟩

/-! ## The hypotheses can be met; what does not hold -/

section
open Demo
set_option maxRecDepth 100000

namespace Demo

/-- All versions of both repositories have the same objects. -/
def contentZ : Str → Uuid → Nat → Objects := fun _ _ _ u =>
  (goodObjects.reverse.find? (fun e => decide (e.1.toStr = u))).map (·.2)

/-- What the other repository announces. -/
def saidZ (u : Str) (s : Uuid) (k : Nat) (t : Time) : Prop :=
  u = uri "z" → s = 6 ∧ ((k = 5 ∧ t = 50) ∨ (k = 6 ∧ t = 4000))

theorem truthfulZ {n : Notif} (hh : n.snapHash = goodSnap)
    (hd : ∀ d ∈ n.deltas, d.hash = Inst.toBytes ([] : List DeltaElement))
    (hr : ∀ d ∈ n.deltas, 0 < d.serial ∧ d.serial < 2 ^ 64) (u : Str) :
    Truthful (contentZ u) n := by
  have hparse : Ext.parseSnapshot goodSnap = some goodObjects := by decide +kernel
  have hdelta : Ext.parseDelta (Inst.toBytes ([] : List DeltaElement)) = some [] := by decide +kernel
  refine ⟨hr, fun b els hb hp => ?_, fun d hd' b els hb hp k hk => ?_⟩
  · have : b = goodSnap := hb.trans hh
    rw [this, hparse] at hp
    cases hp
    exact fun u => rfl
  · have : b = Inst.toBytes ([] : List DeltaElement) := hb.trans (hd d hd')
    rw [this, hdelta] at hp
    cases hp
    exact ⟨List.nodup_nil, fun _ _ h => (by cases h), fun _ _ _ h => (by cases h), fun _ _ h => (by cases h),
      fun u _ => rfl⟩

theorem serversZ {t : Time} {k i j m : Nat} {e : String} (hij : i ≤ j) (hmk : m ≤ k)
    (htag : tagZ (uri "z") e.toList 6 j) (hs : (j = 5 ∧ t = 50) ∨ (j = 6 ∧ t = 4000)) :
    Servers contentZ saidZ (seenZ i m) (seenZ j k) (twoServers t k (otherAt e j)) := by
  have h0 : TaggedSources tagZ (seenZ i m) (seenZ j k) (twoServers t k (otherAt e j)) := taggedZ hij hmk htag
  have resp : ∀ tick r hdr b n, (twoServers t k (otherAt e j)).http tick r = .ok hdr (some b) →
      Ext.parseNotif b = some n → (r.uri = uri "q" ∧ n = mainNotif k) ∨
        (r.uri = uri "z" ∧ n = otherNotif j) := by
    intro tick r hdr b n h hp
    rcases twoServers_resp h with ⟨h1, h2, rfl⟩ | ⟨_, h1⟩ | ⟨h1, h2⟩
    · have := Ext.parse_write (mainNotif k)
      rw [show Ext.writeNotif (mainNotif k) = Inst.toBytes (mainNotif k) from rfl, hp] at this
      cases this
      exact .inl ⟨h1, rfl⟩
    · rw [h1] at hp; cases hp
    · rw [parse_other h2] at hp
      cases hp
      exact .inr ⟨h1, rfl⟩
  refine ⟨h0.later, h0.reaches, h0.forward, fun tick r hdr b n h hp => ?_, fun tick r hdr b n h hp x => ?_⟩
  · rcases resp _ _ _ _ _ h hp with ⟨h1, rfl⟩ | ⟨h1, rfl⟩
    · exact truthfulZ rfl (fun d hd => by cases hd) (fun d hd => by cases hd) _
    · refine truthfulZ rfl (fun d hd => ?_) (fun d hd => ?_) _
      · rcases List.mem_cons.1 hd with rfl | hd
        · rfl
        · cases hd
      · rcases List.mem_cons.1 hd with rfl | hd
        · rcases hs with ⟨rfl, _⟩ | ⟨rfl, _⟩ <;> exact (by decide)
        · cases hd
  · intro hu
    rcases resp _ _ _ _ _ h hp with ⟨h1, rfl⟩ | ⟨h1, rfl⟩
    · rw [hu] at h1; exact absurd h1 (by decide)
    · exact ⟨rfl, hs⟩

/-- Two runs; the other repository goes on from version 5 to version 6. -/
theorem servedZ : ServedUpdates contentZ saidZ confZ base nameT (seenZ 6 2) fsZ2' := by
  refine .run (i := seenZ 5 1) (depth := 5) (env := twoServers 4000 2 (otherAt "b" 6)) (f := fsZ1) ?_
    ⟨goodSourceZ (by decide), serversZ (by decide) (by decide) ⟨rfl, rfl, .inr ⟨rfl, rfl⟩⟩ (.inr ⟨rfl, rfl⟩)⟩
    (List.mem_cons_self ..)
  exact .run (i := seenZ 0 0) (depth := 5) (env := twoServers 50 1 (otherAt "a" 5)) (f := fsT)
    (.start ⟨FS.wf_of_check (by decide +kernel), by decide, by decide, FS.noLinks_of_check (by decide)⟩)
    ⟨goodSourceZ (by decide), serversZ (by decide) (by decide) ⟨rfl, rfl, .inl ⟨rfl, rfl⟩⟩ (.inl ⟨rfl, rfl⟩)⟩
    (List.mem_cons_self ..)

/-- The version recorded for the other repository, and the time. -/
def heldAt (fs : FS) : Option (Uuid × Nat × Time) :=
  (((fs.read confZ.rrdpStatePath).bind Ext.decState).bind (·.validator)).bind (fun v =>
    (mapGet v.repos.data (uri "z")).map (fun d => (d.session, d.serial, d.lastFetch)))

/-- The other repository is at version 7, and lists the delta to version 5 only. -/
def gappyOther : HttpResp := .ok (.valid "c".toList) (some (Inst.toBytes { otherNotif 5 with serial := 7 }))

def fsZ3 : FS := (process 5 confZ (twoServers 4000 2 gappyOther) (World.start fsZ1)).2.cur

end Demo

example : ServedUpdates contentZ saidZ confZ base nameT (seenZ 6 2) fsZ2' ∧
    heldAt fsZ2' = some (6, 6, 4000) := ⟨servedZ, by decide +kernel⟩

/-- The hypothesis of `C68_validation_partial` for the example tree. -/
example : WellBehaved treeEnv fs0 (validator.repos) (uri "q") := by
  intro n hn
  have : n = treeNotif := by
    rw [show validator.repos.fetcherOf (uri "q") = ⟨uri "q", none, true⟩ from rfl] at hn
    obtain ⟨k, r, hdr, b, h1, h2, h3⟩ := finds_direct hn
    have h4 : treeEnv.http k r = .ok .absent (some (Inst.toBytes treeNotif)) := by
      show (if r.uri = uri "q" then _ else _) = _
      rw [if_pos h1]
    rw [h4] at h2
    cases h2
    have := Ext.parse_write treeNotif
    rw [show Ext.writeNotif treeNotif = Inst.toBytes treeNotif from rfl, h3] at this
    cases this
    rfl
  subst this
  exact ⟨⟨fun d hd => (by cases hd), fun h => absurd rfl h⟩, (fun d hd => by cases hd), (fun d hd => by cases hd)⟩

/-- **C68 does not hold for a server that goes back** and lists deltas: they are skipped, and the data, of
version 5, are recorded as brought up to date at a time at which the server announces version 3 only. -/
theorem C68_refuted_for_server_going_back :
    (process 5 confZ (twoServers 50 1 (otherAt "a" 5)) (World.start fsT)).1 = .ok () ∧
    (process 5 confZ (twoServers 4000 2 (otherAt "b" 3)) (World.start fsZ1)).1 = .ok () ∧
    (∀ tick r hdr b n, r.uri = uri "z" → (twoServers 4000 2 (otherAt "b" 3)).http tick r = .ok hdr (some b) →
      Ext.parseNotif b = some n → n.serial = 3) ∧
    heldAt fsZ2 = some (6, 5, 4000) := by
  refine ⟨by decide +kernel, by decide +kernel, fun tick r hdr b n hu h hp => ?_, by decide +kernel⟩
  rcases twoServers_resp h with ⟨h1, _⟩ | ⟨_, h1⟩ | ⟨_, h1⟩
  · rw [hu] at h1; exact absurd h1 (by decide)
  · rw [h1] at hp; cases hp
  · rw [parse_other h1] at hp; cases hp; rfl

/-- **C68 does not hold if the deltas do not go up to the serial**: the server announces version 7, and
version 5 is recorded as up to date. -/
theorem C68_refuted_for_short_deltas :
    (process 5 confZ (twoServers 4000 2 gappyOther) (World.start fsZ1)).1 = .ok () ∧
    (∀ tick r hdr b n, r.uri = uri "z" → (twoServers 4000 2 gappyOther).http tick r = .ok hdr (some b) →
      Ext.parseNotif b = some n → n.serial = 7) ∧
    heldAt fsZ1 = some (6, 5, 50) ∧ heldAt fsZ3 = some (6, 5, 4000) := by
  refine ⟨by decide +kernel, fun tick r hdr b n hu h hp => ?_, by decide +kernel, by decide +kernel⟩
  rcases twoServers_resp h with ⟨h1, _⟩ | ⟨_, h1⟩ | ⟨_, h1⟩
  · rw [hu] at h1; exact absurd h1 (by decide)
  · rw [h1] at hp; cases hp
  · unfold gappyOther at h1
    injection h1 with _ h2
    injection h2 with h2
    have := Ext.parse_write { otherNotif 5 with serial := 7 }
    rw [show Ext.writeNotif { otherNotif 5 with serial := 7 } =
      Inst.toBytes { otherNotif 5 with serial := 7 } from rfl, h2, hp] at this
    cases this
    rfl

end

end KSync
