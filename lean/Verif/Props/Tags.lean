import Verif.Lemmas.Tags
import Verif.Props.Gates
import Verif.Examples.Life

/-! # Entity tags -/

namespace KSync

/-- **C45.** In the course of any history of runs, failures and crashes, over servers which list
deltas up to their serial and do not go back within a session: if a run sends a request with an entity
tag, then it is for the notification file of a repository other than the one being synchronised, there
are data for it in the recorded state, the tag is the one recorded with them, and it is a tag of the
version they are.

Partial: the property is claimed for all responses. -/
theorem C45_tag_of_version_held_partial [Ext] (tag : Str → Str → Uuid → Nat → Prop) (p p' : Seen)
    (depth : Nat) (c : Config) (env : Env) (fs : FS) (base name : Str) (hl : Layout c base name)
    (ho : c.rsyncEnabled = true → CleanObjects c.rsyncIncludeHost)
    (h : TaggedUpdates tag c base name p fs) (ht : TaggedSources tag p p' env) :
    ∀ r ∈ (process depth c env (World.start fs)).2.reqs, ∀ e, r.etag = some e →
      r.uri ≠ c.notificationUri ∧ ∃ s v d, Recorded c fs s ∧ s.validator = some v ∧
        mapGet v.repos.data r.uri = some d ∧ d.etag = some e ∧
        tag r.uri e d.session d.serial := by
  have hi := h.invariant hl ho (tags_invariant hl)
  intro r hr e he
  have h1 := (process_tags (depth := depth) (w := World.start fs) ht hi.wf hl.uri (by
    rintro s (h | ⟨_, rfl⟩)
    · exact (hi.state s h).2
    · exact ⟨rfl, fun v hv => (by cases hv)⟩)).reqs_start r hr
  rcases h1 with h1 | ⟨s, v, h1, h2, h3⟩
  · rw [h1] at he; cases he
  · rcases h1 with h1 | ⟨_, rfl⟩
    · rcases h3 with h3 | ⟨uri, d, h3, _, h4⟩
      · rw [h3] at he; cases he
      · obtain ⟨⟨b, h5⟩, h6⟩ := (hi.state s h1).2.2 v h2
        have h7 : d.etag = some e := h4.etag.symm.trans he
        by_cases hu : uri = c.notificationUri
        · exfalso
          have : v.repos.fetcherOf uri = c.stagedFetcher b := by
            rw [← Visited.getFetcher_eq]
            unfold Visited.getFetcher
            rw [h5, mapGet_cons, if_pos hu]
          rw [this] at h4
          exact staged_asks h4
        · have hf : v.repos.fetcherOf uri = ⟨uri, none, true⟩ := by
            rw [← Visited.getFetcher_eq]
            unfold Visited.getFetcher
            rw [h5, mapGet_cons, if_neg hu]
            rfl
          have h8 := h6 uri d h3
          rw [hf] at h4 h8
          obtain ⟨src, h9, h10⟩ := h4
          cases h9
          have h10 : r = ⟨uri, true, d.etag⟩ := h10
          have h11 := (h8 uri true (.direct rfl)).2 e h7
          subst h10
          exact ⟨hu, s, v, d, h1, h2, h3, h7, h11⟩
    · cases h2

/-- **C45.** Then 'not modified' means that nothing was missed: if no two versions have the same tag and
the servers answer 'not modified' only to a request with a tag of their current version, then the
data held for a repository with this answer are those of its current version.  That of the
synchronised repository is never given.

Partial: as before. -/
theorem C45_not_modified_is_current_partial [Ext] (tag : Str → Str → Uuid → Nat → Prop) (p p' : Seen)
    (depth : Nat) (c : Config) (env : Env) (fs : FS) (base name : Str) (hl : Layout c base name)
    (ho : c.rsyncEnabled = true → CleanObjects c.rsyncIncludeHost)
    (h : TaggedUpdates tag c base name p fs) (ht : TaggedSources tag p p' env)
    (current : Str → Uuid × Nat)
    (hone : ∀ u e s k s' k', tag u e s k → tag u e s' k' → s = s' ∧ k = k')
    (hcur : ∀ tick r, env.http tick r = .notModified →
      ∃ e, r.etag = some e ∧ tag r.uri e (current r.uri).1 (current r.uri).2) :
    ∀ r ∈ (process depth c env (World.start fs)).2.reqs, ∀ tick, env.http tick r = .notModified →
      r.uri ≠ c.notificationUri ∧ ∃ s v d, Recorded c fs s ∧ s.validator = some v ∧
        mapGet v.repos.data r.uri = some d ∧ (d.session, d.serial) = current r.uri := by
  intro r hr tick h304
  obtain ⟨e, he, htag⟩ := hcur tick r h304
  obtain ⟨h1, s, v, d, h2, h3, h4, _, h5⟩ :=
    C45_tag_of_version_held_partial tag p p' depth c env fs base name hl ho h ht r hr e he
  obtain ⟨h6, h7⟩ := hone _ _ _ _ _ _ h5 htag
  exact ⟨h1, s, v, d, h2, h3, h4, by rw [h6, h7]⟩

/-! ## The hypotheses can be met; what does not hold -/

section
open Demo
set_option maxRecDepth 100000

/-- The trust anchor's repository is elsewhere. -/
def Demo.taZ : ResCert := ⟨some (rs "t/t.mft"), some (rs "t/"), some (uri "z"), [7], []⟩

/-- Validation is on, issues do not matter. -/
def Demo.confZ : Config := { confT with talRejectInvalid := false }

/-- The main source's versions. -/
def Demo.mainNotif (k : Nat) : Notif := ⟨5, k, uri (if k = 1 then "qs" else if k = 2 then "qs2" else "qs3"), goodSnap, []⟩

/-- Servers for the main source (version `k`) and the other repository (with answer `z`). -/
def Demo.twoServers (t : Time) (k : Nat) (z : HttpResp) : Env := { treeEnv with
  clock := fun _ => t
  http := fun _ r =>
    if r.uri = uri "q" then .ok .absent (some (Inst.toBytes (mainNotif k)))
    else if r.uri = (mainNotif k).snapUri then .ok .absent (some goodSnap)
    else if r.uri = uri "ta" then .ok .absent (some (Inst.toBytes taZ))
    else if r.uri = uri "zs" then .ok .absent (some goodSnap)
    else if r.uri = uri "zd" then .ok .absent (some (Inst.toBytes ([] : List DeltaElement)))
    else if r.uri = uri "z" then z
    else .other 404 }

/-- A version of the other repository. -/
def Demo.otherNotif (k : Nat) : Notif :=
  ⟨6, k, uri "zs", goodSnap, [⟨k, uri "zd", Inst.toBytes ([] : List DeltaElement)⟩]⟩
def Demo.otherAt (e : String) (k : Nat) : HttpResp :=
  .ok (.valid e.toList) (some (Inst.toBytes (otherNotif k)))

def Demo.fsZ1 : FS := (process 5 confZ (twoServers 50 1 (otherAt "a" 5)) (World.start fsT)).2.cur
/-- The other repository goes back to version 3. -/
def Demo.fsZ2 : FS := (process 5 confZ (twoServers 4000 2 (otherAt "b" 3)) (World.start fsZ1)).2.cur
/-- Or goes on to version 6. -/
def Demo.fsZ2' : FS := (process 5 confZ (twoServers 4000 2 (otherAt "b" 6)) (World.start fsZ1)).2.cur

/-- The version of the other repository that is recorded, with its tag. -/
def Demo.heldOther (fs : FS) : Option (Uuid × Nat × Option Str) :=
  (((fs.read confZ.rrdpStatePath).bind Ext.decState).bind (·.validator)).bind (fun v =>
    (mapGet v.repos.data (uri "z")).map (fun d => (d.session, d.serial, d.etag)))

theorem Demo.twoServers_resp {t : Time} {k tick : Nat} {z : HttpResp} {r : Req} {hdr : EtagHdr}
    {b : Bytes} (h : (twoServers t k z).http tick r = .ok hdr (some b)) :
    (r.uri = uri "q" ∧ hdr = .absent ∧ b = Inst.toBytes (mainNotif k)) ∨
    (hdr = .absent ∧ Ext.parseNotif b = none) ∨ (r.uri = uri "z" ∧ z = .ok hdr (some b)) := by
  have h1 : Ext.parseNotif goodSnap = none := by decide +kernel
  have h2 : Ext.parseNotif (Inst.toBytes taZ) = none := by decide +kernel
  have h3 : Ext.parseNotif (Inst.toBytes ([] : List DeltaElement)) = none := by decide +kernel
  unfold twoServers at h
  dsimp only at h
  split at h
  · rename_i hu; cases h; exact .inl ⟨hu, rfl, rfl⟩
  · split at h
    · cases h; exact .inr (.inl ⟨rfl, h1⟩)
    · split at h
      · cases h; exact .inr (.inl ⟨rfl, h2⟩)
      · split at h
        · cases h; exact .inr (.inl ⟨rfl, h1⟩)
        · split at h
          · cases h; exact .inr (.inl ⟨rfl, h3⟩)
          · split at h
            · rename_i hu; exact .inr (.inr ⟨hu, h⟩)
            · cases h

theorem Demo.parse_other {e : String} {k : Nat} {hdr : EtagHdr} {b : Bytes}
    (h : otherAt e k = .ok hdr (some b)) : Ext.parseNotif b = some (otherNotif k) := by
  unfold otherAt at h
  injection h with h1 h2
  injection h2 with h2
  subst h2
  exact Ext.parse_write (otherNotif k)

/-- The tags given. -/
def Demo.tagZ (u e : Str) (s : Uuid) (k : Nat) : Prop :=
  u = uri "z" ∧ s = 6 ∧ ((e = "a".toList ∧ k = 5) ∨ (e = "b".toList ∧ k = 6))

/-- What has been seen. -/
def Demo.seenZ (k m : Nat) : Seen := fun u _ => if u = uri "z" then k else m

theorem Demo.taggedZ {t : Time} {k i j m : Nat} {e : String} (hij : i ≤ j) (hmk : m ≤ k)
    (htag : tagZ (uri "z") e.toList 6 j) :
    TaggedSources tagZ (seenZ i m) (seenZ j k) (twoServers t k (otherAt e j)) := by
  have resp : ∀ tick r hdr b n, (twoServers t k (otherAt e j)).http tick r = .ok hdr (some b) →
      Ext.parseNotif b = some n → (r.uri = uri "q" ∧ hdr = .absent ∧ n = mainNotif k) ∨
        (r.uri = uri "z" ∧ hdr = .valid e.toList ∧ n = otherNotif j) := by
    intro tick r hdr b n h hp
    rcases twoServers_resp h with ⟨h1, h2, rfl⟩ | ⟨_, h1⟩ | ⟨h1, h2⟩
    · have := Ext.parse_write (mainNotif k)
      rw [show Ext.writeNotif (mainNotif k) = Inst.toBytes (mainNotif k) from rfl, hp] at this
      cases this
      exact .inl ⟨h1, h2, rfl⟩
    · rw [h1] at hp; cases hp
    · rw [parse_other h2] at hp
      cases hp
      unfold otherAt at h2
      injection h2 with h3 h4
      exact .inr ⟨h1, h3.symm, rfl⟩
  refine ⟨fun u s => ?_, ?_, ?_, ?_⟩
  · unfold seenZ; split <;> assumption
  · intro tick r e' b n h hp
    rcases resp _ _ _ _ _ h hp with ⟨_, h1, _⟩ | ⟨h1, h2, rfl⟩
    · cases h1
    · injection h2 with h2
      rw [h1, h2]; exact htag
  · intro tick r hdr b n h hp
    rcases resp _ _ _ _ _ h hp with ⟨_, h1, rfl⟩ | ⟨h1, h2, rfl⟩
    · exact ⟨⟨fun d hd => (by cases hd), fun h => absurd rfl h⟩, fun d hd => (by cases hd)⟩
    · refine ⟨⟨fun d hd => ?_, fun _ => ⟨_, List.mem_cons_self .., rfl⟩⟩, fun d hd => ?_⟩
      · rcases List.mem_cons.1 hd with rfl | hd
        · exact Nat.le_refl _
        · cases hd
      · rcases List.mem_cons.1 hd with rfl | hd
        · rcases htag.2.2 with ⟨_, rfl⟩ | ⟨_, rfl⟩ <;> exact (by decide)
        · cases hd
  · intro tick r hdr b n h hp
    rcases resp _ _ _ _ _ h hp with ⟨h1, _, rfl⟩ | ⟨h1, h2, rfl⟩
    · unfold seenZ
      rw [h1, if_neg (by decide), if_neg (by decide)]
      exact ⟨hmk, Nat.le_refl _⟩
    · unfold seenZ
      rw [h1, if_pos rfl, if_pos rfl]
      exact ⟨hij, Nat.le_refl _⟩

theorem Demo.goodSourceZ {t : Time} {k : Nat} {z : HttpResp} {fs : FS}
    (h : goodNotifB base nameT (mainNotif k) = true) :
    GoodSource confZ base nameT (twoServers t k z) fs := by
  intro etag n' hn
  rw [offers_only rfl (fun _ _ h => if_pos h) hn]
  exact goodNotif_of_check h

theorem Demo.layoutZ : Layout confZ base nameT :=
  ⟨⟨by decide, by decide, by decide, by decide, by decide, by decide, by decide⟩,
    apart_of (by decide), apart_of (by decide), apart_of (by decide),
    apart_of (by decide), apart_of (by decide), apart_of (by decide), apart_of (by decide)⟩

/-- The conditions of the partial theorem, after one run: the other repository goes on from version 5
to version 6; the request is made with the tag of version 5. -/
example : Layout confZ base nameT ∧ TaggedUpdates tagZ confZ base nameT (seenZ 5 1) fsZ1 ∧
    TaggedSources tagZ (seenZ 5 1) (seenZ 6 2) (twoServers 4000 2 (otherAt "b" 6)) ∧
    heldOther fsZ1 = some (6, 5, some "a".toList) ∧
    ⟨uri "z", true, some "a".toList⟩ ∈
      (process 5 confZ (twoServers 4000 2 (otherAt "b" 6)) (World.start fsZ1)).2.reqs := by
  refine ⟨layoutZ, ?_, taggedZ (by decide) (by decide) ⟨rfl, rfl, .inr ⟨rfl, rfl⟩⟩, by decide +kernel,
    by decide +kernel⟩
  refine .run (i := seenZ 0 0) (depth := 5) (env := twoServers 50 1 (otherAt "a" 5)) (f := fsT)
    (.start ⟨FS.wf_of_check (by decide +kernel), by decide, by decide, FS.noLinks_of_check (by decide)⟩)
    ⟨goodSourceZ (by decide), taggedZ (by decide) (by decide) ⟨rfl, rfl, .inl ⟨rfl, rfl⟩⟩⟩
    (List.mem_cons_self ..)

/-- The other repository is still at version 5 and says so. -/
def Demo.unchanged : Env := { twoServers 4000 2 (otherAt "a" 5) with
  http := fun k r => if r.uri = uri "z" ∧ r.etag = some "a".toList then .notModified
    else (twoServers 4000 2 (otherAt "a" 5)).http k r }

theorem Demo.unchanged_http {k : Nat} {r : Req} {hdr : EtagHdr} {b : Bytes}
    (h : unchanged.http k r = .ok hdr (some b)) :
    (twoServers 4000 2 (otherAt "a" 5)).http k r = .ok hdr (some b) := by
  unfold unchanged at h
  dsimp only at h
  split at h
  · cases h
  · exact h

/-- The conditions of the second theorem. -/
example : TaggedSources tagZ (seenZ 5 1) (seenZ 5 2) unchanged ∧
    (∀ u e s k s' k', tagZ u e s k → tagZ u e s' k' → s = s' ∧ k = k') ∧
    (∀ tick r, unchanged.http tick r = .notModified → ∃ e, r.etag = some e ∧ tagZ r.uri e 6 5) ∧
    (∃ r ∈ (process 5 confZ unchanged (World.start fsZ1)).2.reqs, unchanged.http 0 r = .notModified) := by
  have h0 : TaggedSources tagZ (seenZ 5 1) (seenZ 5 2) (twoServers 4000 2 (otherAt "a" 5)) :=
    taggedZ (by decide) (by decide) ⟨rfl, rfl, .inl ⟨rfl, rfl⟩⟩
  refine ⟨⟨h0.later, fun k r e b n h => h0.tags k r e b n (unchanged_http h),
    fun k r hdr b n h => h0.reaches k r hdr b n (unchanged_http h),
    fun k r hdr b n h => h0.forward k r hdr b n (unchanged_http h)⟩, ?_, ?_,
    ⟨uri "z", true, some "a".toList⟩, by decide +kernel, by decide +kernel⟩
  · rintro u e s k s' k' ⟨_, rfl, h⟩ ⟨_, rfl, h'⟩
    rcases h with ⟨rfl, rfl⟩ | ⟨rfl, rfl⟩ <;> rcases h' with ⟨h, rfl⟩ | ⟨h, rfl⟩
    · exact ⟨rfl, rfl⟩
    · exact absurd h (by decide)
    · exact absurd h (by decide)
    · exact ⟨rfl, rfl⟩
  · intro tick r h
    unfold unchanged at h
    dsimp only at h
    split at h
    · rename_i hr
      exact ⟨_, hr.2, hr.1, rfl, .inl ⟨rfl, rfl⟩⟩
    · unfold twoServers at h
      dsimp only at h
      repeat' (split at h <;> try (cases h))

/-- **C45 does not hold for a server that goes back** (is restored from a backup, say) and lists deltas:
they are skipped, the update counts as a success, and the tag of the older version is recorded with
the newer one.  The tag "b" is given for version 3 only; after that version 5 is held with the tag "b",
and the next request is made with it. -/
theorem C45_refuted_for_server_going_back :
    (process 5 confZ (twoServers 50 1 (otherAt "a" 5)) (World.start fsT)).1 = .ok () ∧
    (process 5 confZ (twoServers 4000 2 (otherAt "b" 3)) (World.start fsZ1)).1 = .ok () ∧
    (∀ tick r b n, (twoServers 50 1 (otherAt "a" 5)).http tick r ≠
        .ok (.valid "b".toList) (some b) ∧
      ((twoServers 4000 2 (otherAt "b" 3)).http tick r = .ok (.valid "b".toList) (some b) →
        Ext.parseNotif b = some n → n.serial = 3)) ∧
    heldOther fsZ2 = some (6, 5, some "b".toList) ∧
    ⟨uri "z", true, some "b".toList⟩ ∈
      (process 5 confZ (twoServers 8000 3 .notModified) (World.start fsZ2)).2.reqs ∧
    (process 5 confZ (twoServers 8000 3 .notModified) (World.start fsZ2)).1 = .ok () := by
  refine ⟨by decide +kernel, by decide +kernel, ?_, by decide +kernel, by decide +kernel,
    by decide +kernel⟩
  intro tick r b n
  refine ⟨fun h => ?_, fun h hp => ?_⟩
  · rcases twoServers_resp h with ⟨_, h, _⟩ | ⟨h, _⟩ | ⟨_, h⟩
    · cases h
    · cases h
    · unfold otherAt at h
      injection h with h _
      injection h with h
      exact absurd h (by decide)
  · rcases twoServers_resp h with ⟨_, h, _⟩ | ⟨h, _⟩ | ⟨_, h⟩
    · cases h
    · cases h
    · rw [parse_other h] at hp
      cases hp
      rfl

/-- Going on, the tag is recorded with the version it is for. -/
example : heldOther fsZ2' = some (6, 6, some "b".toList) ∧
    ⟨uri "z", true, some "b".toList⟩ ∈
      (process 5 confZ (twoServers 8000 3 .notModified) (World.start fsZ2')).2.reqs := by
  decide +kernel

end
end KSync
