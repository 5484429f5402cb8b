import Verif.Lemmas.Cluster
import Verif.Props.Party

/-!
# Servers that stand in for each other (property C84)

`HasVersion`, `FromServers` and `Cluster` are in Verif/Spec/Cluster.lean.
-/

set_option linter.unusedVariables false

namespace KSync

/-- **C84, the files.** Two servers with their own disks follow the same source.  A file that is listed in the
notification of one of them is there, with its hash, at the other one, if this one has the version: from the
time it waits before it announces it, and for the cleanup time after.  The other one must not have a stricter
limit for the number of deltas. -/
theorem C84_files_at_other_servers [Ext] (σ : Nat → Notif) (life life' : SourceLife) (c c' : Config)
    (base name name' : Str) (i : Progress × Nat) (f f' : FS) (n : Notif) (hl : Layout c base name)
    (ho : c.rsyncEnabled = true → CleanObjects c.rsyncIncludeHost) (hl' : Layout c' base name')
    (ho' : c'.rsyncEnabled = true → CleanObjects c'.rsyncIncludeHost) (hpos : c.rrdpMaxDeltas ≠ some 0)
    (hpos' : c'.rrdpMaxDeltas ≠ some 0) (hm : AtMost c.rrdpMaxDeltas c'.rrdpMaxDeltas) (hσ : FollowsRfc σ)
    (hone : NewSerialPerChange σ) (h : Mirroring σ life c base name i f) (hn : Published c name f n)
    (h' : HasVersion σ life' c' base name' n.session n.serial f') :
    ∀ r ∈ n.refs, ∃ rel, r.1 = base ++ rel ∧ FileHas f' (c'.pubPath rel) r.2 := by
  obtain ⟨k, _, ds, a1, rfl⟩ := h.mirrors hl ho hσ hn
  obtain ⟨n', k', s1, s2, ⟨ds', b1, rfl⟩, hf⟩ := h'.files hl' ho' hσ
  have he : σ k' = σ k := hone k' k s1 s2
  rw [he] at hf b1
  intro r hr
  refine hf r ?_
  rcases List.mem_cons.1 hr with rfl | hr
  · exact List.mem_cons_self
  · obtain ⟨d, d1, rfl⟩ := List.mem_map.1 hr
    refine List.mem_cons_of_mem _ (List.mem_map.2 ⟨d, ?_, rfl⟩)
    exact List.mem_reverse.2 (a1.below hm hpos hpos' (hσ.reaches k) (hσ.once k) b1 d (List.mem_reverse.1 d1))

/-- **C84, relying parties.** A relying party that reads the notification at one of the servers, and gets
each file from any of them that has the version, can use the snapshot; or deltas alone, if it has a version of
the same session and is not more versions behind than there are deltas.  And then it has just the objects of
the version at the source. -/
theorem C84_relying_party [Ext] (σ : Nat → Notif) (life : SourceLife) (content : Uuid → Nat → Objects)
    (cs : Nat → Config) (a : Nat) (base name : Str) (i : Progress × Nat) (f : FS) (n : Notif)
    (get : Str → Option Bytes) (p : Option Party) (hc : Cluster cs base name)
    (hm : ∀ k, AtMost (cs a).rrdpMaxDeltas (cs k).rrdpMaxDeltas) (hσ : FollowsRfc σ)
    (hone : NewSerialPerChange σ) (ht : ∀ k, Truthful content (σ k)) (hr : ∀ k, Readable (σ k))
    (h : Mirroring σ life (cs a) base name i f) (hn : Published (cs a) name f n)
    (hget : FromServers σ life cs base name n get) (hp : ∀ p', p = some p' → p'.Genuine content) :
    (∃ q, Party.Gets get n p q) ∧ (∀ q, Party.Gets get n p q → q.Genuine content) ∧
    ∀ p', p = some p' → p'.session = n.session → p'.serial ≤ n.serial →
      n.serial ≤ p'.serial + n.deltas.length →
      ∃ o, ByDeltas get n p'.serial p'.objects n.serial o ∧ ∀ u, o u = content n.session n.serial u := by
  obtain ⟨k, _, hmi⟩ := h.mirrors (hc.layout a) (hc.objects a) hσ hn
  have hg : ∀ r ∈ n.refs, ∃ b, get r.1 = some b ∧ Ext.sha b = r.2 := by
    intro r hr
    have key : ∀ k' f', HasVersion σ life (cs k') base name n.session n.serial f' →
        ∃ rel, r.1 = base ++ rel ∧ FileHas f' ((cs k').pubPath rel) r.2 := fun k' f' hv =>
      C84_files_at_other_servers σ life life (cs a) (cs k') base name name i f f' n (hc.layout a)
        (hc.objects a) (hc.layout k') (hc.objects k') (hc.positive a) (hc.positive k') (hm k') hσ hone h hn hv r hr
    obtain ⟨rel, hrel, _⟩ := key a f (.announced (t0 := 0) h hn rfl rfl (.start ⟨rfl, rfl⟩))
    obtain ⟨k', f', h1, h2⟩ := hget r hr rel hrel
    obtain ⟨rel', hrel', b, b1, b2⟩ := key k' f' h1
    obtain rfl : rel' = rel := List.append_cancel_left (hrel'.symm.trans hrel)
    exact ⟨b, h2.trans b1, b2⟩
  refine ⟨Party.by_snapshot (hmi.readable (hr k)) hg, fun q hq => ?_, fun p' hp' h1 h2 h3 => ?_⟩
  · exact (C83_right_content σ life content (cs a) base name i f n get p q (hc.layout a) (hc.objects a) hσ ht h hn
      hp hq).1
  · exact Party.by_deltas hσ hmi (hmi.truthful (ht k)) (hmi.readable (hr k)) hg (hp p' hp') h1 h2 h3

section
open Demo Inst
set_option maxRecDepth 100000

/-- What is written to disk when the run waits, and before that. -/
def Demo.waitsAt (depth : Nat) (c : Config) (env : Env) (fs : FS) : List FS :=
  match (process depth c env (World.start fs)).2.slept with
  | [(_, l)] => l
  | _ => []

/-- Another server, of which the first run, at time 4, still waits. -/
def Demo.fsP3 : FS := (waitsAt 5 conf (envVt 4) fs0).headD fs0

theorem Demo.waitingV : HasVersion (fun _ => notifV) lifeV conf base name 5 3 fsP3 :=
  .waiting (i := (pV, 0)) (j := (pV, 0)) (depth := 5) (env := envVt 4) (f0 := fs0)
    (f1 := after conf (envVt 4) fs0) (n := notifVpub) (before := (waitsAt 5 conf (envVt 4) fs0).tail)
    (History.start pristine0) (by decide) (goodRunV rfl rfl rfl nofun (by decide +kernel)) (followingRunV rfl rfl)
    (by decide +kernel) List.mem_cons_self ⟨4, by decide +kernel⟩ (by decide +kernel) rfl rfl

/-- The first server after its second run. -/
theorem Demo.announcedV : HasVersion (fun _ => notifV) lifeV conf base name 5 3 fsP2 := by
  refine .announced (i := (pV, 0)) (p := pV) (t0 := 0) mirroringV publishedV rfl rfl
    (History.run (i := pV) (History.start ⟨rfl, rfl⟩)
      ⟨goodRunV (t := 9) rfl rfl rfl nofun (by decide +kernel), Or.inl (by decide +kernel), fun _ => ?_⟩ List.mem_cons_self)
  exact ⟨by show (0 : Int) ≤ 9; decide, by show (9 : Int) < 0 + 10; decide⟩

theorem Demo.newSerialV : NewSerialPerChange (fun _ => notifV) := fun _ _ _ _ => rfl

theorem Demo.clusterV : Cluster (fun _ => conf) base name :=
  ⟨fun _ => layout, fun _ _ => cleanObjects _, nofun⟩

/-- The snapshot is had from the server that still waits, the deltas from the other. -/
def Demo.getBoth (u : Str) : Option Bytes :=
  (stripPrefix base u).bind (fun rel =>
    if rel = "vs".toList then fsP3.file? (conf.pubPath rel) else fsP2.file? (conf.pubPath rel))

theorem Demo.fromServersV : FromServers (fun _ => notifV) lifeV (fun _ => conf) base name notifVpub getBoth := by
  intro r hr rel hrel
  by_cases h : rel = "vs".toList
  · refine ⟨0, fsP3, waitingV, ?_⟩
    show (stripPrefix base r.1).bind _ = _
    rw [stripPrefix_some.2 hrel]
    exact if_pos h
  · refine ⟨1, fsP2, announcedV, ?_⟩
    show (stripPrefix base r.1).bind _ = _
    rw [stripPrefix_some.2 hrel]
    exact if_neg h

/-- The server that waits has not announced anything yet. -/
example : fsP3.leaf (conf.notifPath name) = none := by decide +kernel

example := C84_files_at_other_servers (fun _ => notifV) lifeV lifeV conf conf base name name (pV, 0) fsP1 fsP3
  notifVpub layout (fun _ => cleanObjects _) layout (fun _ => cleanObjects _) nofun nofun (AtMost.refl _)
  followsRfcV newSerialV mirroringV publishedV waitingV

example := C84_relying_party (fun _ => notifV) lifeV versions (fun _ => conf) 0 base name (pV, 0) fsP1 notifVpub
  getBoth (some partyV) clusterV (fun _ => AtMost.refl _) followsRfcV newSerialV (fun _ => truthfulV)
  (fun _ => readableV) mirroringV publishedV fromServersV (fun _ h => by cases h; exact fun _ => rfl)

/-! ### Where the claim fails -/

/-- A server with a limit of one delta. -/
def Demo.fsPM : FS := after confMax (envVt 0) fs0

/-- **C84 fails for a server with a stricter limit.**  Both servers announce version 3; the delta for serial 2,
which one of them lists, is not at the other. -/
theorem C84_refuted_for_stricter_limit :
    Mirroring (fun _ => notifV) lifeV conf base name (pV, 0) fsP1 ∧ Published conf name fsP1 notifVpub ∧
    HasVersion (fun _ => notifV) lifeV confMax base name 5 3 fsPM ∧
    (uri "v2", delta2) ∈ notifVpub.refs ∧ uri "v2" = base ++ "v2".toList ∧
    fsPM.get (confMax.pubPath "v2".toList) = none := by
  refine ⟨mirroringV, publishedV, ?_, by decide, by decide, by decide +kernel⟩
  have h0 : Pristine confMax name fs0 :=
    ⟨pristine0.wf, pristine0.noState, pristine0.noNotification, pristine0.noLinks⟩
  exact .announced (i := (pV, 0)) (p := pV) (t0 := 0) (n := { notifV with deltas := [⟨3, uri "v3", delta3⟩] })
    (History.run (i := (pV, 0)) (History.start h0)
      ⟨goodRunV (t := 0) rfl rfl rfl (by decide) (by decide +kernel), followingRunV rfl rfl⟩ List.mem_cons_self)
    ⟨0, by decide +kernel⟩ rfl rfl (.start ⟨rfl, rfl⟩)

/-- **C84 fails for a server that has left out the version.**  One server still announces version 1; another,
set up later, announces version 3 and does not have the snapshot of version 1. -/
theorem C84_refuted_for_version_left_out :
    Following threeVersions conf base name 0 fs1 ∧ Published conf name fs1 notif1 ∧
    Following threeVersions conf base name 9 fsLate ∧
    Published conf name fsLate { notif3 with deltas := notif3.deltas.reverse } ∧
    (uri "s1", snap 1) ∈ notif1.refs ∧ uri "s1" = base ++ "s1".toList ∧
    fsLate.get (conf.pubPath "s1".toList) = none := by
  refine ⟨?_, ⟨0, by decide +kernel⟩, followingLate, ⟨7, by decide +kernel⟩, by decide, by decide,
    by decide +kernel⟩
  exact History.run (i := 0) (History.start pristine0) (env := envAt 0 notif1) (depth := 5)
    ⟨goodSource (by decide), by decide, fun _ _ h => ⟨0, by decide, by decide, offers h⟩⟩ fs1_crash

end

end KSync
