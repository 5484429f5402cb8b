import Verif.Examples.Deltas
import Verif.Lemmas.Party

/-!
# What relying parties get (property C83)

`Party`, `Mirroring`, `InTime` are in Verif/Spec/Party.lean.
-/

set_option linter.unusedVariables false

namespace KSync

/-- **C83, right content.** Whatever a relying party receives when it asks for the files of a notification that
an installation has published at some time, and whether it uses the snapshot or deltas: if it has processed
the notification, then it has exactly the objects that the source had in a version it has had. -/
theorem C83_right_content [Ext] (σ : Nat → Notif) (life : SourceLife) (content : Uuid → Nat → Objects)
    (c : Config) (base name : Str) (i : Progress × Nat) (f : FS) (n : Notif) (get : Str → Option Bytes)
    (p : Option Party) (q : Party) (hl : Layout c base name)
    (ho : c.rsyncEnabled = true → CleanObjects c.rsyncIncludeHost) (hσ : FollowsRfc σ)
    (ht : ∀ k, Truthful content (σ k)) (h : Mirroring σ life c base name i f) (hn : Published c name f n)
    (hp : ∀ p', p = some p' → p'.Genuine content) (hq : Party.Gets get n p q) :
    q.Genuine content ∧ ∃ k ≤ i.2, q.session = (σ k).session ∧ q.serial = (σ k).serial := by
  obtain ⟨k, hk, hm⟩ := h.mirrors hl ho hσ hn
  have htn := hm.truthful (ht k)
  obtain ⟨ds, _, rfl⟩ := hm
  cases hq with
  | snapshot h1 h2 h3 h4 =>
    refine ⟨fun u => ?_, k, hk, rfl, rfl⟩
    exact (h4 u).trans (htn.snapshot _ _ h2 h3 u).symm
  | @deltas p' o hs hd =>
    refine ⟨hd.right htn (fun u => ?_), k, hk, rfl, rfl⟩
    rw [hp p' rfl u, hs]

/-- **C83, the snapshot can be had.** A relying party that reads the notification, and asks for the snapshot
less than `--cleanup-after` seconds later, gets it, whatever runs go on meanwhile. -/
theorem C83_snapshot_can_be_had [Ext] (σ : Nat → Notif) (life : SourceLife) (c : Config) (base name : Str)
    (i : Progress × Nat) (f : FS) (n : Notif) (t0 : Time) (get : Str → Option Bytes) (p : Option Party)
    (hl : Layout c base name) (ho : c.rsyncEnabled = true → CleanObjects c.rsyncIncludeHost)
    (hσ : FollowsRfc σ) (hr : ∀ k, Readable (σ k)) (h : Mirroring σ life c base name i f)
    (hn : Published c name f n) (hget : InTime life c base name t0 i.1 f n get) :
    ∃ q, Party.Gets get n p q := by
  obtain ⟨k, hk, hm⟩ := h.mirrors hl ho hσ hn
  exact Party.by_snapshot (hm.readable (hr k)) (hget.file hl ho h.lifetime hn)

/-- **C83, deltas suffice.** A relying party that has a version of the same session, and is not more versions
behind than there are deltas in the notification, can go on from there with deltas alone. -/
theorem C83_deltas_suffice [Ext] (σ : Nat → Notif) (life : SourceLife) (content : Uuid → Nat → Objects)
    (c : Config) (base name : Str) (i : Progress × Nat) (f : FS) (n : Notif) (t0 : Time)
    (get : Str → Option Bytes) (p : Party) (hl : Layout c base name)
    (ho : c.rsyncEnabled = true → CleanObjects c.rsyncIncludeHost) (hσ : FollowsRfc σ)
    (ht : ∀ k, Truthful content (σ k)) (hr : ∀ k, Readable (σ k)) (h : Mirroring σ life c base name i f)
    (hn : Published c name f n) (hget : InTime life c base name t0 i.1 f n get) (hp : p.Genuine content)
    (hs : p.session = n.session) (hle : p.serial ≤ n.serial) (hd : n.serial ≤ p.serial + n.deltas.length) :
    ∃ o, ByDeltas get n p.serial p.objects n.serial o ∧ ∀ u, o u = content n.session n.serial u := by
  obtain ⟨k, hk, hm⟩ := h.mirrors hl ho hσ hn
  exact Party.by_deltas hσ hm (hm.truthful (ht k)) (hm.readable (hr k)) (hget.file hl ho h.lifetime hn) hp hs hle
    hd

section
open Demo Inst
set_option maxRecDepth 100000

/-- What the files of the third version are used for. -/
def Demo.rolesV : List (Path × FileRole) :=
  [(["vs".toList], ⟨true, 5, 3, snap3⟩), (["v3".toList], ⟨false, 5, 3, delta3⟩),
   (["v2".toList], ⟨false, 5, 2, delta2⟩)]

def Demo.lifeV : SourceLife where
  role := fun p => (rolesV.lookup p).getD ⟨true, 0, 0, []⟩
  age := BitVec.toNat
  distinct := fun _ _ h => BitVec.eq_of_toNat_eq h

/-- A server that offers the third version, at time `t`. -/
def Demo.envVt (t : Time) : Env := { envAt t notifV with
  http := fun _ r =>
    if r.uri = uri "n" then .ok .absent (some (toBytes notifV))
    else if r.uri = uri "vs" then .ok .absent (some snap3)
    else if r.uri = uri "v2" then .ok .absent (some delta2)
    else if r.uri = uri "v3" then .ok .absent (some delta3)
    else .other 404 }

def Demo.pV : Progress := ⟨5, 3, 2⟩

/-- A run at time 0, and one at time 9. -/
def Demo.fsP1 : FS := after conf (envVt 0) fs0
def Demo.fsP2 : FS := after conf (envVt 9) fsP1

theorem Demo.offersV {c : Config} {t : Time} {n' : Notif} {fs : FS} {etag : Option Str}
    (h1 : c.fetcher.fetchMap = none) (h2 : c.notificationUri = uri "n")
    (h : Offers c (envVt t) fs etag n') : n' = notifV :=
  offers_only h1 (fun _ _ h => if_pos (h.trans h2)) h

theorem Demo.no304V (t : Time) : No304 (envVt t) := by
  intro tick r _
  show (if _ then _ else if _ then _ else if _ then _ else if _ then _ else _) ≠ _
  repeat' split
  all_goals simp

theorem Demo.goodRunV {c : Config} {t : Time} {f : FS} (h1 : c.fetcher.fetchMap = none)
    (h2 : c.notificationUri = uri "n") (h3 : c.cleanupAfter = 10) (h4 : c.rrdpMaxDeltas ≠ some 0)
    (hm : (process 5 c (envVt t) (World.start f)).2.copied = []) :
    GoodRun lifeV c base name pV pV 5 (envVt t) f where
  source := fun _ n' hn => offersV h1 h2 hn ▸ goodNotif_of_check (by decide)
  later := Or.inr (by decide)
  lists := by
    intro _ _ h
    rw [offersV h1 h2 h]
    refine ⟨fun rel hrel => ?_, fun d hd rel hrel => ?_⟩
    · obtain rfl : rel = "vs".toList := List.append_cancel_left (hrel.symm.trans (by decide))
      decide
    · rcases List.mem_cons.1 hd with rfl | hd
      · obtain rfl : rel = "v3".toList := List.append_cancel_left (hrel.symm.trans (by decide))
        decide
      · cases List.mem_singleton.1 hd
        obtain rfl : rel = "v2".toList := List.append_cancel_left (hrel.symm.trans (by decide))
        decide
  notBefore := by
    intro _ _ h
    rw [offersV h1 h2 h]
    exact Or.inr ⟨by decide, by decide, by decide⟩
  notAfter := by
    intro _ _ h
    rw [offersV h1 h2 h]
    refine Or.inr ⟨by decide, by decide, fun k hk => Nat.lt_of_not_le (fun hle => hk (Or.inl ?_))⟩
    exact ⟨⟨2, uri "v2", delta2⟩, List.mem_cons_of_mem _ List.mem_cons_self, hle⟩
  no304 := no304V t
  limit := fun h => absurd h h4
  brisk := by
    intro i j
    rw [h3]
    show t < t + 10
    exact Int.lt_add_of_pos_right _ (by decide)
  moves := Or.inl hm

theorem Demo.followingRunV {c : Config} {t : Time} {f : FS} (h1 : c.fetcher.fetchMap = none)
    (h2 : c.notificationUri = uri "n") : FollowingRun (fun _ => notifV) c base name 0 0 5 (envVt t) f :=
  ⟨fun _ n' hn => offersV h1 h2 hn ▸ goodNotif_of_check (by decide), Nat.le_refl _,
    fun _ _ h => ⟨0, Nat.le_refl _, Nat.le_refl _, offersV h1 h2 h⟩⟩

theorem Demo.mirroringV : Mirroring (fun _ => notifV) lifeV conf base name (pV, 0) fsP1 :=
  History.run (i := (pV, 0)) (History.start pristine0) ⟨goodRunV rfl rfl rfl nofun (by decide +kernel),
      followingRunV rfl rfl⟩
    List.mem_cons_self

theorem Demo.followsRfcV : FollowsRfc (fun _ => notifV) :=
  ⟨fun _ => by unfold ReachesSerial; decide, fun _ => by decide, fun _ _ _ _ => Nat.le_refl _,
    fun _ _ _ _ _ hd _ => hd⟩

theorem Demo.readableV : Readable notifV := by
  constructor
  · intro b hb
    obtain rfl : b = snap3 := hb
    exact ⟨[(rs "a", ([5] : Bytes))], by decide +kernel⟩
  · intro d hd b hb
    rcases List.mem_cons.1 hd with rfl | hd
    · obtain rfl : b = delta3 := hb
      exact ⟨els3, by decide +kernel⟩
    · cases List.mem_singleton.1 hd
      obtain rfl : b = delta2 := hb
      exact ⟨els2, by decide +kernel⟩

/-- What is published. -/
def Demo.notifVpub : Notif := { notifV with deltas := [⟨3, uri "v3", delta3⟩, ⟨2, uri "v2", delta2⟩] }

theorem Demo.publishedV : Published conf name fsP1 notifVpub := ⟨0, by decide +kernel⟩

/-- The files as they are after the second run. -/
def Demo.getV (u : Str) : Option Bytes :=
  (stripPrefix base u).bind (fun rel => fsP2.file? (conf.pubPath rel))

theorem Demo.inTimeV : InTime lifeV conf base name 0 pV fsP1 notifVpub getV := by
  intro r hr rel hrel
  refine ⟨pV, fsP2, History.run (i := pV) (History.start ⟨rfl, rfl⟩)
    ⟨goodRunV (t := 9) rfl rfl rfl nofun (by decide +kernel), Or.inl (by decide +kernel), fun _ => ?_⟩ List.mem_cons_self, ?_⟩
  · exact ⟨by show (0 : Int) ≤ 9; decide, by show (9 : Int) < 0 + 10; decide⟩
  · show (stripPrefix base r.1).bind _ = _
    rw [stripPrefix_some.2 hrel]
    rfl

/-- A relying party that has the first version. -/
def Demo.partyV : Party := ⟨5, 1, versions 5 1⟩

example : ∃ q, Party.Gets getV notifVpub none q ∧ q.Genuine versions := by
  obtain ⟨q, hq⟩ := C83_snapshot_can_be_had (fun _ => notifV) lifeV conf base name (pV, 0) fsP1 notifVpub 0 getV
    none layout (fun _ => cleanObjects _) followsRfcV (fun _ => readableV) mirroringV publishedV inTimeV
  exact ⟨q, hq, (C83_right_content (fun _ => notifV) lifeV versions conf base name (pV, 0) fsP1 notifVpub getV
    none q layout (fun _ => cleanObjects _) followsRfcV (fun _ => truthfulV) mirroringV publishedV nofun hq).1⟩

example : ∃ o, ByDeltas getV notifVpub 1 (versions 5 1) 3 o ∧ ∀ u, o u = versions 5 3 u :=
  C83_deltas_suffice (fun _ => notifV) lifeV versions conf base name (pV, 0) fsP1 notifVpub 0 getV partyV
    layout (fun _ => cleanObjects _) followsRfcV (fun _ => truthfulV) (fun _ => readableV) mirroringV publishedV
    inTimeV (fun _ => rfl) rfl (by decide) (by decide)

/-- One object has been withdrawn meanwhile, the other changed. -/
example : versions 5 2 (rs "b").toStr = some [9] ∧ versions 5 3 (rs "b").toStr = none ∧
    versions 5 1 (rs "a").toStr = some [1] ∧ versions 5 3 (rs "a").toStr = some [5] := by decide +kernel

end

end KSync
