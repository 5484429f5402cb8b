import Verif.Lemmas.RsyncParty
import Verif.Props.Party

/-!
# Relying parties that use rsync (property C85)

`TrueSnapshots`, `Enters`, `ReadInTime` and `IsTreeOf` are defined in `Verif/Spec/RsyncParty.lean`.
-/

set_option linter.unusedVariables false

namespace KSync

/-- A clean URI; if host names are not part of the paths then one of module `m` at host `a`. -/
def UriOf (c : Config) (a m : Str) (u : RsyncUri) : Prop :=
  CleanUri u ∧ (c.rsyncIncludeHost = false → u.authority = a ∧ u.module = m)

/-- **C85.** With links: a client enters the revision that `current` leads to, at some time in the life of an
installation, and reads its files, each less than `--cleanup-after` seconds later, while other runs go on, fail
or are interrupted.  It gets all objects of that version of the source, each where its URI says and with the
right content, and nothing else. -/
theorem C85_right_content [Ext] (life : SourceLife) (content : Uuid → Nat → Objects) (c : Config)
    (base name a m : Str) (p : Progress) (f : FS) (r : RsyncRevision) (t0 : Time) (got : Path → Option Bytes)
    (hl : Layout c base name) (ho : CleanObjects c.rsyncIncludeHost) (he : c.rsyncEnabled = true)
    (hm : c.rsyncUseSymlinks = true) (h1 : OneSnapshot life) (ht : TrueSnapshots life content (UriOf c a m))
    (h : TimelyLifetime life c base name p f) (hr : Enters c f r)
    (hg : ReadInTime life c base name t0 p f r got) :
    IsTreeOf c.rsyncIncludeHost (UriOf c a m) (content r.session r.serial) got := by
  obtain ⟨b, hb, h2, h3⟩ := C24_exact_over_histories life c base name p f r hl ho he hm h h1 hr.accord
  rw [servedDir_link hr.accord.2] at h2 h3
  have := tree_of_objects (fun u hu => hu.1) (fun u v hu hv huv => ?_) (ht.uris r b hb) (ht.objects r b hb) h2 h3
  · have hgot := hg.tree hl ho he hm h.newLifetime hr
    exact ⟨fun u hu => (hgot _).trans (this.right u hu), fun q b hb => this.only q b ((hgot q).symm.trans hb)⟩
  · match hi : c.rsyncIncludeHost with
    | true => rw [hi] at huv; exact hu.1.host_inj hv.1 huv
    | false =>
      rw [hi] at huv
      exact hu.1.path_inj hv.1 ((hu.2 hi).1.trans (hv.2 hi).1.symm) ((hu.2 hi).2.trans (hv.2 hi).2.symm) huv

/-- **C85, the two ways agree.** What a relying party gets over RRDP from one mirror of the source, whatever it
had before, and what another one gets over rsync, from the same mirror or another, is the same if it is of the
same version. -/
theorem C85_same_as_by_rrdp [Ext] (σ : Nat → Notif) (life life' : SourceLife) (content : Uuid → Nat → Objects)
    (c c' : Config) (base name base' name' a m : Str) (i : Progress × Nat) (p' : Progress) (f f' : FS)
    (n : Notif) (get : Str → Option Bytes) (p : Option Party) (q : Party) (r : RsyncRevision) (t0 : Time)
    (got : Path → Option Bytes) (hl : Layout c base name)
    (ho : c.rsyncEnabled = true → CleanObjects c.rsyncIncludeHost) (hσ : FollowsRfc σ)
    (ht : ∀ k, Truthful content (σ k)) (h : Mirroring σ life c base name i f) (hn : Published c name f n)
    (hp : ∀ p', p = some p' → p'.Genuine content) (hq : Party.Gets get n p q)
    (hl' : Layout c' base' name') (ho' : CleanObjects c'.rsyncIncludeHost) (he' : c'.rsyncEnabled = true)
    (hm' : c'.rsyncUseSymlinks = true) (h1 : OneSnapshot life')
    (ht' : TrueSnapshots life' content (UriOf c' a m)) (h' : TimelyLifetime life' c' base' name' p' f')
    (hr : Enters c' f' r) (hg : ReadInTime life' c' base' name' t0 p' f' r got)
    (hv : q.session = r.session ∧ q.serial = r.serial) (u : RsyncUri) (hu : UriOf c' a m u) :
    got (comps (objectRel c'.rsyncIncludeHost u)) = q.objects u.toStr := by
  have h2 := (C83_right_content σ life content c base name i f n get p q hl ho hσ ht h hn hp hq).1
  have h3 := C85_right_content life' content c' base' name' a m p' f' r t0 got hl' ho' he' hm' h1 ht' h' hr hg
  rw [h2, hv.1, hv.2]
  exact h3.right u hu

section
open Demo Inst
set_option maxRecDepth 100000

theorem Demo.rolesV_mem (q : Path) :
    lifeV.role q ∈ (⟨true, 0, 0, []⟩ :: rolesV.map Prod.snd : List FileRole) := by
  show (rolesV.lookup q).getD _ ∈ _
  match h : rolesV.lookup q with
  | none => exact List.mem_cons_self
  | some x =>
    rw [List.lookup_eq_some_iff] at h
    obtain ⟨l1, l2, h1, _⟩ := h
    rw [h1]
    simp

theorem Demo.oneSnapshotV : OneSnapshot lifeV := by
  have hall : ∀ x ∈ (⟨true, 0, 0, []⟩ :: rolesV.map Prod.snd : List FileRole),
      ∀ y ∈ (⟨true, 0, 0, []⟩ :: rolesV.map Prod.snd : List FileRole), x.snapshot = true → y.snapshot = true →
      x.session = y.session → x.serial = y.serial → x.hash = y.hash := by decide +kernel
  intro q q' s k b b' h h'
  have := hall _ (rolesV_mem q) _ (rolesV_mem q') (by rw [h]) (by rw [h']) (by rw [h, h']) (by rw [h, h'])
  rw [h, h'] at this
  exact this

/-- There is one complete snapshot. -/
theorem Demo.snapshotV {r : RsyncRevision} {b : Bytes} (h : IsSnapshotOf lifeV r b) :
    r = ⟨5, 3⟩ ∧ b = snap3 := by
  obtain ⟨⟨q, h1⟩, h2⟩ := h
  have hall : ∀ x ∈ (⟨true, 0, 0, []⟩ :: rolesV.map Prod.snd : List FileRole),
      x.snapshot = true → (Ext.streamSnapshot x.hash).2 = true → x = ⟨true, 5, 3, snap3⟩ := by decide +kernel
  have := hall _ (rolesV_mem q) (by rw [h1]) (by rw [h1]; exact h2)
  rw [h1] at this
  injection this with _ e1 e2 e3
  exact ⟨by cases r; simp only at e1 e2; rw [e1, e2], e3⟩

theorem Demo.cleanA : CleanUri (rs "a") :=
  ⟨⟨by decide, by decide, by decide, by decide⟩, ⟨by decide, by decide, by decide, by decide⟩,
    ["a".toList], by decide, fun s hs => by
      rw [List.mem_singleton.1 hs]; exact ⟨by decide, by decide, by decide, by decide⟩, rfl⟩

theorem Demo.trueSnapshotsV : TrueSnapshots lifeV versions (UriOf conf (rs "a").authority (rs "a").module) := by
  have hs : (Ext.streamSnapshot snap3).1 = [(rs "a", ([5] : Bytes))] := by decide +kernel
  refine ⟨fun r b h => ?_, fun r b h e he => ?_⟩
  · obtain ⟨rfl, rfl⟩ := snapshotV h
    exact truthfulV.snapshot snap3 _ rfl (by decide +kernel)
  · obtain ⟨rfl, rfl⟩ := snapshotV h
    rw [hs] at he
    rw [List.mem_singleton.1 he]
    exact ⟨cleanA, fun _ => ⟨rfl, rfl⟩⟩

theorem Demo.timelyV : TimelyLifetime lifeV conf base name pV fsP1 :=
  History.run (start := fun _ => Untouched conf) (i := pV) (History.start untouched0) (depth := 5) (env := envVt 0)
    ⟨goodRunV rfl rfl rfl nofun (by decide +kernel), fun st r h1 h2 => by
      rw [h1.unique (Or.inr ⟨by decide +kernel, rfl⟩)] at h2
      cases h2⟩ List.mem_cons_self

theorem Demo.entersV : Enters conf fsP1 ⟨5, 3⟩ :=
  ⟨accord_of_check (by decide +kernel) (by decide +kernel), fun st hst d hd => by
    rw [rsyncRecorded_of (st := ⟨some ⟨5, 3⟩, []⟩) (by decide +kernel) hst] at hd
    cases hd⟩

/-- The files as they are after the second run. -/
def Demo.gotV (q : Path) : Option Bytes := fsP2.file? ((⟨5, 3⟩ : RsyncRevision).path conf ++ q)

theorem Demo.readInTimeV : ReadInTime lifeV conf base name 0 pV fsP1 ⟨5, 3⟩ gotV := by
  intro q
  refine ⟨pV, fsP2, History.run (i := pV) (History.start ⟨rfl, rfl⟩)
    ⟨goodRunV (t := 9) rfl rfl rfl nofun (by decide +kernel), fun _ => ?_⟩ List.mem_cons_self, rfl⟩
  exact ⟨by show (0 : Int) ≤ 9; decide, by show (9 : Int) < 0 + 10; decide⟩

example : IsTreeOf false (UriOf conf (rs "a").authority (rs "a").module) (versions 5 3) gotV :=
  C85_right_content lifeV versions conf base name _ _ pV fsP1 ⟨5, 3⟩ 0 gotV layout (cleanObjects _) rfl rfl
    oneSnapshotV trueSnapshotsV timelyV entersV readInTimeV

example : gotV ["a".toList] = some [5] ∧ gotV ["b".toList] = none := by decide +kernel

example : ∃ q, Party.Gets getV notifVpub none q ∧ gotV ["a".toList] = q.objects (rs "a").toStr := by
  obtain ⟨q, hq⟩ := C83_snapshot_can_be_had (fun _ => notifV) lifeV conf base name (pV, 0) fsP1 notifVpub 0 getV
    none layout (fun _ => cleanObjects _) followsRfcV (fun _ => readableV) mirroringV publishedV inTimeV
  refine ⟨q, hq, C85_same_as_by_rrdp (fun _ => notifV) lifeV lifeV versions conf conf base name base name _ _
    (pV, 0) pV fsP1 fsP1 notifVpub getV none q ⟨5, 3⟩ 0 gotV layout (fun _ => cleanObjects _) followsRfcV
    (fun _ => truthfulV) mirroringV publishedV nofun hq layout (cleanObjects _) rfl rfl oneSnapshotV trueSnapshotsV
    timelyV entersV readInTimeV ?_ (rs "a") ⟨cleanA, fun _ => ⟨rfl, rfl⟩⟩⟩
  cases hq
  exact ⟨rfl, rfl⟩

/-! ### Where the claim fails -/

/-- Objects of two modules with the same path. -/
def Demo.twoModules : List (RsyncUri × Bytes) :=
  [(⟨"h".toList, "m".toList, "a".toList⟩, [1]), (⟨"h".toList, "n".toList, "a".toList⟩, [2])]

def Demo.notifM : Notif := ⟨7, 1, uri "mm", toBytes twoModules, []⟩

def Demo.envM : Env := { envAt 0 notifM with
  http := fun _ r =>
    if r.uri = uri "n" then .ok .absent (some (toBytes notifM))
    else if r.uri = uri "mm" then .ok .absent (some (toBytes twoModules))
    else .other 404 }

/-- **C85 fails for a source with several modules if host names are not part of the paths.**  A first run over a
source that publishes two objects with the same path in different modules; both would be found at the same
place, and the first one is lost. -/
theorem C85_refuted_across_modules :
    GoodNotif base name notifM ∧ (Ext.streamSnapshot notifM.snapHash) = (twoModules, true) ∧
    (∀ e ∈ twoModules, CleanUri e.1) ∧
    (process 5 conf envM (World.start fs0)).1.toOption = some () ∧
    Enters conf (after conf envM fs0) notifM.rev ∧
    ∃ e ∈ twoModules, (after conf envM fs0).file? (notifM.rev.path conf ++ comps (objectRel false e.1)) ≠ some e.2 := by
  have hp : ∀ ch : Char, ch ≠ '/' → ch ≠ '.' → PlainName [ch] := fun ch h1 h2 =>
    ⟨by simp, by simpa using Ne.symm h1, by simpa using h2, by simp⟩
  have hu : ∀ ch : Char, ch ≠ '/' → ch ≠ '.' → CleanUri ⟨['h'], [ch], ['a']⟩ := fun ch h1 h2 =>
    ⟨hp _ (by decide) (by decide), hp _ h1 h2, [['a']], by simp, fun s hs => by
      rw [List.mem_singleton.1 hs]; exact hp _ (by decide) (by decide), rfl⟩
  refine ⟨goodNotif_of_check (by decide), by decide +kernel, fun e he => ?_, by decide +kernel,
    ⟨accord_of_check (by decide +kernel) (by decide +kernel), fun st hst d hd => ?_⟩, by decide +kernel⟩
  · rcases List.mem_cons.1 he with rfl | he
    · exact hu 'm' (by decide) (by decide)
    · rw [List.mem_singleton.1 he]
      exact hu 'n' (by decide) (by decide)
  · rw [rsyncRecorded_of (st := ⟨some notifM.rev, []⟩) (by decide +kernel) hst] at hd
    cases hd

end

end KSync
