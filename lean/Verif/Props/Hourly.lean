import Verif.Props.Gates
import Verif.Lemmas.Hourly

/-! # What is validated, over histories -/

namespace KSync

/-- **C18 (partial), over all histories.** However the runs so far went, as long as they are an hour or
more apart: what is validated for the repository to be published is the announced snapshot.  What is
missing: runs less than an hour apart (see `C18_refuted_for_recent_data`). -/
theorem C18_hourly_partial [Ext] (content : Uuid → Nat → Objects) (age : Uuid → Nat) (c : Config)
    (base name : Str) (hl : Layout c base name) (ht : c.talFiles ≠ [])
    (ho : c.rsyncEnabled = true → CleanObjects c.rsyncIncludeHost) (p p' : Time × Version) (fs : FS)
    (h : History c (fun _ => Pristine c name) (HourlyRun content age c base name) p fs)
    (depth : Nat) (env : Env) (hr : HourlyRun content age c base name p p' depth env fs) :
    Withheld c fs (process depth c env (World.start fs)) ∨
    ∃ n n1 etag v g k certs objs, Offers c env fs etag n ∧ Limited c n n1 ∧
      RunValidator c base env fs g v ∧ Cleared c certs ∧
      ValidatesWith env g v c.offlineValidation k c.notificationUri objs certs ∧
      ∀ b els, Ext.sha b = n1.snapHash → Ext.parseSnapshot b = some els →
        SnapshotOf els (mapGet objs) := by
  obtain ⟨hi, hp⟩ := hourly_invariant hl ht ho h
  refine C18_validates_what_is_published_partial depth c env fs base name
    (hi.conds hl ho hr.forward.source) ht content hr.truthful fun s v hs hv => ?_
  have hq := (hi.state s hs).2
  refine ⟨hq.1.keyed hv, fun d hd => ?_⟩
  obtain ⟨q1, q2, q3⟩ := hq.2 v d hv hd
  refine ⟨q1, fetched_of_persisted (hp s hs) hv hd,
    fun k => Int.le_trans (Int.add_le_add_right q2 3600) (hr.spaced k).1, fun etag n hn he => ?_⟩
  rcases Version.le_trans q3 (hr.forward.notBefore etag n hn) with h1 | ⟨_, h1⟩
  · exact absurd h1 (by rw [he]; exact Nat.lt_irrefl _)
  · exact h1

section
open Demo
set_option maxRecDepth 100000

theorem Demo.layoutT : Layout confT base nameT :=
  ⟨notifUriT, apart_of (by decide), apart_of (by decide), apart_of (by decide),
    apart_of (by decide), apart_of (by decide), apart_of (by decide), apart_of (by decide)⟩

theorem Demo.pristineT : Pristine confT nameT fsT :=
  ⟨FS.wf_of_check (by decide), by decide, by decide, FS.noLinks_of_check (by decide)⟩

/-- A run with one of the two good versions. -/
theorem Demo.hourlyT {t : Time} {n : Notif} {p p' : Time × Version} {fs : FS}
    (hg : goodNotifB base nameT n = true) (hh : n.snapHash = goodSnap) (hd : n.deltas = [])
    (hs : n.session = 5 ∧ (n.serial = 1 ∨ n.serial = 2)) (h1 : p.1 + 3600 ≤ t) (h2 : t ≤ p'.1)
    (h3 : p.2.le (n.version BitVec.toNat)) (h4 : (n.version BitVec.toNat).le p'.2) :
    HourlyRun contentG BitVec.toNat confT base nameT p p' 5 (serving t n goodSnap) fs := by
  have hparse : Ext.parseSnapshot goodSnap = some goodObjects := by decide +kernel
  refine ⟨⟨fun _ _ hn => ?_, Version.le_trans h3 h4, fun _ _ hn => ?_, fun _ _ hn => ?_⟩,
    fun _ _ hn => ?_, fun _ => ⟨h1, h2⟩⟩
  · rw [offersT rfl rfl hn]; exact goodNotif_of_check hg
  · rw [offersT rfl rfl hn]; exact h3
  · rw [offersT rfl rfl hn]; exact h4
  · rw [offersT rfl rfl hn]
    refine ⟨⟨(fun d hd' => by rw [hd] at hd'; cases hd'), (fun b els hb hp => ?_),
      (fun d hd' => by rw [hd] at hd'; cases hd')⟩,
      (fun x hx => by rw [hd] at hx; cases hx), fun h => absurd hd h⟩
    have : b = goodSnap := hb.trans hh
    rw [this, hparse] at hp
    cases hp
    intro u
    unfold contentG
    rw [if_pos hs]

/-- Two runs, an hour apart; the second one publishes too. -/
example : ∃ p p' fs, History confT (fun _ => Pristine confT nameT)
      (HourlyRun contentG BitVec.toNat confT base nameT) p fs ∧
    HourlyRun contentG BitVec.toNat confT base nameT p p' 5 (serving 3650 nextNotif goodSnap) fs ∧
    (∃ s v, Recorded confT fs s ∧ s.validator = some v ∧
      (mapGet v.repos.data confT.notificationUri).isSome) ∧
    (process 5 confT (serving 3650 nextNotif goodSnap) (World.start fs)).1 = .ok () := by
  refine ⟨(50, 5, 1), (3650, 5, 2), after confT (serving 50 goodNotif goodSnap) fsT,
    .run (i := (-3550, 0, 0)) (.start pristineT)
      (hourlyT (t := 50) (by decide) rfl rfl ⟨rfl, Or.inl rfl⟩ (by decide) (by decide) (Or.inl (by decide))
        (Or.inr (by decide))) (List.mem_cons_self ..),
    hourlyT (by decide) rfl rfl ⟨rfl, Or.inr rfl⟩ (by decide) (by decide) (Or.inr (by decide))
      (Or.inr (by decide)), ?_, by decide +kernel⟩
  have h : (((after confT (serving 50 goodNotif goodSnap) fsT).read confT.rrdpStatePath).bind
      (Ext.decState)).any (fun s => s.validator.any
        (fun v => (mapGet v.repos.data confT.notificationUri).isSome)) = true := by decide +kernel
  match hr : (after confT (serving 50 goodNotif goodSnap) fsT).read confT.rrdpStatePath with
  | none => rw [hr] at h; cases h
  | some b =>
    rw [hr] at h
    match hd : (Ext.decState b : Option RrdpState) with
    | none => rw [show (some b : Option Bytes).bind Ext.decState = Ext.decState b from rfl, hd] at h; cases h
    | some s =>
      rw [show (some b : Option Bytes).bind Ext.decState = Ext.decState b from rfl, hd] at h
      match hv : s.validator with
      | none => rw [Option.any_some, hv] at h; cases h
      | some v =>
        rw [Option.any_some, hv] at h
        exact ⟨s, v, ⟨b, hr, hd⟩, hv, h⟩

/-- The second version once more, with the delta for the first one but none for the second. -/
def Demo.shortNotif : Notif := { badNotif with deltas := [⟨1, uri "qd1", [1]⟩] }

def Demo.shortEnv : Env := { serving 3650 shortNotif treeSnap with
  http := fun t r => if r.uri = uri "qd1" then .ok .absent (some [1])
    else (serving 3650 shortNotif treeSnap).http t r }

/-- **C18 does not hold either if the deltas of the source do not go up to its serial.** The validator then
takes the data it has kept to be up to date, however old they are: content with issues is published, an
hour after the successful publication of an earlier version, which is validated again. -/
theorem C18_refuted_for_short_deltas :
    RunConds confT base nameT shortEnv fsG ∧ confT.talFiles ≠ [] ∧ confT.talRejectInvalid = true ∧
    (∀ s v d, Recorded confT fsG s → s.validator = some v →
      mapGet v.repos.data confT.notificationUri = some d → ∀ k, d.lastFetch + 3600 ≤ shortEnv.clock k) ∧
    (process 5 confT shortEnv (World.start fsT)).1 = .error .invalid ∧
    (process 5 confT shortEnv (World.start fsG)).1 = .ok () ∧
    (process 5 confT shortEnv (World.start fsG)).2.cur.file? (confT.notifPath nameT) =
      some (Ext.writeNotif shortNotif) := by
  refine ⟨{ runCondsG 3650 (n := badNotif) (snap := treeSnap) (by decide) with
      source := fun etag n' hn => ?_ }, by decide, by decide, ?_, by decide +kernel, by decide +kernel,
    by decide +kernel⟩
  · have : n' = shortNotif := offers_only rfl (fun k r hr => by
      show (if r.uri = uri "qd1" then _ else if r.uri = uri "q" then _ else _) = _
      rw [if_neg (by rw [hr]; decide), if_pos (show r.uri = uri "q" from hr)]) hn
    rw [this]
    exact goodNotif_of_check (by decide)
  · intro s v d hs hv hd k
    have hall : ∀ s, Recorded confT fsG s → (s.validator.all (fun v =>
        (mapGet v.repos.data confT.notificationUri).all (fun d =>
          decide (d.lastFetch + 3600 ≤ 3650)))) = true := stateG_is (by decide +kernel)
    have := hall s hs
    rw [hv, Option.all_some, hd, Option.all_some] at this
    exact of_decide_eq_true this

end

end KSync
