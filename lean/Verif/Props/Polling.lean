import Verif.Lemmas.Polling
import Verif.Props.Party

/-!
# Relying parties that come back (property C86)

`Polling` and `Party.InOrder` are in Verif/Spec/Polling.lean.
-/

set_option linter.unusedVariables false

namespace KSync

/-- **C86, in order.** A relying party that asks an installation again and again, whatever runs are completed,
fail or are killed in between, and whatever it receives for the files: all it ever has is versions of the
source, each with exactly its objects, and it has them in the order in which the source has had them. -/
theorem C86_in_order [Ext] (σ : Nat → Notif) (content : Uuid → Nat → Objects) (c : Config) (base name : Str)
    (i : Nat) (f : FS) (ps : List Party) (hl : Layout c base name)
    (ho : c.rsyncEnabled = true → CleanObjects c.rsyncIncludeHost) (hσ : FollowsRfc σ)
    (ht : ∀ k, Truthful content (σ k)) (h : Polling σ c base name i f ps) : Party.InOrder content σ i ps :=
  (h.inv hσ ht hl ho).order

/-- **C86, never back.** Within a session, the serials of such a relying party never go down, not even if it
goes through other sessions in between. -/
theorem C86_never_back [Ext] (σ : Nat → Notif) (content : Uuid → Nat → Objects) (c : Config) (base name : Str)
    (i : Nat) (f : FS) (ps : List Party) (hl : Layout c base name)
    (ho : c.rsyncEnabled = true → CleanObjects c.rsyncIncludeHost) (hσ : FollowsRfc σ)
    (ht : ∀ k, Truthful content (σ k)) (h : Polling σ c base name i f ps) :
    ps.Pairwise (fun q p => p.session = q.session → p.serial ≤ q.serial) :=
  (h.inv hσ ht hl ho).order.serials hσ

/-- **C86, up to date.** If the source stays at one version during a run, which completes and has changed
anything, then a relying party that asks after it has that version, whatever it had before. -/
theorem C86_up_to_date [Ext] (σ : Nat → Notif) (content : Uuid → Nat → Objects) (c : Config) (base name : Str)
    (i k : Nat) (f : FS) (ps : List Party) (hl : Layout c base name)
    (ho : c.rsyncEnabled = true → CleanObjects c.rsyncIncludeHost) (hσ : FollowsRfc σ)
    (ht : ∀ k, Truthful content (σ k)) (h : Polling σ c base name i f ps) (hik : i ≤ k) (depth : Nat) (env : Env)
    (hr : FollowingRun σ c base name k k depth env f) (w' : World)
    (hok : process depth c env (World.start f) = (.ok (), w')) (hch : w'.crashPoints ≠ [f]) (n : Notif)
    (get : Str → Option Bytes) (q : Party) (hn : Published c name w'.cur n)
    (hq : Party.Gets get n ps.head? q) : q.Has content σ k := by
  have hinv := h.inv hσ ht hl ho
  obtain ⟨n', t', hm, hn'⟩ := following_done hσ hl ho (mirrored_later hik hinv.inv) hr hok hch
  obtain ⟨t, hn⟩ := hn
  rw [hn] at hn'
  injection hn' with hn'
  injection hn' with hn' _
  obtain rfl := writeNotif_inj hn'
  refine hq.has (ht k) hm (fun p' hp' => ?_)
  obtain ⟨_, _, hk⟩ := hinv.order.each p' (List.mem_of_head? hp')
  exact hk.genuine

section
open Demo Inst
set_option maxRecDepth 100000

def Demo.snap2 : Bytes := toBytes [(rs "a", ([1] : Bytes)), (rs "b", ([9] : Bytes))]

/-- The second version. -/
def Demo.notifU : Notif := ⟨5, 2, uri "us", snap2, [⟨2, uri "v2", delta2⟩]⟩

/-- The source goes on from the second version to the third. -/
def Demo.twoVersions (k : Nat) : Notif := if k = 0 then notifU else notifV

def Demo.envU : Env := { envAt 0 notifU with
  http := fun _ r =>
    if r.uri = uri "n" then .ok .absent (some (toBytes notifU))
    else if r.uri = uri "us" then .ok .absent (some snap2)
    else if r.uri = uri "v2" then .ok .absent (some delta2)
    else .other 404 }

def Demo.fsU1 : FS := after conf envU fs0
def Demo.fsU2 : FS := after conf (envVt 9) fsU1

theorem Demo.twoVersions_rfc : FollowsRfc twoVersions where
  reaches k := by
    unfold twoVersions ReachesSerial
    split <;> decide
  once k := by
    unfold twoVersions
    split <;> decide
  forward k k' hk _ := by
    unfold twoVersions
    by_cases h : k = 0
    · rw [if_pos h]
      split <;> decide
    · rw [if_neg h, if_neg (by omega)]
      exact Nat.le_refl _
  keeps k k' hk _ d hd hle := by
    unfold twoVersions at *
    by_cases h : k = 0
    · rw [if_pos h] at *
      by_cases h' : k' = 0
      · rw [if_pos h'] at hd
        exact hd
      · rw [if_neg h'] at hd
        rcases List.mem_cons.1 hd with rfl | hd
        · exact absurd hle (by decide)
        · exact hd
    · rw [if_neg h] at *
      rw [if_neg (by omega)] at hd
      exact hd

theorem Demo.truthfulU : Truthful versions notifU := by
  constructor
  · decide +kernel
  · intro b els hb hp
    have hb : b = snap2 := hb
    subst hb
    have : Ext.parseSnapshot snap2 = some [(rs "a", ([1] : Bytes)), (rs "b", ([9] : Bytes))] := by decide +kernel
    rw [this] at hp
    cases hp
    intro u
    show (if u = (rs "a").toStr then some [1] else if u = (rs "b").toStr then some [9] else none) = _
    by_cases hu : u = (rs "a").toStr
    · rw [if_pos hu, hu]; decide +kernel
    · rw [if_neg hu]
      by_cases hv : u = (rs "b").toStr
      · rw [if_pos hv, hv]; decide +kernel
      · rw [if_neg hv]
        simp [List.find?, Ne.symm hu, Ne.symm hv]
  · intro d hd b els hb hp k hk
    cases List.mem_singleton.1 hd
    have hb : b = delta2 := hb
    subst hb
    have : Ext.parseDelta delta2 = some els2 := by decide +kernel
    rw [this] at hp
    cases hp
    cases hk
    exact change2

theorem Demo.twoVersions_truthful (k : Nat) : Truthful versions (twoVersions k) := by
  unfold twoVersions
  split
  · exact truthfulU
  · exact truthfulV

theorem Demo.offersU {n' : Notif} {fs : FS} {etag : Option Str} (h : Offers conf envU fs etag n') :
    n' = notifU :=
  offers_only rfl (fun _ _ h => if_pos h) h

theorem Demo.runU (f : FS) : FollowingRun twoVersions conf base name 0 0 5 envU f :=
  ⟨fun _ n' hn => offersU hn ▸ goodNotif_of_check (by decide), Nat.le_refl _,
    fun _ _ h => ⟨0, Nat.le_refl _, Nat.le_refl _, offersU h⟩⟩

theorem Demo.runUV (i : Nat) (hi : i ≤ 1) (f : FS) : FollowingRun twoVersions conf base name i 1 5 (envVt 9) f :=
  ⟨fun _ n' hn => offersV rfl rfl hn ▸ goodNotif_of_check (by decide), hi,
    fun _ _ h => ⟨1, hi, Nat.le_refl _, offersV rfl rfl h⟩⟩

/-- The files as they are after the first run. -/
def Demo.getU (u : Str) : Option Bytes := (stripPrefix base u).bind (fun rel => fsU1.file? (conf.pubPath rel))

/-- The files as they are after the second run. -/
def Demo.getUV (u : Str) : Option Bytes := (stripPrefix base u).bind (fun rel => fsU2.file? (conf.pubPath rel))

theorem Demo.publishedU : Published conf name fsU1 notifU := ⟨0, by decide +kernel⟩
theorem Demo.publishedUV : Published conf name fsU2 notifVpub := ⟨9, by decide +kernel⟩

def Demo.partyU : Party := ⟨5, 2, versions 5 2⟩
/-- What the delta makes of it. -/
def Demo.partyUV : Party :=
  ⟨5, 3, ((versions 5 2).set (rs "a").toStr (some [5])).set (rs "b").toStr none⟩

theorem Demo.getsU : Party.Gets getU notifU none partyU :=
  .snapshot (b := snap2) (els := [(rs "a", ([1] : Bytes)), (rs "b", ([9] : Bytes))]) (by decide +kernel) rfl
    (by decide +kernel) (truthfulU.snapshot snap2 _ rfl (by decide +kernel))

theorem Demo.getsUV : Party.Gets getUV notifVpub (some partyU) partyUV := by
  refine .deltas rfl (.step (d := ⟨3, uri "v3", delta3⟩) (b := delta3) (els := els3) List.mem_cons_self rfl
    (by decide +kernel) rfl (by decide +kernel) ?_ .done)
  exact .update _ _ _ _ _ _ [1] (by decide +kernel) rfl
    (.withdraw _ _ _ _ _ [9] (by decide +kernel) rfl (.nil _))

/-- A relying party gets the snapshot after the first run, and a delta after the second. -/
theorem Demo.pollingV : Polling twoVersions conf base name 1 fsU2 [partyUV, partyU] :=
  .poll (.run (.poll (.run (i := 0) (.start pristine0) (runU fs0) (env := envU) List.mem_cons_self) publishedU
    getsU) (runUV 0 (by decide) fsU1) List.mem_cons_self) publishedUV getsUV

example : Party.InOrder versions twoVersions 1 [partyUV, partyU] :=
  C86_in_order twoVersions versions conf base name 1 fsU2 [partyUV, partyU] layout (fun _ => cleanObjects _)
    twoVersions_rfc twoVersions_truthful pollingV

example : partyU.serial < partyUV.serial ∧ partyU.objects (rs "a").toStr = some [1] ∧
    partyUV.objects (rs "a").toStr = some [5] ∧ partyU.objects (rs "b").toStr = some [9] ∧
    partyUV.objects (rs "b").toStr = none := by decide +kernel

example := C86_never_back twoVersions versions conf base name 1 fsU2 [partyUV, partyU] layout
  (fun _ => cleanObjects _) twoVersions_rfc twoVersions_truthful pollingV

example : partyUV.Has versions twoVersions 1 :=
  C86_up_to_date twoVersions versions conf base name 0 1 fsU1 [partyU] layout (fun _ => cleanObjects _)
    twoVersions_rfc twoVersions_truthful
    (.poll (.run (i := 0) (.start pristine0) (runU fs0) (env := envU) List.mem_cons_self) publishedU getsU)
    (by decide) 5 (envVt 9) (runUV 1 (Nat.le_refl _) fsU1) (process 5 conf (envVt 9) (World.start fsU1)).2
    (Prod.ext (by decide +kernel : (process 5 conf (envVt 9) (World.start fsU1)).1 = .ok ()) rfl)
    (by
      intro h
      have : fsU2 = fsU1 := (List.cons.inj h).1
      have h3 : fsU1.file? (conf.notifPath name) = some (Ext.writeNotif notifU) := by decide +kernel
      have h4 : fsU2.file? (conf.notifPath name) ≠ some (Ext.writeNotif notifU) := by decide +kernel
      exact h4 (this ▸ h3))
    notifVpub getUV partyUV publishedUV getsUV

/-- **C86, between servers.** Relying parties that ask now one, now another server of the same source can go
back: one of the servers may not have run since the source went on to the version that the other has. -/
theorem C86_refuted_between_servers :
    ∃ (f f' : FS) (n n' : Notif) (get get' : Str → Option Bytes) (p q : Party),
      Following twoVersions conf base name 1 f ∧ Following twoVersions conf base name 0 f' ∧
      Published conf name f n ∧ Published conf name f' n' ∧ Party.Gets get n none p ∧
      Party.Gets get' n' (some p) q ∧ p.session = q.session ∧ q.serial < p.serial := by
  have h1 : Following twoVersions conf base name 0 fsU1 :=
    .run (i := 0) (.start pristine0) (runU fs0) List.mem_cons_self
  refine ⟨fsU2, fsU1, notifVpub, notifU, getUV, getU, ⟨5, 3, versions 5 3⟩, partyU,
    .run h1 (runUV 0 (by decide) fsU1) List.mem_cons_self, h1, publishedUV, publishedU, ?_, ?_, rfl, by decide⟩
  · exact .snapshot (b := snap3) (els := [(rs "a", ([5] : Bytes))]) (by decide +kernel) rfl
      (by decide +kernel) (truthfulV.snapshot snap3 _ rfl (by decide +kernel))
  · exact .snapshot (b := snap2) (els := [(rs "a", ([1] : Bytes)), (rs "b", ([9] : Bytes))]) (by decide +kernel)
      rfl (by decide +kernel) (truthfulU.snapshot snap2 _ rfl (by decide +kernel))

end

end KSync
