import Verif.Lemmas.Visits
import Verif.Props.Network
import Verif.Props.Polling

/-!
# C90: Relying parties that use the mirrors of a network

Property theorems only; the lemmas are in `Verif/Lemmas/Visits.lean`, the vocabulary is in
`Verif/Spec/Visits.lean`.
-/

set_option linter.unusedVariables false

namespace KSync

/-- **C90, in order.** A relying party that asks an installation of a network again and again, however far it
is from the source, and turns now and then to the one that this gets its files from: all it ever has is
versions of the source, each with exactly its objects, and it has them in the order in which the source has had
them. -/
theorem C90_in_order [Ext] {κ : Type} [DecidableEq κ] (σ : Nat → Notif) (content : Uuid → Nat → Objects)
    (cs : κ → Config) (parent : κ → Option κ) (lim : κ → Option Nat) (base name : Str) (i : κ → Nat)
    (h : κ → List FS) (last : κ → Nat) (k r : κ) (pos : Nat) (ps : List Party)
    (hN : MirrorNet cs parent lim base name) (ho : ∀ host, CleanObjects host)
    (hσ : FollowsRfc σ) (hg : ∀ m, Gapless (σ m).deltas) (hn : ∀ m, GoodNotif base name (σ m))
    (ht : ∀ m, Truthful content (σ m)) (hv : Visiting σ cs parent base name i h last k pos ps)
    (hr : RootOf parent k r) : Party.InOrder content σ (i r) ps := by
  obtain ⟨idx, H, e, hi, m, h1, h2⟩ := hv.inv (hN.net hσ hg hn) ho ht
  obtain ⟨z, C, hz⟩ := hi.head k
  refine h1.later ?_
  have hpos := h2.1
  rw [hz, List.length_cons] at hpos
  rw [← e r hr.isRoot]
  exact Nat.le_trans (h2.2 [] z C hz (by omega))
    (Nat.le_trans ((hi.tagged k).bound z (hz ▸ List.mem_cons_self)) (hi.root hr))

/-- **C90, never back.** Within a session, the serials of such a relying party never go down. -/
theorem C90_never_back [Ext] {κ : Type} [DecidableEq κ] (σ : Nat → Notif) (content : Uuid → Nat → Objects)
    (cs : κ → Config) (parent : κ → Option κ) (lim : κ → Option Nat) (base name : Str) (i : κ → Nat)
    (h : κ → List FS) (last : κ → Nat) (k : κ) (pos : Nat) (ps : List Party)
    (hN : MirrorNet cs parent lim base name) (ho : ∀ host, CleanObjects host)
    (hσ : FollowsRfc σ) (hg : ∀ m, Gapless (σ m).deltas) (hn : ∀ m, GoodNotif base name (σ m))
    (ht : ∀ m, Truthful content (σ m)) (hv : Visiting σ cs parent base name i h last k pos ps) :
    ps.Pairwise (fun q p => p.session = q.session → p.serial ≤ q.serial) := by
  obtain ⟨idx, H, e, hi, m, h1, h2⟩ := hv.inv (hN.net hσ hg hn) ho ht
  exact h1.serials hσ

section
open Demo Inst
set_option maxRecDepth 100000

namespace Demo

/-- The instants of the runs of the first. -/
def instantsU : List FS := (process 5 conf envU (World.start fs0)).2.past
def instantsUV : List FS := (process 5 conf (envVt 9) (World.start fsU1)).2.past

/-- The disk of the second, which has run after the first run of the first. -/
def fsC1 : FS := after confMax envU fs0
def instantsC : List FS := (process 5 confMax envU (World.start fs0)).2.past

def hostsU : Bool → List FS
  | false => fsU1 :: (instantsU ++ [])
  | true => [fs0]

def hostsUC : Bool → List FS
  | false => fsU1 :: (instantsU ++ [])
  | true => fsC1 :: (instantsC ++ [])

def hostsUV : Bool → List FS
  | false => fsU2 :: (instantsUV ++ (instantsU ++ []))
  | true => fsC1 :: (instantsC ++ [])

def lastU : Bool → Nat
  | false => 0
  | true => (instantsU ++ []).length

theorem networkU : Network twoVersions twoHosts above base name (fun _ => 0) hostsUC lastU := by
  have h0 : Network twoVersions twoHosts above base name (fun _ => 0) (fun _ => [fs0]) (fun _ => 0) :=
    Network.start (d := fun _ => fs0) fun
      | false => pristine0
      | true => ⟨pristine0.wf, pristine0.noState, pristine0.noNotification, pristine0.noLinks⟩
  have h1 := Network.step h0 (NetStep.fromSource (k := false) (j := 0) (depth := 5) (env := envU)
    (f := fs0) (l := []) (unreached := []) (g := fsU1) (rest := instantsU) rfl rfl (runU fs0) rfl)
  have h2 := Network.step h1 (NetStep.fromParent (k := true) (p := false) (depth := 5) (env := envU)
    (f := fs0) (l := []) (unreached := []) (g := fsC1) (rest := instantsC) (x := fsU1)
    (newer := []) (older := instantsU ++ []) rfl rfl rfl (Nat.zero_le _)
    (fun etag n h => by
      rw [show n = notifU from offers_only rfl (fun _ _ h => if_pos h) h]
      exact publishedU) rfl)
  have e1 : put (fun _ => 0) false 0 = (fun _ : Bool => 0) := by
    funext l
    cases l <;> rfl
  have e2 : put (put (fun _ => [fs0]) false (fsU1 :: (instantsU ++ []))) true (fsC1 :: (instantsC ++ [])) =
      hostsUC := by
    funext l
    cases l <;> rfl
  have e3 : put (fun _ => 0) true (instantsU ++ []).length = lastU := by
    funext l
    cases l <;> rfl
  rw [← e1, ← e2, ← e3]
  exact h2

/-- The first has gone on to the next version. -/
theorem stepUV : NetStep twoVersions twoHosts above base name (fun _ => 0) hostsUC lastU gotB hostsUV lastU := by
  have h1 := NetStep.fromSource (σ := twoVersions) (cs := twoHosts) (parent := above) (base := base) (name := name)
    (i := fun _ => 0) (h := hostsUC) (last := lastU) (k := false) (j := 1) (depth := 5) (env := envVt 9)
    (f := fsU1) (l := instantsU ++ []) (unreached := []) (g := fsU2) (rest := instantsUV) rfl rfl
    (runUV 0 (by decide) fsU1) rfl
  have e1 : put (fun _ => 0) false 1 = gotB := by
    funext l
    cases l <;> rfl
  have e2 : put hostsUC false (fsU2 :: (instantsUV ++ (instantsU ++ []))) = hostsUV := by
    funext l
    cases l <;> rfl
  rw [← e1, ← e2]
  exact h1

theorem publishedC : Published confMax name fsC1 notifU := ⟨0, by decide +kernel⟩

/-- A relying party gets the second version from the second, and then turns to the first and gets the third. -/
theorem visiting : Visiting twoVersions twoHosts above base name gotB hostsUV lastU false
    (instantsUV ++ (instantsU ++ [])).length [partyUV, partyU] := by
  have v1 := Visiting.poll (k := true) (newer := []) (f := fsC1) (older := instantsC ++ []) (n := notifU)
    (Visiting.start networkU) rfl (Nat.zero_le _) publishedC getsU
  have v2 := Visiting.up (v1.goes stepUV) (p := false) rfl
  exact Visiting.poll (newer := []) (f := fsU2) (n := notifVpub) v2 rfl (by
    show (instantsU ++ []).length ≤ _
    rw [List.length_append (as := instantsUV)]
    exact Nat.le_add_left _ _) publishedUV getsUV

theorem gaplessUV (m : Nat) : Gapless (twoVersions m).deltas := by
  unfold twoVersions
  split
  · exact ⟨notifU.deltas, .refl _, fun i h => absurd (Nat.lt_of_succ_lt_succ h) (Nat.not_lt_zero _)⟩
  · exact ⟨notifV.deltas.reverse, (List.reverse_perm _).symm, fun i h => match i, h with
      | 0, _ => rfl
      | i + 1, h => absurd (Nat.lt_of_succ_lt_succ (Nat.lt_of_succ_lt_succ h)) (Nat.not_lt_zero _)⟩

theorem goodUV (m : Nat) : GoodNotif base name (twoVersions m) := by
  unfold twoVersions
  split
  · exact goodNotif_of_check (by decide)
  · exact goodNotif_of_check (by decide)

end Demo

example : Party.InOrder versions twoVersions 1 [partyUV, partyU] :=
  C90_in_order twoVersions versions twoHosts above limHosts base name gotB hostsUV lastU false false _ _ netTwo
    cleanObjects twoVersions_rfc gaplessUV goodUV twoVersions_truthful visiting (.here rfl)

example := C90_never_back twoVersions versions twoHosts above limHosts base name gotB hostsUV lastU false _ _
  netTwo cleanObjects twoVersions_rfc gaplessUV goodUV twoVersions_truthful visiting

/-- **C90, not down.** A relying party that turns from an installation to one that gets its files from this can
go back. -/
theorem C90_refuted_when_turning_down : ∃ (i : Bool → Nat) (h : Bool → List FS) (last : Bool → Nat) (pos : Nat)
    (p q : Party) (f : FS) (l : List FS) (n : Notif) (get : Str → Option Bytes),
      Visiting twoVersions twoHosts above base name i h last false pos [p] ∧ h true = f :: l ∧
      Published confMax name f n ∧ Party.Gets get n (some p) q ∧ p.session = q.session ∧
      q.serial < p.serial := by
  refine ⟨gotB, hostsUV, lastU, _, ⟨5, 3, versions 5 3⟩, partyU, fsC1, _, notifU, getU,
    Visiting.poll (k := false) (newer := []) (f := fsU2) (n := notifVpub) (get := getUV)
      (Visiting.start (networkU.step stepUV)) rfl (Nat.zero_le _) publishedUV ?_, rfl, publishedC, ?_, rfl,
    by decide⟩
  · exact .snapshot (b := snap3) (els := [(rs "a", ([5] : Bytes))]) (by decide +kernel) rfl
      (by decide +kernel) (truthfulV.snapshot snap3 _ rfl (by decide +kernel))
  · exact .snapshot (b := snap2) (els := [(rs "a", ([1] : Bytes)), (rs "b", ([9] : Bytes))]) (by decide +kernel)
      rfl (by decide +kernel) (truthfulU.snapshot snap2 _ rfl (by decide +kernel))

end

end KSync
