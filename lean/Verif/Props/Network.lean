import Verif.Lemmas.Network
import Verif.Props.Chain
import Verif.Props.Timeline

/-!
# C89: Mirrors that get their files from each other over the network

Property theorems only; the lemmas are in `Verif/Lemmas/Network.lean`, the vocabulary is in
`Verif/Spec/Network.lean`.
-/

set_option linter.unusedVariables false

namespace KSync

/-- **C89.** At any of the installations, all instants up to now (those in the middle of runs too) can be
numbered with notifications that the source has had, so that the numbers never go down as time goes on, and so
that at each instant the notification file is absent or is, byte for byte, the notification with that number,
with the deltas from the latest down, as many as all those on the way to the source allow.  Once there is a
notification file it stays there. -/
theorem C89_exact [Ext] {κ : Type} [DecidableEq κ] (σ : Nat → Notif) (cs : κ → Config)
    (parent : κ → Option κ) (lim : κ → Option Nat) (base name : Str) (i : κ → Nat) (h : κ → List FS)
    (last : κ → Nat) (hN : MirrorNet cs parent lim base name) (ho : ∀ host, CleanObjects host)
    (hσ : FollowsRfc σ) (hg : ∀ m, Gapless (σ m).deltas) (hn : ∀ m, GoodNotif base name (σ m))
    (hw : Network σ cs parent base name i h last) (k : κ) :
    ∃ H : List (FS × Nat), H.map Prod.fst = h k ∧
      H.Pairwise (fun later earlier => earlier.2 ≤ later.2) ∧
      (∀ x ∈ H, ∀ r, RootOf parent k r → x.2 ≤ i r) ∧
      (∀ x ∈ H, x.1.leaf ((cs k).notifPath name) = none ∨ ∃ ds, IsLimit (lim k) (σ x.2).deltas ds ∧
        Published (cs k) name x.1 { σ x.2 with deltas := ds.reverse }) ∧
      AnyTwo (fun earlier later => later.leaf ((cs k).notifPath name) = none →
        earlier.leaf ((cs k).notifPath name) = none) (h k) := by
  have hT := hN.net hσ hg hn
  obtain ⟨idx, H, e, hi⟩ := hw.inv hT ho
  refine ⟨H k, hi.hist k, (hi.tagged k).order, fun x hx r hr => ?_, fun x hx => ?_, ?_⟩
  · rw [← e r hr.isRoot]
    exact Nat.le_trans ((hi.tagged k).bound x hx) (hi.root hr)
  · refine ((hi.tagged k).shows x hx).imp id fun h1 => ?_
    obtain ⟨ds, a1, a2⟩ := mirrored_spec (hT.posLim k) (hg x.2)
    exact ⟨ds, a1, a2 ▸ h1⟩
  · rw [← hi.hist k]
    exact List.pairwise_map.2 (hi.tagged k).stays

/-- **C89, no way back.** At no installation is a notification file followed, at any later instant, by
one of the same session with a smaller serial. -/
theorem C89_never_back [Ext] {κ : Type} [DecidableEq κ] (σ : Nat → Notif) (cs : κ → Config)
    (parent : κ → Option κ) (lim : κ → Option Nat) (base name : Str) (i : κ → Nat) (h : κ → List FS)
    (last : κ → Nat) (hN : MirrorNet cs parent lim base name) (ho : ∀ host, CleanObjects host)
    (hσ : FollowsRfc σ) (hg : ∀ m, Gapless (σ m).deltas) (hn : ∀ m, GoodNotif base name (σ m))
    (hw : Network σ cs parent base name i h last) (k : κ) :
    AnyTwo (fun earlier later => ∀ n n', Published (cs k) name earlier n → Published (cs k) name later n' →
      n.session = n'.session → n.serial ≤ n'.serial) (h k) := by
  have hT := hN.net hσ hg hn
  obtain ⟨idx, H, e, hi⟩ := hw.inv hT ho
  rw [← hi.hist k]
  refine List.pairwise_map.2 ((hi.tagged k).order.imp_of_mem ?_)
  intro y x hy hx hle n n' h1 h2 hs
  rcases (hi.tagged k).shows x hx with a | a
  · obtain ⟨t, h1⟩ := h1
    rw [a] at h1; cases h1
  rcases (hi.tagged k).shows y hy with b | b
  · obtain ⟨t, h2⟩ := h2
    rw [b] at h2; cases h2
  obtain ⟨_, _, e1⟩ := mirrored_spec (hT.posLim k) (hg x.2)
  obtain ⟨_, _, e2⟩ := mirrored_spec (hT.posLim k) (hg y.2)
  rw [h1.unique a, h2.unique b] at hs ⊢
  rw [e1, e2] at hs ⊢
  exact hσ.forward x.2 y.2 hle hs

/-- **C89, never ahead.** No installation has, or has ever had, a later version than the one that is in place
at the installation it gets its files from. -/
theorem C89_never_ahead [Ext] {κ : Type} [DecidableEq κ] (σ : Nat → Notif) (cs : κ → Config)
    (parent : κ → Option κ) (lim : κ → Option Nat) (base name : Str) (i : κ → Nat) (h : κ → List FS)
    (last : κ → Nat) (hN : MirrorNet cs parent lim base name) (ho : ∀ host, CleanObjects host)
    (hσ : FollowsRfc σ) (hg : ∀ m, Gapless (σ m).deltas) (hn : ∀ m, GoodNotif base name (σ m))
    (hw : Network σ cs parent base name i h last) (k p : κ) (hp : parent k = some p) (f g : FS)
    (older : List FS) (hf : f ∈ h k) (hpar : h p = g :: older) (n n' : Notif)
    (hk : Published (cs k) name f n) (hk' : Published (cs p) name g n') (hs : n.session = n'.session) :
    n.serial ≤ n'.serial := by
  have hT := hN.net hσ hg hn
  obtain ⟨idx, H, e, hi⟩ := hw.inv hT ho
  obtain ⟨y, B, hy⟩ := hi.head p
  have e1 : y.1 = g := by
    have := hi.hist p
    rw [hpar, hy, List.map_cons] at this
    injection this
  rw [← hi.hist k] at hf
  obtain ⟨x, hx, rfl⟩ := List.mem_map.1 hf
  have hle : x.2 ≤ y.2 := Nat.le_trans ((hi.tagged k).bound x hx) (hi.ahead hp hy)
  rcases (hi.tagged k).shows x hx with a | a
  · obtain ⟨t, hk⟩ := hk
    rw [a] at hk; cases hk
  rcases (hi.tagged p).shows y (hy ▸ List.mem_cons_self) with b | b
  · obtain ⟨t, hk'⟩ := hk'
    rw [← e1, b] at hk'; cases hk'
  rw [e1] at b
  obtain ⟨_, _, e1⟩ := mirrored_spec (hT.posLim k) (hg x.2)
  obtain ⟨_, _, e2⟩ := mirrored_spec (hT.posLim p) (hg y.2)
  rw [hk.unique a, hk'.unique b] at hs ⊢
  rw [e1, e2] at hs ⊢
  exact hσ.forward x.2 y.2 hle hs

/-- **C89, catching up.** When a run of an installation completes, and has changed anything, then what it
publishes is what was in place, at the instant that it read, at the installation it gets its files from, with
the deltas from the latest down, as many as the maximum allows. -/
theorem C89_catches_up [Ext] {κ : Type} [DecidableEq κ] (σ : Nat → Notif) (cs : κ → Config)
    (parent : κ → Option κ) (lim : κ → Option Nat) (base name : Str) (i : κ → Nat) (h : κ → List FS)
    (last : κ → Nat) (hN : MirrorNet cs parent lim base name) (ho : ∀ host, CleanObjects host)
    (hσ : FollowsRfc σ) (hg : ∀ m, Gapless (σ m).deltas) (hn : ∀ m, GoodNotif base name (σ m))
    (hw : Network σ cs parent base name i h last) (k p : κ) (hp : parent k = some p) (f x : FS)
    (l newer older : List FS) (hf : h k = f :: l) (hx : h p = newer ++ x :: older)
    (hlast : last k ≤ older.length) (depth : Nat) (env : Env)
    (hoff : ∀ etag n, Offers (cs k) env f etag n → Published (cs p) name x n) (n : Notif)
    (hpub : Published (cs p) name x n) (w' : World)
    (hok : process depth (cs k) env (World.start f) = (.ok (), w')) (hch : w'.crashPoints ≠ [f]) :
    ∃ n', Mirrors (cs k) n n' ∧ Published (cs k) name w'.cur n' := by
  have hT := hN.net hσ hg hn
  obtain ⟨idx, H, e, hi⟩ := hw.inv hT ho
  exact hi.done hT ho hp hf hx hlast hoff hpub hok hch

section
open Demo
set_option maxRecDepth 100000

namespace Demo

/-- Two installations, the second with a maximum for the deltas. -/
def twoHosts : Bool → Config
  | false => conf
  | true => confMax

def limHosts : Bool → Option Nat := fun k => (twoHosts k).rrdpMaxDeltas

theorem netTwo : MirrorNet twoHosts above limHosts base name where
  layout
    | false => layout
    | true => layoutMax
  noCycle := treeTwo.noCycle
  positive
    | false => nofun
    | true => by decide
  top _ _ := rfl
  below
    | true, false, _ => rfl
    | true, true, h => nomatch h
    | false, _, h => nomatch h

/-- The instants of the run of the first that finds version 3. -/
def runAt3 : World := (process 5 conf (envAt 1 notif3) (World.start fs1)).2
/-- What it publishes. -/
def notif3up : Notif := { notif3 with deltas := notif3.deltas.reverse }

/-- The disk of the second, with version 1, which it got from the first when that was at the start of its
second run. -/
def fsH1 : FS := after confMax (envAt 2 notif1) fs0

def hostsBefore : Bool → List FS
  | false => runAt3.cur :: (runAt3.past ++ (instants1 ++ []))
  | true => [fs0]

def hosts : Bool → List FS
  | false => runAt3.cur :: (runAt3.past ++ (instants1 ++ []))
  | true => fsH1 :: ((process 5 confMax (envAt 2 notif1) (World.start fs0)).2.past ++ [])

def lastRead : Bool → Nat
  | false => 0
  | true => instants1.length

theorem networkBefore : Network threeVersions twoHosts above base name got hostsBefore (fun _ => 0) := by
  have h0 : Network threeVersions twoHosts above base name (fun _ => 0) (fun _ => [fs0]) (fun _ => 0) :=
    Network.start (d := fun _ => fs0) fun
      | false => pristine0
      | true => ⟨pristine0.wf, pristine0.noState, pristine0.noNotification, pristine0.noLinks⟩
  have h1 := Network.step h0 (NetStep.fromSource (k := false) (j := 0) (depth := 5) (env := envAt 0 notif1)
    (f := fs0) (l := []) (unreached := []) (g := fs1) (rest := instants1) rfl rfl
    ⟨goodSource (by decide), by decide, fun _ _ h => ⟨0, by decide, by decide, offers h⟩⟩ rfl)
  have h2 := Network.step h1 (NetStep.fromSource (k := false) (j := 2) (depth := 5) (env := envAt 1 notif3)
    (f := fs1) (l := instants1 ++ []) (unreached := []) (g := runAt3.cur) (rest := runAt3.past) rfl rfl
    ⟨goodSource (by decide), by decide, fun _ _ h => ⟨2, by decide, by decide, offers h⟩⟩ rfl)
  have e1 : put (put (fun _ => 0) false 0) false 2 = got := by
    funext l
    cases l <;> rfl
  have e2 : put (put (fun _ => [fs0]) false (fs1 :: (instants1 ++ []))) false
      (runAt3.cur :: (runAt3.past ++ (instants1 ++ []))) = hostsBefore := by
    funext l
    cases l <;> rfl
  rw [← e1, ← e2]
  exact h2

/-- The second run of the first begins with the disk as the first run has left it. -/
theorem runAt3_first : runAt3.past = runAt3.past.dropLast ++ [fs1] := by decide +kernel

theorem network : Network threeVersions twoHosts above base name got hosts lastRead := by
  have h3 := Network.step networkBefore (NetStep.fromParent (k := true) (p := false) (depth := 5) (env := envAt 2 notif1)
    (f := fs0) (l := []) (unreached := []) (g := fsH1)
    (rest := (process 5 confMax (envAt 2 notif1) (World.start fs0)).2.past) (x := fs1)
    (newer := runAt3.cur :: runAt3.past.dropLast) (older := instants1)
    rfl rfl (by
      show runAt3.cur :: (runAt3.past ++ (instants1 ++ [])) = _
      rw [runAt3_first]; simp) (Nat.zero_le _)
    (fun etag n h => by rw [offersMax h]; exact published1) rfl)
  have e1 : put (fun _ => 0) true instants1.length = lastRead := by
    funext l
    cases l <;> rfl
  have e2 : put hostsBefore true (fsH1 :: ((process 5 confMax (envAt 2 notif1) (World.start fs0)).2.past ++ [])) =
      hosts := by
    funext l
    cases l <;> rfl
  rw [← e1, ← e2]
  exact h3

end Demo

example := C89_exact threeVersions twoHosts above limHosts base name got hosts lastRead netTwo cleanObjects
  followsRfc3 gapless3 good3 network
example := C89_never_back threeVersions twoHosts above limHosts base name got hosts lastRead netTwo cleanObjects
  followsRfc3 gapless3 good3 network

/-- The second is behind. -/
example := C89_never_ahead threeVersions twoHosts above limHosts base name got hosts lastRead netTwo cleanObjects
  followsRfc3 gapless3 good3 network true false rfl fsH1 runAt3.cur _ List.mem_cons_self rfl notif1 notif3up
  ⟨2, by decide +kernel⟩ ⟨1, by decide +kernel⟩ rfl

/-- And catches up when it reads what is in place now. -/
example := C89_catches_up threeVersions twoHosts above limHosts base name got hosts lastRead netTwo cleanObjects
  followsRfc3 gapless3 good3 network true false rfl fsH1 runAt3.cur _ [] (runAt3.past ++ (instants1 ++ [])) rfl
  rfl (by
    show instants1.length ≤ _
    simp) 5 (envAt 3 notif3up)
  (fun etag n h => by rw [offersMax h]; exact ⟨1, by decide +kernel⟩) notif3up ⟨1, by decide +kernel⟩
  (process 5 confMax (envAt 3 notif3up) (World.start fsH1)).2
  (Prod.ext (by decide +kernel : (process 5 confMax (envAt 3 notif3up) (World.start fsH1)).1 = .ok ()) rfl)
  (by
    intro h
    have : (process 5 confMax (envAt 3 notif3up) (World.start fsH1)).2.cur = fsH1 := (List.cons.inj h).1
    have h3 : fsH1.file? (confMax.notifPath name) = some (Ext.writeNotif notif1) := by decide +kernel
    have h4 : (process 5 confMax (envAt 3 notif3up) (World.start fsH1)).2.cur.file? (confMax.notifPath name) ≠
        some (Ext.writeNotif notif1) := by decide +kernel
    exact h4 (this ▸ h3))

namespace Demo

/-- The source begins a new session. -/
def twoSessions : Nat → Notif
  | 0 => notif1
  | _ => notifB

theorem followsRfcTwo : FollowsRfc twoSessions := by
  refine ⟨fun k => ?_, fun k => ?_, fun k k' hk h => ?_, fun k k' hk h => ?_⟩
  · match k with
    | 0 => exact (by unfold ReachesSerial; decide : ReachesSerial notif1)
    | _ + 1 => exact (by unfold ReachesSerial; decide : ReachesSerial notifB)
  · match k with
    | 0 => exact fun d hd => nomatch hd
    | _ + 1 => exact fun d hd => nomatch hd
  · match k, k' with
    | 0, 0 => exact Nat.le_refl _
    | 0, _ + 1 => exact Nat.le_refl _
    | _ + 1, 0 => exact Nat.le_refl _
    | _ + 1, _ + 1 => exact Nat.le_refl _
  · match k' with
    | 0 => exact fun d hd => nomatch hd
    | _ + 1 => exact fun d hd => nomatch hd

/-- The first has followed it into the new session. -/
def runAtB : World := (process 5 conf (envAt 1 notifB) (World.start fs1)).2
/-- So has the second, when its first run is after that. -/
def fsHB : FS := after confMax (envAt 2 notifB) fs0
/-- And then it is offered what was in the old session. -/
def fsBack : FS := after confMax (envAt 3 notif1) fsHB

def gotB : Bool → Nat
  | false => 1
  | true => 0

def hostsB : Bool → List FS
  | false => runAtB.cur :: (runAtB.past ++ (instants1 ++ []))
  | true => fsHB :: ((process 5 confMax (envAt 2 notifB) (World.start fs0)).2.past ++ [])

def lastReadB : Bool → Nat
  | false => 0
  | true => (runAtB.past ++ (instants1 ++ [])).length

theorem networkB : Network twoSessions twoHosts above base name gotB hostsB lastReadB := by
  have h0 : Network twoSessions twoHosts above base name (fun _ => 0) (fun _ => [fs0]) (fun _ => 0) :=
    Network.start (d := fun _ => fs0) fun
      | false => pristine0
      | true => ⟨pristine0.wf, pristine0.noState, pristine0.noNotification, pristine0.noLinks⟩
  have h1 := Network.step h0 (NetStep.fromSource (k := false) (j := 0) (depth := 5) (env := envAt 0 notif1)
    (f := fs0) (l := []) (unreached := []) (g := fs1) (rest := instants1) rfl rfl
    ⟨goodSource (by decide), by decide, fun _ _ h => ⟨0, by decide, by decide, offers h⟩⟩ rfl)
  have h2 := Network.step h1 (NetStep.fromSource (k := false) (j := 1) (depth := 5) (env := envAt 1 notifB)
    (f := fs1) (l := instants1 ++ []) (unreached := []) (g := runAtB.cur) (rest := runAtB.past) rfl rfl
    ⟨goodSource (by decide), by decide, fun _ _ h => ⟨1, by decide, by decide, offers h⟩⟩ rfl)
  have h3 := Network.step h2 (NetStep.fromParent (k := true) (p := false) (depth := 5) (env := envAt 2 notifB)
    (f := fs0) (l := []) (unreached := []) (g := fsHB)
    (rest := (process 5 confMax (envAt 2 notifB) (World.start fs0)).2.past) (x := runAtB.cur)
    (newer := []) (older := runAtB.past ++ (instants1 ++ [])) rfl rfl rfl (Nat.zero_le _)
    (fun etag n h => by rw [offersMax h]; exact ⟨1, by decide +kernel⟩) rfl)
  have e1 : put (put (fun _ => 0) false 0) false 1 = gotB := by
    funext l
    cases l <;> rfl
  have e2 : put (put (put (fun _ => [fs0]) false (fs1 :: (instants1 ++ []))) false
      (runAtB.cur :: (runAtB.past ++ (instants1 ++ [])))) true
      (fsHB :: ((process 5 confMax (envAt 2 notifB) (World.start fs0)).2.past ++ [])) = hostsB := by
    funext l
    cases l <;> rfl
  have e3 : put (fun _ => 0) true (runAtB.past ++ (instants1 ++ [])).length = lastReadB := by
    funext l
    cases l <;> rfl
  rw [← e1, ← e2, ← e3]
  exact h3

theorem runAtB_first : runAtB.past = runAtB.past.dropLast ++ [fs1] := by decide +kernel

end Demo

/-- **C89, why reads must not go back.** An installation that is offered, after what is in place now at the
one it gets its files from, what was in place there at an earlier instant (from a cache, or by one of several
servers) goes back to a session that the source has left. -/
theorem C89_refuted_when_reads_go_back : ∃ (i : Bool → Nat) (h : Bool → List FS) (last : Bool → Nat) (f x : FS)
    (l : List FS) (env : Env), MirrorNet twoHosts above limHosts base name ∧ FollowsRfc twoSessions ∧
      Network twoSessions twoHosts above base name i h last ∧ h true = f :: l ∧ x ∈ h false ∧
      (∀ etag n, Offers confMax env f etag n → Published conf name x n) ∧
      Published confMax name f (twoSessions 1) ∧
      Published confMax name (process 5 confMax env (World.start f)).2.cur (twoSessions 0) ∧
      ∀ m, 1 ≤ m → (twoSessions m).session ≠ (twoSessions 0).session := by
  refine ⟨gotB, hostsB, lastReadB, fsHB, fs1, _, envAt 3 notif1, netTwo, followsRfcTwo, networkB, rfl, ?_,
    fun etag n h => by rw [offersMax h]; exact published1,
    (⟨2, by decide +kernel⟩ : Published confMax name fsHB notifB),
    (⟨3, by decide +kernel⟩ : Published confMax name fsBack notif1), fun m hm => ?_⟩
  · show fs1 ∈ runAtB.cur :: (runAtB.past ++ (instants1 ++ []))
    rw [runAtB_first]; simp
  · match m, hm with
    | _ + 1, _ => exact (by decide : notifB.session ≠ notif1.session)

end

end KSync
