import Verif.Lemmas.Versions
import Verif.Props.Update

/-! # The concrete world: histories -/

set_option maxRecDepth 100000

namespace KSync.Demo

open KSync.Inst

/-- What the paths are used for. -/
def roles : List (Path × FileRole) :=
  [(["s1".toList], ⟨true, 1, 1, snap 1⟩), (["s2".toList], ⟨true, 1, 2, snap 2⟩),
   (["s3".toList], ⟨true, 1, 3, snap 3⟩), (["b1".toList], ⟨true, 2, 1, snap 9⟩),
   (["d2".toList], ⟨false, 1, 2, [2]⟩), (["d3".toList], ⟨false, 1, 3, [3]⟩)]

def life : SourceLife where
  role := fun p => (roles.lookup p).getD ⟨true, 0, 0, []⟩
  age := BitVec.toNat
  distinct := fun _ _ h => BitVec.eq_of_toNat_eq h

theorem pristine0 : Pristine conf name fs0 :=
  ⟨FS.wf_of_check (by decide), by decide, by decide, FS.noLinks_of_check (by decide)⟩

/-- A notification whose files are all used as in `life`. -/
def listsB (n : Notif) : Bool :=
  (match stripPrefix base n.snapUri with
    | some rel => decide (life.role (comps rel) = ⟨true, n.session, n.serial, n.snapHash⟩)
    | none => true) &&
  n.deltas.all (fun d => match stripPrefix base d.uri with
    | some rel => decide (life.role (comps rel) = ⟨false, n.session, d.serial, d.hash⟩)
    | none => true)

theorem lists_of_check {n : Notif} (h : listsB n = true) : life.Lists base n := by
  unfold listsB at h
  rw [Bool.and_eq_true] at h
  constructor
  · intro rel hrel
    have := h.1
    rw [stripPrefix_some.2 hrel] at this
    exact of_decide_eq_true this
  · intro d hd rel hrel
    have := List.all_eq_true.1 h.2 d hd
    rw [stripPrefix_some.2 hrel] at this
    exact of_decide_eq_true this

theorem brisk (t : Time) (n : Notif) : Brisk conf (envAt t n) := by
  intro i j
  show t < t + 10
  exact Int.lt_add_of_pos_right _ (by decide)

def p0 : Progress := ⟨0, 0, 0⟩
def p1 : Progress := ⟨1, 1, 1⟩
def p2 : Progress := ⟨1, 2, 2⟩

/-- Without a maximum, all deltas are let through. -/
theorem limited_all {n n' : Notif} (h : Limited conf n n') : n'.deltas.Perm n.deltas := by
  obtain ⟨ds, h1, rfl⟩ := h
  obtain ⟨older, a, _⟩ := h1.split
  have hl : ds.length = n.deltas.length := h1.length
  have h2 := a.length_eq
  rw [List.length_append, hl] at h2
  have : older = [] := List.eq_nil_of_length_eq_zero (by omega)
  rw [this] at a
  exact a

theorem goodRun0 : GoodRun life conf base name p0 p1 5 (envAt 0 notif1) fs0 where
  source := goodSource (by decide)
  later := Or.inl (by decide)
  lists := fun _ _ h => offers h ▸ lists_of_check (by decide)
  notBefore := fun _ _ h => offers h ▸ Or.inl (by decide)
  notAfter := by
    intro _ _ h
    rw [offers h]
    exact Or.inr ⟨by decide, by decide, fun k hk => Nat.lt_of_not_le (fun hle => hk (Or.inr ⟨rfl, hle⟩))⟩
  no304 := no304 _ _
  limit := nofun
  brisk := brisk _ _
  moves := Or.inl (by decide +kernel)

theorem goodRun1 (t : Time) (hm : (process 5 conf (envAt t notif2) (World.start fs1)).2.copied = []) :
    GoodRun life conf base name p1 p2 5 (envAt t notif2) fs1 where
  source := goodSource (by decide)
  later := Or.inr (by decide)
  lists := fun _ _ h => offers h ▸ lists_of_check (by decide)
  notBefore := by
    intro _ _ h
    rw [offers h]
    refine Or.inr ⟨by decide, by decide, fun d hd => ?_⟩
    rw [show notif2.deltas = [⟨2, uri "d2", [2]⟩] from rfl, List.mem_singleton] at hd
    rw [hd]; decide
  notAfter := by
    intro _ _ h
    rw [offers h]
    exact Or.inr ⟨by decide, by decide, fun k hk =>
      Nat.lt_of_not_le (fun hle => hk (Or.inl ⟨⟨2, uri "d2", [2]⟩, List.mem_singleton.2 rfl, hle⟩))⟩
  no304 := no304 _ _
  limit := nofun
  brisk := brisk _ _
  moves := Or.inl hm

theorem fs1_crash : fs1 ∈ (process 5 conf (envAt 0 notif1) (World.start fs0)).2.crashPoints :=
  List.mem_cons_self

theorem fs2_crash : fs2 ∈ (process 5 conf (envAt 1 notif2) (World.start fs1)).2.crashPoints :=
  List.mem_cons_self

/-- Two complete runs. -/
theorem lifetime1 : Lifetime life conf base name p1 fs1 :=
  History.run (start := fun _ => Pristine conf name) (i := p0) (History.start pristine0) goodRun0
    fs1_crash

theorem goodRun1' : GoodRun life conf base name p1 p2 5 (envAt 1 notif2) fs1 :=
  goodRun1 1 (by decide +kernel)

theorem lifetime2 : Lifetime life conf base name p2 fs2 := lifetime1.run goodRun1' fs2_crash

theorem reachesSerial1 : ReachesSerial notif1 := by unfold ReachesSerial; decide
theorem reachesSerial2 : ReachesSerial notif2 := by unfold ReachesSerial; decide

theorem orderly2 : OrderlyUpdates conf base name fs2 := by
  refine History.run (i := ()) (History.run (i := ()) (History.start pristine0)
    (env := envAt 0 notif1) ⟨goodSource (by decide), fun _ _ h => ?_⟩ fs1_crash)
    (env := envAt 1 notif2) ⟨goodSource (by decide), fun _ _ h => ?_⟩ fs2_crash
  · rw [offers h]; exact reachesSerial1
  · rw [offers h]; exact reachesSerial2

theorem updates2 : Updates conf base name fs2 :=
  History.run (i := ()) (History.run (i := ()) (History.start pristine0)
    (env := envAt 0 notif1) (goodSource (by decide)) fs1_crash)
    (env := envAt 1 notif2) (goodSource (by decide)) fs2_crash

theorem forward1 : ForwardRun BitVec.toNat conf base name ((0, 0) : Nat × Nat) ((1, 1) : Nat × Nat) 5
    (envAt 0 notif1) fs0 :=
  ⟨goodSource (by decide), Or.inl (by decide), fun _ _ h => offers h ▸ Or.inl (by decide),
    fun _ _ h => offers h ▸ Or.inr (by decide)⟩

theorem forward2 : ForwardRun BitVec.toNat conf base name ((1, 1) : Nat × Nat) ((1, 2) : Nat × Nat) 5
    (envAt 1 notif2) fs1 :=
  ⟨goodSource (by decide), Or.inr (by decide), fun _ _ h => offers h ▸ Or.inr (by decide),
    fun _ _ h => offers h ▸ Or.inr (by decide)⟩

/-- At most one delta. -/
def confMax : Config := { conf with rrdpMaxDeltas := some 1 }

/-- Three runs with that. -/
def fsM1 : FS := after confMax (envAt 0 notif1) fs0
def fsM2 : FS := after confMax (envAt 1 notif2) fsM1
def fsM3 : FS := after confMax (envAt 2 notif3) fsM2

theorem layoutMax : Layout confMax base name :=
  ⟨⟨by decide, by decide, by decide, by decide, by decide, by decide, by decide⟩,
    apart_of (by decide), apart_of (by decide), apart_of (by decide),
    apart_of (by decide), apart_of (by decide), apart_of (by decide), apart_of (by decide)⟩

theorem offersMax {t : Time} {n n' : Notif} {fs : FS} {etag : Option Str}
    (h : Offers confMax (envAt t n) fs etag n') : n' = n :=
  offers_only rfl (fun _ _ h => if_pos h) h

theorem goodSourceMax {t : Time} {n : Notif} {fs : FS} (h : goodNotifB base name n = true) :
    GoodSource confMax base name (envAt t n) fs := by
  intro etag n' hn
  rw [offersMax hn]
  exact goodNotif_of_check h

theorem reachesSerial3 : ReachesSerial notif3 := by unfold ReachesSerial; decide

theorem orderlyM3 : OrderlyUpdates confMax base name fsM3 := by
  have h0 : Pristine confMax name fs0 := ⟨pristine0.wf, pristine0.noState, pristine0.noNotification,
    pristine0.noLinks⟩
  refine History.run (i := ()) (History.run (i := ()) (History.run (i := ()) (History.start h0)
    (env := envAt 0 notif1) (f' := fsM1) (depth := 5) ⟨goodSourceMax (by decide), fun _ _ h => ?_⟩ List.mem_cons_self)
    (env := envAt 1 notif2) (f' := fsM2) (depth := 5) ⟨goodSourceMax (by decide), fun _ _ h => ?_⟩ List.mem_cons_self)
    (env := envAt 2 notif3) (f' := fsM3) (depth := 5) ⟨goodSourceMax (by decide), fun _ _ h => ?_⟩ List.mem_cons_self
  · rw [offersMax h]; exact reachesSerial1
  · rw [offersMax h]; exact reachesSerial2
  · rw [offersMax h]; exact reachesSerial3

end KSync.Demo
