import Verif.Lemmas.Shared
import Verif.Lemmas.Mirror
import Verif.Spec.Chain

/-! # Mirrors of mirrors (C82) -/

set_option linter.unusedSectionVars false
set_option linter.unusedVariables false

namespace KSync

variable [Ext]

theorem minLimit_ne {a b : Option Nat} (ha : a ≠ some 0) (hb : b ≠ some 0) : minLimit a b ≠ some 0 := by
  match a, b with
  | none, b => exact hb
  | some a, none => exact ha
  | some (a + 1), some (b + 1) =>
    intro h
    have h : min (a + 1) (b + 1) = 0 := Option.some.inj h
    omega
  | some 0, _ => exact absurd rfl ha
  | some (a + 1), some 0 => exact absurd rfl hb

/-- Limiting twice. -/
theorem IsLimit.trans {a b : Option Nat} {ds ds1 ds2 : List DeltaInfo} (ha : a ≠ some 0) (hb : b ≠ some 0)
    (h1 : IsLimit a ds ds1) (h2 : IsLimit b ds1.reverse ds2) : IsLimit (minLimit a b) ds ds2 := by
  obtain ⟨o1, p1, q1⟩ := h1.split
  obtain ⟨o2, p2, q2⟩ := h2.split
  have p2' : (o2 ++ ds2).Perm ds1 := p2.trans (List.reverse_perm _)
  refine ⟨⟨o1 ++ o2, ?_, ?_⟩, h2.contig, ?_⟩
  · rw [List.append_assoc]
    exact (p2'.append_left o1).trans p1
  · intro o ho d hd
    rcases List.mem_append.1 ho with ho | ho
    · exact q1 o ho d (p2'.subset (List.mem_append_right _ hd))
    · exact q2 o ho d hd
  · have l1 := h1.length
    have l2 := h2.length
    rw [List.length_reverse] at l2
    match a, b, ha, hb, l1, l2 with
    | none, none, _, _, l1, l2 => exact l2.trans l1
    | none, some (b + 1), _, _, l1, l2 =>
      have l1 : ds1.length = ds.length := l1
      have l2 : ds2.length = min (b + 1) ds1.length := l2
      show ds2.length = min (b + 1) ds.length
      omega
    | some (a + 1), none, _, _, l1, l2 =>
      have l1 : ds1.length = min (a + 1) ds.length := l1
      have l2 : ds2.length = ds1.length := l2
      show ds2.length = min (a + 1) ds.length
      omega
    | some (a + 1), some (b + 1), _, _, l1, l2 =>
      have l1 : ds1.length = min (a + 1) ds.length := l1
      have l2 : ds2.length = min (b + 1) ds1.length := l2
      have e : min (a + 1) (b + 1) = (min a b) + 1 := by omega
      unfold minLimit
      dsimp only
      rw [e]
      show ds2.length = min (min a b + 1) ds.length
      omega
    | some 0, _, ha, _, _, _ => exact absurd rfl ha
    | none, some 0, _, hb, _, _ => exact absurd rfl hb
    | some (_ + 1), some 0, _, hb, _, _ => exact absurd rfl hb

/-! ## The sequence of notifications with a limit -/

open Classical in
/-- The notification with the latest deltas only. -/
noncomputable def mirrored (l : Option Nat) (m : Notif) : Notif :=
  if h : ∃ ds, IsLimit l m.deltas ds then { m with deltas := h.choose.reverse } else m

theorem mirrored_eq {l : Option Nat} {m : Notif} {ds : List DeltaInfo} (hl : l ≠ some 0)
    (he : ReachesSerial m) (hu : ∀ d ∈ m.deltas, ∀ d' ∈ m.deltas, d.serial = d'.serial → d = d')
    (h : IsLimit l m.deltas ds) : mirrored l m = { m with deltas := ds.reverse } := by
  have hex : ∃ ds, IsLimit l m.deltas ds := ⟨ds, h⟩
  unfold mirrored
  rw [dif_pos hex, hex.choose_spec.unique h he hu hl]

theorem mirrored_spec {l : Option Nat} {m : Notif} (hl : l ≠ some 0) (hg : Gapless m.deltas) :
    ∃ ds, IsLimit l m.deltas ds ∧ mirrored l m = { m with deltas := ds.reverse } := by
  obtain ⟨ds, h⟩ := sortVerify_ok hl hg
  have hex : ∃ ds, IsLimit l m.deltas ds := ⟨ds, sortVerify_limit h⟩
  refine ⟨hex.choose, hex.choose_spec, ?_⟩
  unfold mirrored
  rw [dif_pos hex]

/-- A mirror is a source as RFC 8182 has it. -/
theorem FollowsRfc.mirrored {σ : Nat → Notif} {l : Option Nat} (hσ : FollowsRfc σ) (hl : l ≠ some 0)
    (hg : ∀ k, Gapless (σ k).deltas) : FollowsRfc (fun k => mirrored l (σ k)) := by
  have spec := fun k => mirrored_spec hl (hg k)
  refine ⟨fun k => ?_, fun k => ?_, fun k k' hk => ?_, fun k k' hk => ?_⟩
  · obtain ⟨ds, h1, h2⟩ := spec k
    rw [h2]
    refine ⟨fun d hd => (hσ.reaches k).1 d (h1.subset d (List.mem_reverse.1 hd)), fun hne => ?_⟩
    have hne : ds ≠ [] := fun h => hne (by rw [h]; rfl)
    obtain ⟨lo, e1, e2, e3⟩ := h1.ends (hσ.reaches k) hne
    have := List.length_pos_iff.2 hne
    obtain ⟨d, d1, d2⟩ := e3 (σ k).serial (by omega) (Nat.le_refl _)
    exact ⟨d, List.mem_reverse.2 d1, d2⟩
  · obtain ⟨ds, h1, h2⟩ := spec k
    rw [h2]
    exact fun d hd d' hd' => hσ.once k d (h1.subset d (List.mem_reverse.1 hd)) d'
      (h1.subset d' (List.mem_reverse.1 hd'))
  · obtain ⟨ds, _, h2⟩ := spec k
    obtain ⟨ds', _, h2'⟩ := spec k'
    rw [h2, h2']
    exact hσ.forward k k' hk
  · obtain ⟨ds, h1, h2⟩ := spec k
    obtain ⟨ds', h1', h2'⟩ := spec k'
    rw [h2, h2']
    intro hs d hd hle
    have hs : (σ k).session = (σ k').session := hs
    have hle : d.serial ≤ (σ k).serial := hle
    have hd : d ∈ ds' := List.mem_reverse.1 hd
    have hd0 := hσ.keeps k k' hk hs d (h1'.subset d hd) hle
    refine List.mem_reverse.2 (Classical.byContradiction (fun hn => ?_))
    have hfw := hσ.forward k k' hk hs
    obtain ⟨lo', e1', e2', _⟩ := h1'.ends (hσ.reaches k') (List.ne_nil_of_mem hd)
    have hlo := (e2' d hd).1
    by_cases hne : ds = []
    · subst hne
      have := h1.length
      have hpos := List.length_pos_of_mem hd0
      match l, hl, this with
      | none, _, this => exact absurd this.symm (Nat.ne_of_gt hpos)
      | some (m + 1), _, this =>
        have this : 0 = min (m + 1) (σ k).deltas.length := this
        omega
      | some 0, hl, _ => exact absurd rfl hl
    · obtain ⟨m, m1, m2, m3⟩ := h1.left_out (hσ.reaches k) (hσ.once k) hne hd0 hn
      subst m1
      match m, m2 with
      | m + 1, _ =>
        have := h1'.length
        have this : ds'.length = min (m + 1) (σ k').deltas.length := this
        omega

theorem mirrored_good {l : Option Nat} {m : Notif} {base name : Str} (h : GoodNotif base name m) :
    GoodNotif base name (mirrored l m) := by
  unfold mirrored
  split
  · rename_i hex
    intro r hr
    refine h r ?_
    unfold Notif.refs at *
    rcases List.mem_cons.1 hr with hr | hr
    · rw [hr]; exact List.mem_cons_self
    · obtain ⟨d, hd, rfl⟩ := List.mem_map.1 hr
      exact List.mem_cons_of_mem _ (List.mem_map.2 ⟨d, hex.choose_spec.subset d (List.mem_reverse.1 hd), rfl⟩)
  · exact h

/-! ## Reading from another installation -/

theorem ReadsFrom.offers {c p : Config} {base name : Str} {env : Env} {f : FS} {etag : Option Str} {n : Notif}
    (h : ReadsFrom c p base) (hu : NotifUri c base name) (ho : Offers c env f etag n) :
    ∃ b, f.read (p.notifPath name) = some b ∧ Ext.parseNotif b = some n := by
  obtain ⟨src, b, e, h1, h2, h3⟩ := ho
  unfold ReadsFrom at h
  cases h1 with
  | direct h1 => rw [h] at h1; cases h1
  | mappedUri _ _ _ _ h1 => rw [h] at h1; cases h1
  | mappedDir base' q rel h1 he =>
    rw [h] at h1
    cases h1
    rw [hu.eq] at he
    obtain rfl := List.append_cancel_left he
    rw [joinPath_plain hu.plain hu.nonempty hu.notDot hu.notDotDot] at h2
    exact ⟨b, h2.1, h3⟩

theorem FS.read_leaf_none {f : FS} {p : Path} (h : f.leaf p = none) : f.read p = none := by
  unfold FS.leaf at h
  unfold FS.read FS.resolve
  match hg : f.get p with
  | none => rfl
  | some .dir => simp
  | some (.link _) => rw [hg] at h; simp at h
  | some (.file _ _) => rw [hg] at h; simp at h

theorem FS.read_leaf_file {f : FS} {p : Path} {b : Bytes} {t : Time} (h : f.leaf p = some (.file b t)) :
    f.read p = some b := by
  refine FS.read_of_file ?_
  unfold FS.leaf at h
  split at h
  · cases h
  · simp [FS.file?, h]

section

variable {κ : Type} [DecidableEq κ] {σ : Nat → Notif} {cs : κ → Config} {parent : κ → Option κ}
  {lim : κ → Option Nat} {base name : Str}

/-- What an installation gets to see. -/
noncomputable def seen (σ : Nat → Notif) (parent : κ → Option κ) (lim : κ → Option Nat) (k : κ) : Nat → Notif :=
  match parent k with
  | none => σ
  | some p => fun m => mirrored (lim p) (σ m)

/-- What is needed of the installations and of the source. -/
structure Tree (σ : Nat → Notif) (cs : κ → Config) (parent : κ → Option κ) (lim : κ → Option Nat)
    (base name : Str) : Prop extends MirrorTree cs parent lim base name where
  irrefl : ∀ k, parent k ≠ some k
  posLim : ∀ k, lim k ≠ some 0
  rfc : FollowsRfc σ
  gapless : ∀ m, Gapless (σ m).deltas
  good : ∀ m, GoodNotif base name (σ m)

omit [DecidableEq κ] in
theorem MirrorTree.tree (h : MirrorTree cs parent lim base name) (hσ : FollowsRfc σ)
    (hg : ∀ m, Gapless (σ m).deltas) (hn : ∀ m, GoodNotif base name (σ m)) :
    Tree σ cs parent lim base name := by
  obtain ⟨rank, hrank⟩ := h.noCycle
  refine ⟨h, fun k hk => Nat.lt_irrefl _ (hrank k k hk), fun k => ?_, hσ, hg, hn⟩
  generalize hr : rank k = r
  induction r using Nat.strongRecOn generalizing k with
  | _ r ih =>
    cases hp : parent k with
    | none => rw [h.top k hp]; exact h.positive k
    | some p =>
      rw [h.below k p hp]
      exact minLimit_ne (ih _ (hr ▸ hrank k p hp) p rfl) (h.positive k)

theorem Tree.seen_rfc (h : Tree σ cs parent lim base name) (k : κ) : FollowsRfc (seen σ parent lim k) := by
  unfold seen
  split
  · exact h.rfc
  · exact h.rfc.mirrored (h.posLim _) h.gapless

theorem Tree.mirrors (h : Tree σ cs parent lim base name) {k : κ} {m : Nat} {n : Notif}
    (hm : Mirrors (cs k) (seen σ parent lim k m) n) : n = mirrored (lim k) (σ m) := by
  obtain ⟨ds, h1, rfl⟩ := hm
  unfold seen at *
  cases hp : parent k with
  | none =>
    rw [hp] at h1
    rw [mirrored_eq (h.posLim k) (h.rfc.reaches m) (h.rfc.once m) ((h.top k hp).symm ▸ h1)]
  | some p =>
    rw [hp] at h1
    dsimp only at *
    obtain ⟨ds1, a1, a2⟩ := mirrored_spec (h.posLim p) (h.gapless m)
    rw [a2] at h1 ⊢
    have := a1.trans (h.posLim p) (h.positive k) h1
    rw [← h.below k p hp] at this
    rw [mirrored_eq (h.posLim k) (h.rfc.reaches m) (h.rfc.once m) this]

/-- The invariant of a tree of mirrors. -/
structure TreeInv (σ : Nat → Notif) (cs : κ → Config) (parent : κ → Option κ) (lim : κ → Option Nat)
    (base name : Str) (idx : κ → Nat) (f : FS) : Prop where
  each : ∀ k, Invariant (cs k) base name (MirrorState (seen σ parent lim k) (cs k) base)
    (fun i n => ∃ m ≤ i, Mirrors (cs k) (seen σ parent lim k m) n) (idx k) f
  le : ∀ k p, parent k = some p → idx k ≤ idx p
  shown : ∀ k p, parent k = some p → (f.leaf ((cs p).notifPath name) = none ∨ ∃ m, idx k ≤ m ∧ m ≤ idx p ∧
    ∃ t, f.leaf ((cs p).notifPath name) = some (.file (Ext.writeNotif (mirrored (lim p) (σ m))) t))

omit [DecidableEq κ] in
theorem RootOf.isRoot {k r : κ} (h : RootOf parent k r) : parent r = none := by
  induction h with
  | here h => exact h
  | up _ _ ih => exact ih

omit [DecidableEq κ] in
theorem TreeInv.root (ht : Tree σ cs parent lim base name) {idx : κ → Nat} {f : FS}
    (h : TreeInv σ cs parent lim base name idx f) {k r : κ} (hr : RootOf parent k r) : idx k ≤ idx r := by
  induction hr with
  | here _ => exact Nat.le_refl _
  | up h1 _ ih => exact Nat.le_trans (h.le _ _ h1) ih

theorem TreeInv.step (ht : Tree σ cs parent lim base name) (ho : ∀ host, CleanObjects host) {idx : κ → Nat}
    {k : κ} {j depth : Nat} {env : Env} {f f' : FS} (h : TreeInv σ cs parent lim base name idx f)
    (hr : FollowingRun (seen σ parent lim k) (cs k) base name (idx k) j depth env f)
    (hj : ∀ p, parent k = some p → j ≤ idx p ∧ (f.leaf ((cs p).notifPath name) = none ∨ ∃ m, j ≤ m ∧ m ≤ idx p ∧
      ∃ t, f.leaf ((cs p).notifPath name) = some (.file (Ext.writeNotif (mirrored (lim p) (σ m))) t)))
    (hf : f' ∈ (process depth (cs k) env (World.start f)).2.crashPoints) :
    TreeInv σ cs parent lim base name (fun l => if l = k then j else idx l) f' := by
  have hc := (h.each k).conds (ht.layout k) (fun _ => ho _) hr.source
  have hm : ∀ l, l ≠ k → BetweenRuns (cs l) f f' := fun l hl =>
    run_meanwhile (ht.layout k) hc (ht.separate k l (Ne.symm hl)) hf
  refine ⟨fun l => ?_, fun l p hp => ?_, fun l p hp => ?_⟩
  · by_cases hl : l = k
    · subst hl
      rw [if_pos rfl]
      exact (h.each l).run (ht.layout l) (fun _ => ho _) (following_inductive (ht.seen_rfc l) (ht.layout l)) hr hf
    · rw [if_neg hl]
      exact (h.each l).meanwhile (ht.layout l) (hm l hl)
  · by_cases hl : l = k
    · subst hl
      have hpl : p ≠ l := fun e => ht.irrefl l (e ▸ hp)
      rw [if_pos rfl, if_neg hpl]
      exact (hj p hp).1
    · rw [if_neg hl]
      by_cases hpk : p = k
      · subst hpk
        rw [if_pos rfl]
        exact Nat.le_trans (h.le l p hp) hr.later
      · rw [if_neg hpk]
        exact h.le l p hp
  · by_cases hl : l = k
    · subst hl
      have hpl : p ≠ l := fun e => ht.irrefl l (e ▸ hp)
      rw [if_pos rfl, if_neg hpl, (hm p hpl).notif (ht.layout p)]
      exact (hj p hp).2
    · rw [if_neg hl]
      by_cases hpk : p = k
      · subst hpk
        rw [if_pos rfl]
        rcases following_run (ht.seen_rfc p) (ht.layout p) (fun _ => ho _) (h.each p) hr hf with
          h1 | ⟨m, m1, m2, n, t, h1, h2⟩
        · rw [h1]
          refine (h.shown l p hp).imp id ?_
          rintro ⟨m, m1, m2, m3⟩
          exact ⟨m, m1, Nat.le_trans m2 hr.later, m3⟩
        · rw [ht.mirrors h1] at h2
          exact Or.inr ⟨m, Nat.le_trans (h.le l p hp) m1, m2, t, h2⟩
      · rw [if_neg hpk, (hm p hpk).notif (ht.layout p)]
        exact h.shown l p hp

theorem TreeInv.child (ht : Tree σ cs parent lim base name) {idx : κ → Nat} {k p : κ} {depth : Nat}
    {env : Env} {f : FS} (h : TreeInv σ cs parent lim base name idx f) (hp : parent k = some p) :
    ∃ j, FollowingRun (seen σ parent lim k) (cs k) base name (idx k) j depth env f ∧
      j ≤ idx p ∧ (f.leaf ((cs p).notifPath name) = none ∨ ∃ m, j ≤ m ∧ m ≤ idx p ∧
      ∃ t, f.leaf ((cs p).notifPath name) = some (.file (Ext.writeNotif (mirrored (lim p) (σ m))) t)) := by
  rcases h.shown k p hp with h1 | ⟨m, m1, m2, t, h1⟩
  · refine ⟨idx k, ⟨fun etag n hn => ?_, Nat.le_refl _, fun etag n hn => ?_⟩, h.le k p hp, Or.inl h1⟩ <;>
    · obtain ⟨b, hb, _⟩ := (ht.reads k p hp).offers (ht.layout k).uri hn
      rw [FS.read_leaf_none h1] at hb
      cases hb
  · have key : ∀ etag n, Offers (cs k) env f etag n → n = mirrored (lim p) (σ m) := by
      intro etag n hn
      obtain ⟨b, hb, hb'⟩ := (ht.reads k p hp).offers (ht.layout k).uri hn
      rw [FS.read_leaf_file h1] at hb
      cases hb
      rw [Ext.parse_write] at hb'
      exact (Option.some.inj hb').symm
    refine ⟨m, ⟨fun etag n hn => ?_, m1, fun etag n hn => ⟨m, m1, Nat.le_refl _, ?_⟩⟩, m2,
      Or.inr ⟨m, Nat.le_refl _, m2, t, h1⟩⟩
    · rw [key etag n hn]
      exact mirrored_good (ht.good m)
    · rw [key etag n hn]
      unfold seen
      rw [hp]

/-- A child that completes has what its parent has. -/
theorem TreeInv.done (ht : Tree σ cs parent lim base name) (ho : ∀ host, CleanObjects host) {idx : κ → Nat}
    {k p : κ} {depth : Nat} {env : Env} {f : FS} {w' : World} {n : Notif} {t : Time}
    (h : TreeInv σ cs parent lim base name idx f) (hp : parent k = some p)
    (hn : f.leaf ((cs p).notifPath name) = some (.file (Ext.writeNotif n) t))
    (hok : process depth (cs k) env (World.start f) = (.ok (), w')) (hch : w'.crashPoints ≠ [f]) :
    ∃ n' t', Mirrors (cs k) n n' ∧
      w'.cur.leaf ((cs k).notifPath name) = some (.file (Ext.writeNotif n') t') := by
  rcases h.shown k p hp with h1 | ⟨m, m1, m2, t, h1⟩
  · rw [hn] at h1; cases h1
  · rw [hn] at h1
    injection h1 with h1
    injection h1 with h1 _
    obtain rfl := writeNotif_inj h1
    have key : ∀ etag n, Offers (cs k) env f etag n → n = mirrored (lim p) (σ m) := by
      intro etag n ho
      obtain ⟨b, hb, hb'⟩ := (ht.reads k p hp).offers (ht.layout k).uri ho
      rw [FS.read_leaf_file hn] at hb
      cases hb
      rw [Ext.parse_write] at hb'
      exact (Option.some.inj hb').symm
    have e : seen σ parent lim k m = mirrored (lim p) (σ m) := by
      unfold seen
      rw [hp]
    have hr : FollowingRun (seen σ parent lim k) (cs k) base name m m depth env f :=
      ⟨fun etag n hn => key etag n hn ▸ mirrored_good (ht.good m), Nat.le_refl _,
        fun etag n hn => ⟨m, Nat.le_refl _, Nat.le_refl _, (key etag n hn).trans e.symm⟩⟩
    have := following_done (ht.seen_rfc k) (ht.layout k) (fun _ => ho _) (mirrored_later m1 (h.each k)) hr hok hch
    rw [e] at this
    exact this

theorem Shared.tree {i : κ → Nat} {f : FS} (ht : Tree σ cs parent lim base name)
    (ho : ∀ host, CleanObjects host)
    (h : Shared cs (fun k _ => Pristine (cs k) name) (TreeRun σ cs parent base name) i f) :
    ∃ idx, (∀ k, parent k = none → idx k = i k) ∧ TreeInv σ cs parent lim base name idx f := by
  induction h with
  | @start i f h =>
    refine ⟨fun k => match parent k with | none => i k | some _ => 0, fun k hk => by simp [hk], ?_, ?_, ?_⟩
    · intro k
      exact .start (h k)
    · intro k p hp
      simp [hp]
    · intro k p hp
      exact Or.inl (h p).noNotification
  | @run k c' i j depth env f f' _ _ h2 h3 ih =>
    obtain ⟨idx, e, hinv⟩ := ih
    obtain ⟨rfl, h2⟩ := h2
    cases hp : parent k with
    | none =>
      have hr := h2 hp
      rw [← e k hp] at hr
      refine ⟨_, ?_, hinv.step ht ho (j := j) ?_ (fun p hq => by rw [hp] at hq; cases hq) h3⟩
      · intro l hl
        dsimp only
        rw [e l hl]
      · unfold seen
        rw [hp]
        exact hr
    | some p =>
      obtain ⟨m, a1, a2, a3⟩ := hinv.child ht (depth := depth) (env := env) hp
      refine ⟨_, ?_, hinv.step ht ho a1 (fun q hq => ?_) h3⟩
      · intro l hl
        have : l ≠ k := fun e => by rw [e, hp] at hl; cases hl
        dsimp only
        rw [if_neg this, if_neg this, e l hl]
      · rw [hp] at hq
        cases hq
        exact ⟨a2, a3⟩
  | meanwhile _ h1 ih =>
    obtain ⟨idx, e, hinv⟩ := ih
    refine ⟨idx, e, fun k => (hinv.each k).meanwhile (ht.layout k) (h1 k), hinv.le, fun k p hp => ?_⟩
    rw [(h1 p).notif (ht.layout p)]
    exact hinv.shown k p hp

end

end KSync
