import Verif.Examples.Conds
import Verif.Lemmas.Outcome

/-!
# What an update does (properties C03, C04, C12, C13, C14, C15, C21, C51)

The vocabulary is in `Verif/Spec/Run.lean`.
-/

set_option linter.unusedVariables false

namespace KSync

/-- The source has nothing new: it offers no version newer than the one in `s`, or says
'not modified'. -/
def NothingNew [Ext] (c : Config) (env : Env) (fs : FS) (s : RrdpState) : Prop :=
  (∃ n, Offers c env fs s.source.etag n ∧ ¬ NewVersion s n) ∨
  ∃ u m tick, c.Locates c.notificationUri (.uri u m) ∧
    env.http tick ⟨u, m, s.source.etag⟩ = .notModified

/-- **C04.** When the search for an update reports changes, then a notification was offered
by the source, and the staging directory has - whatever it contained before - the announced
snapshot and every announced delta that is not held already, each with the announced hash. -/
theorem C04_staged_has_hash [Ext] (c : Config) (env : Env) (fs : FS) (base name : Str)
    (s : RrdpState) (st : StagedChanges) (w' : World) (hu : NotifUri c base name)
    (hs : Sane c base name s) (hg : GoodSource c base name env fs)
    (h1 : ∀ etag n, Offers c env fs etag n → OneHashPerPath base n)
    (h0 : No304 env) (hlk : NoLinks fs c.stagingDir)
    (h : s.updateStaged c env (World.start fs) = (.ok (some st), w')) :
    ∃ n n1, Offers c env fs s.source.etag n ∧ Limited c n n1 ∧ NewVersion s n1 ∧
      (∃ rel, n1.snapUri = base ++ rel ∧
        FileHas w'.cur (c.stagingDir ++ comps rel) n1.snapHash) ∧
      ∀ d ∈ n1.deltas, (∃ rel, d.uri = base ++ rel ∧
          FileHas w'.cur (c.stagingDir ++ comps rel) d.hash) ∨
        (SameSession s n1 ∧ ∃ x, s.deltas.head? = some x ∧ d.serial ≤ x.serial) := by
  obtain ⟨n, etag, ds, w5, h9, h10, h11, h12, h13, h14⟩ := updateStaged_some h
  have hb : s.mappings.baseUri = base := by rw [hs.mappings]
  rw [hb] at h12
  obtain ⟨_, h15⟩ := stage_staged h0 hu hs ((hg _ _ h9).limited h10)
    ((h1 _ _ h9).limited h10) (by rw [h13.cur]; exact hlk) h14
  obtain ⟨hr, hnv⟩ := decide_reset h11
  refine ⟨n, { n with deltas := ds }, h9, ⟨ds, sortVerify_limit h10, rfl⟩, hnv,
    ⟨_, h12.snapUri, h15 _ h12.snapRef⟩, fun d hd => ?_⟩
  by_cases hn : s.deltaIsNew st.sessionReset d.serial = true
  · obtain ⟨rel, h2, h3⟩ := h12.newRef hd hn
    exact Or.inl ⟨rel, h2, h15 _ h3⟩
  · right
    unfold RrdpState.deltaIsNew at hn
    simp only [Bool.or_eq_true, not_or, Bool.not_eq_true] at hn
    refine ⟨hr.1 hn.1, ?_⟩
    match hh : s.deltas.head? with
    | none => rw [hh] at hn; simp at hn
    | some x => rw [hh] at hn; simp at hn; exact ⟨x, rfl, hn.2⟩

/-- **C03, notification.** A run that ends successfully found nothing new (and then changed
nothing), or the notification file is the one for the version offered by the source: same
session, serial, snapshot URI and hash, and as deltas the source's (limited) new ones and
those held before that are not older than the source's lowest. -/
theorem C03_published_version [Ext] (depth : Nat) (c : Config) (env : Env) (fs : FS)
    (base name : Str) (w' : World) (hl : Layout c base name) (hc : RunConds c base name env fs)
    (ho : OrderedState c base fs) (h : process depth c env (World.start fs) = (.ok (), w')) :
    ∃ s, InUse c base name fs s ∧
      ((w'.crashPoints = [fs] ∧ NothingNew c env fs s) ∨
      ∃ n n1 n', Offers c env fs s.source.etag n ∧ Limited c n n1 ∧ NewVersion s n1 ∧
        Update base s n1 n' ∧
        ∃ t, w'.cur.get (c.notifPath name) = some (.file (Ext.writeNotif n') t)) := by
  rcases run_ok (w := World.start fs) hc h with ⟨h1, s, h2, h3⟩ | ⟨s, st, w1, n1, h1, h2⟩
  · refine ⟨s, h2, Or.inl ⟨?_, h3⟩⟩
    unfold World.crashPoints; rw [h1.1, h1.2]; rfl
  · obtain ⟨s0, n0, a1, ⟨v, rfl⟩, a3, a4, a5, a6⟩ := h1.update hc.uri ho
    obtain ⟨wa, wb, wc, s1, s2, kept, gone, new, hd⟩ := publish_done hl (h1.pubPre hc) h1.wf h2
    exact ⟨s0, a1, Or.inr ⟨n0, n1, _, a3, a4, a5, a6, hd.notif⟩⟩

/-- **C03, files (partial).** After a successful update the announced snapshot and all new
deltas are in the RRDP directory with the announced hash - except, and this is what is
missing from the claim, a file whose path was in use or scheduled for removal before:
such a file may be removed by the cleanup at the end of the update (see
`C03_refuted_for_reused_path`). -/
theorem C03_files_published_partial [Ext] (depth : Nat) (c : Config) (env : Env) (fs : FS)
    (base name : Str) (w' : World) (hl : Layout c base name) (hc : RunConds c base name env fs)
    (ho : OrderedState c base fs) (h0 : No304 env)
    (h1 : ∀ etag n, Offers c env fs etag n → OneHashPerPath base n)
    (hlk : NoLinks fs c.stagingDir)
    (h : process depth c env (World.start fs) = (.ok (), w')) :
    ∃ s, InUse c base name fs s ∧
      ((w'.crashPoints = [fs] ∧ NothingNew c env fs s) ∨
      ∃ n n1 n', Offers c env fs s.source.etag n ∧ Limited c n n1 ∧ NewVersion s n1 ∧
        Update base s n1 n' ∧
        (∃ t, w'.cur.get (c.notifPath name) = some (.file (Ext.writeNotif n') t)) ∧
        (∃ rel, n1.snapUri = base ++ rel ∧ (FileHas w'.cur (c.pubPath rel) n1.snapHash ∨
          Removable c env s (c.pubPath rel))) ∧
        ∀ d ∈ n1.deltas, NewDelta s n1 d.serial → ∃ rel, d.uri = base ++ rel ∧
          (FileHas w'.cur (c.pubPath rel) d.hash ∨ Removable c env s (c.pubPath rel))) := by
  rcases run_ok (w := World.start fs) hc h with ⟨k1, s, k2, k3⟩ | ⟨s, st, w1, n1, k1, k2⟩
  · refine ⟨s, k2, Or.inl ⟨?_, k3⟩⟩
    unfold World.crashPoints; rw [k1.1, k1.2]; rfl
  · obtain ⟨s0, n0, a1, ⟨v, rfl⟩, a3, a4, a5, a6⟩ := k1.update hc.uri ho
    have hp := published_or hl hc h0 h1 hlk k1 k2
    have hrem : ∀ {q}, Removable c env { s0 with validator := v } q → Removable c env s0 q :=
      fun h => Removable.congr (s := { s0 with validator := v }) rfl rfl rfl h
    obtain ⟨wa, wb, wc, s1, s2, kept, gone, new, hd⟩ := publish_done hl (k1.pubPre hc) k1.wf k2
    refine ⟨s0, a1, Or.inr ⟨n0, n1, _, a3, a4, a5, a6, hd.notif, ⟨_, k1.staged.snapUri, ?_⟩,
      fun d hd hn => ?_⟩⟩
    · exact (hp _ k1.staged.snapRef).imp id hrem
    · have hr := (decide_reset k1.prepared.decided).1
      have hnew := (deltaIsNew_iff (s := { s0 with validator := v }) (n := n1) (k := d.serial) hr
        (a1.ordered ho)).2 hn
      obtain ⟨rel, b1, b2⟩ := k1.staged.newRef hd hnew
      exact ⟨rel, b1, (hp _ b2).imp id hrem⟩

/-- The path is new: neither in use nor scheduled for removal. -/
def FreshPath (c : Config) (s : RrdpState) (q : Path) : Prop :=
  ¬ s.Refers c q ∧ ∀ d ∈ s.deprecated, d.path ≠ q

theorem FreshPath.not_removable {c : Config} {env : Env} {s : RrdpState} {q : Path}
    (h : FreshPath c s q) : ¬ Removable c env s q := by
  rintro ⟨since, k, _, h1 | ⟨h1, _⟩⟩
  · exact h.2 _ h1 rfl
  · exact h.1 h1

/-- The snapshot and the new deltas that `n` announces have new paths. -/
def FreshFiles (c : Config) (base : Str) (s : RrdpState) (n : Notif) : Prop :=
  (∀ rel, n.snapUri = base ++ rel → FreshPath c s (c.pubPath rel)) ∧
  ∀ d ∈ n.deltas, NewDelta s n d.serial → ∀ rel, d.uri = base ++ rel → FreshPath c s (c.pubPath rel)

/-- **C03, everything.** If what the source newly announces has new paths, then after a
successful update the notification is the one for the announced version and the snapshot
and all new deltas are in the RRDP directory with the announced hash. -/
theorem C03_update_complete [Ext] (depth : Nat) (c : Config) (env : Env) (fs : FS)
    (base name : Str) (w' : World) (hl : Layout c base name) (hc : RunConds c base name env fs)
    (ho : OrderedState c base fs) (h0 : No304 env)
    (h1 : ∀ etag n, Offers c env fs etag n → OneHashPerPath base n)
    (hlk : NoLinks fs c.stagingDir)
    (hfr : ∀ s n n1, InUse c base name fs s → Offers c env fs s.source.etag n → Limited c n n1 →
      NewVersion s n1 → FreshFiles c base s n1)
    (h : process depth c env (World.start fs) = (.ok (), w')) :
    ∃ s, InUse c base name fs s ∧
      ((w'.crashPoints = [fs] ∧ NothingNew c env fs s) ∨
      ∃ n n1 n', Offers c env fs s.source.etag n ∧ Limited c n n1 ∧ NewVersion s n1 ∧
        Update base s n1 n' ∧
        (∃ t, w'.cur.get (c.notifPath name) = some (.file (Ext.writeNotif n') t)) ∧
        (∃ rel, n1.snapUri = base ++ rel ∧ FileHas w'.cur (c.pubPath rel) n1.snapHash) ∧
        ∀ d ∈ n1.deltas, NewDelta s n1 d.serial → ∃ rel, d.uri = base ++ rel ∧
          FileHas w'.cur (c.pubPath rel) d.hash) := by
  obtain ⟨s, a1, a2⟩ := C03_files_published_partial depth c env fs base name w' hl hc ho h0 h1 hlk h
  refine ⟨s, a1, a2.imp id ?_⟩
  rintro ⟨n, n1, n', b1, b2, b3, b4, b5, ⟨rel, b6, b7⟩, b8⟩
  have hf := hfr s n n1 a1 b1 b2 b3
  refine ⟨n, n1, n', b1, b2, b3, b4, b5, ⟨rel, b6, b7.resolve_right (hf.1 rel b6).not_removable⟩,
    fun d hd hn => ?_⟩
  obtain ⟨rel', c1, c2⟩ := b8 d hd hn
  exact ⟨rel', c1, c2.resolve_right (hf.2 d hd hn rel' c1).not_removable⟩

/-- **C12, deltas.** After an update to another session the published deltas are exactly
those of the (limited) new notification. -/
theorem C12_session_change_deltas [Ext] (depth : Nat) (c : Config) (env : Env) (fs : FS)
    (base name : Str) (w' : World) (s : RrdpState) (hl : Layout c base name)
    (hc : RunConds c base name env fs) (ho : OrderedState c base fs) (hs : Recorded c fs s)
    (hch : ∀ n, Offers c env fs s.source.etag n → ¬ SameSession s n)
    (h304 : ∀ u m tick, c.Locates c.notificationUri (.uri u m) →
      env.http tick ⟨u, m, s.source.etag⟩ ≠ .notModified)
    (h : process depth c env (World.start fs) = (.ok (), w')) :
    ∃ n n1 n' t, Offers c env fs s.source.etag n ∧ Limited c n n1 ∧
      w'.cur.get (c.notifPath name) = some (.file (Ext.writeNotif n') t) ∧
      (∀ x, x ∈ n'.deltas ↔ x ∈ n1.deltas) ∧ n'.deltas.length = n1.deltas.length := by
  obtain ⟨s0, a1, a2⟩ := C03_published_version depth c env fs base name w' hl hc ho h
  have : s0 = s := by
    rcases a1 with a1 | ⟨a1, _⟩
    · exact a1.unique hs
    · obtain ⟨b, b1, _⟩ := hs
      rw [exists_of_read b1] at a1; cases a1
  subst this
  rcases a2 with ⟨_, a2⟩ | ⟨n, n1, n', b1, b2, b3, b4, t, b5⟩
  · exfalso
    rcases a2 with ⟨n, c1, c2⟩ | ⟨u, m, tick, c1, c2⟩
    · refine hch n c1 (fun x hx => ?_)
      unfold NewVersion at c2
      simp only [Classical.not_forall] at c2
      obtain ⟨y, hy, c3⟩ := c2
      rw [hx] at hy; cases hy
      simp only [not_or, Classical.not_not] at c3
      exact c3.1
    · exact h304 u m tick c1 c2
  · obtain ⟨ds, b6, rfl⟩ := b2
    have hns : ¬ SameSession s0 { n with deltas := ds } := fun h => hch n b1 h
    have hmem : ∀ x, x ∈ n'.deltas ↔ x ∈ ds := by
      intro x
      rw [b4.deltas x]
      constructor
      · rintro (⟨d1, _⟩ | ⟨_, d2, _⟩)
        · exact d1
        · exact absurd d2 hns
      · exact fun hx => Or.inl ⟨hx, Or.inl hns⟩
    refine ⟨n, _, n', t, b1, ⟨ds, b6, rfl⟩, b5, hmem, ?_⟩
    have n1 : n'.deltas.Nodup := b4.order.imp (fun {a b} hab he => by rw [he] at hab; omega)
    have n2 : ds.Nodup := b6.ascending.imp (fun {a b} hab he => by rw [he] at hab; omega)
    exact ((List.perm_ext_iff_of_nodup n1 n2).2 hmem).length_eq

/-- `q` was scheduled for removal at a reading of the clock before number `k`, and it still is
scheduled in `s'` unless it was due at `now` and is gone from `fs'`. -/
def Scheduled (c : Config) (env : Env) (s' : RrdpState) (fs' : FS) (k : Nat) (now : Time)
    (q : Path) : Prop :=
  ∃ d : DeprecatedFile, d.path = q ∧ (∃ i, i < k ∧ d.since = env.clock i) ∧
    (d ∈ s'.deprecated ∨ (d.since + c.cleanupAfter ≤ now ∧ fs'.leaf q = none))

/-- What a cleanup at time `now` makes of what was scheduled before. -/
structure CleanedUp (c : Config) (now : Time) (s s' : RrdpState) (fs' : FS) : Prop where
  due : ∀ d ∈ s.deprecated, d.since + c.cleanupAfter ≤ now →
    fs'.leaf d.path = none ∧ d ∉ s'.deprecated
  notDue : ∀ d ∈ s.deprecated, now < d.since + c.cleanupAfter → d ∈ s'.deprecated
  rest : ∀ d ∈ s'.deprecated, now < d.since + c.cleanupAfter

/-- The cleanup in a successful publication (used for C12 and C15). -/
theorem cleanup_of_publish [Ext] {depth : Nat} {c : Config} {base name : Str} {env : Env}
    {fs : FS} {w1 w' : World} {s : RrdpState} {v : Option Validator} {st : StagedChanges}
    {n1 : Notif} (hl : Layout c base name) (hc : RunConds c base name env fs)
    (hlk : NoLinks fs c.stagingDir) (hlk' : NoLinks fs c.rrdpDir)
    (h1 : AtPublish depth c base name env (World.start fs) { s with validator := v } st w1 n1)
    (h2 : publish c { s with validator := v } st env w1 = (.ok (), w')) :
    ∃ s' k now, now = env.clock k ∧ Recorded c w'.cur s' ∧ CleanedUp c now s s' w'.cur ∧
      (∀ x, s.snapshot = some x → Scheduled c env s' w'.cur k now (c.pubPath x.relPath)) ∧
      ∀ x ∈ s.deltas, x ∉ s'.deltas ∨ st.sessionReset = true →
        Scheduled c env s' w'.cur k now (c.pubPath x.relPath) := by
  obtain ⟨wa, wb, wc, s1, s2, kept, gone, new, hd⟩ := publish_done hl (h1.pubPre hc) h1.wf h2
  obtain ⟨now, w4, b1, b2, b3, b4, b5⟩ := clean_ok hd.cleaned
  obtain ⟨t, hst⟩ := hd.state
  -- no links in the way
  have l1 : NoLinks w1.cur c.stagingDir :=
    prepare_linkless (base := base) (name := name) _ hc h1.prep hlk
  have l2 : NoLinks w1.cur c.rrdpDir := by
    intro q hq
    rw [FS.link?_of_leaf ((h1.within.frame hc.wf) q (hl.rrdpStaging.not_both hq))]
    exact hlk' q hq
  have l3 : NoLinks wa.cur c.rrdpDir := by
    have := moveStaged_moveRel (name := name) hl.rrdpStaging h1.goodSnap h1.goodDeltas env w1
    rw [hd.moved] at this
    exact ((this.mono (fun f f' h => h.2)).ends (fun _ h1 h2 => ⟨h1, h2⟩)
      (fun _ _ _ h1 h2 a b => h2 (h1 a b).1 (h1 a b).2) l1 l2).2
  have hs1 := absorb_sane hd.absorbed h1.sane h1.goodSnap h1.goodDeltas
  have hdata : ∀ d ∈ s1.deprecated, DataPath c name d.path := by
    intro d hdm
    obtain ⟨rel, g, hp⟩ := hs1.deprecated d hdm
    exact g.dataPath (hp ▸ List.prefix_refl _)
  have gone1 : ∀ d ∈ s1.deprecated, d.since + c.cleanupAfter ≤ now → w'.cur.leaf d.path = none := by
    intro d hdm hdue
    rw [hd.data _ (hdata d hdm)]
    have := cleanFiles_ok (w := w4) (fun x hx => by
      have hx' := (List.mem_filter.1 hx).1
      rw [b2.cur, hd.same.cur]
      exact l3 _ (hdata x hx').below) b5 d (List.mem_filter.2 ⟨hdm, by
        rw [decide_eq_true_eq]; exact due_iff.2 hdue⟩)
    unfold FS.leaf; rw [this]
  have fate : ∀ d ∈ s1.deprecated, d ∈ s2.deprecated ∨
      (d.since + c.cleanupAfter ≤ now ∧ w'.cur.leaf d.path = none) := by
    intro d hdm
    by_cases hdue : d.since + c.cleanupAfter ≤ now
    · exact Or.inr ⟨hdue, gone1 d hdm hdue⟩
    · left
      rw [b4]
      exact List.mem_filter.2 ⟨hdm, by
        rw [decide_eq_true_eq]; exact not_due_iff.2 (Int.not_le.1 hdue)⟩
  have hdep := hd.book.deprecated
  have hnotdue : ∀ d ∈ s2.deprecated, now < d.since + c.cleanupAfter := by
    intro d hdm
    rw [b4] at hdm
    have := (List.mem_filter.1 hdm).2
    rw [decide_eq_true_eq] at this
    exact not_due_iff.1 this
  have newOne : ∀ p, p ∈ new.map (·.path) → Scheduled c env s2.persisted w'.cur wb.tick now p := by
    intro p hp
    obtain ⟨d, d1, d2⟩ := List.mem_map.1 hp
    obtain ⟨i, _, i1, i2⟩ := hd.book.newSince d d1
    refine ⟨d, d2, ⟨i, i1, i2⟩, ?_⟩
    rw [← d2]
    exact fate d (by rw [hdep]; exact List.mem_append.2 (Or.inr d1))
  refine ⟨s2.persisted, wb.tick, now, b1, recorded_of_get hst, ⟨?_, ?_, hnotdue⟩, ?_, ?_⟩
  · intro d hdm hdue
    refine ⟨gone1 d (by rw [hdep]; exact List.mem_append.2 (Or.inl hdm)) hdue, fun hh => ?_⟩
    exact Int.not_le.2 (hnotdue d hh) hdue
  · intro d hdm hdue
    rcases fate d (by rw [hdep]; exact List.mem_append.2 (Or.inl hdm)) with h | h
    · exact h
    · exact absurd h.1 (Int.not_le.2 hdue)
  · intro x hx
    refine newOne _ ?_
    rw [hd.book.newPaths]
    refine List.mem_append.2 (Or.inl ?_)
    have hg : GoodRel name x.relPath := h1.sane.snapshot x hx
    unfold RrdpState.snapshotPath
    rw [show ({ s with validator := v } : RrdpState).snapshot = some x from hx]
    simp only [Option.map_some, Option.toList_some, List.mem_singleton]
    unfold SourceMappings.path Config.pubPath
    rw [h1.sane.mappings, joinPath_clean hg.clean]
  · intro x hx hnx
    refine newOne _ ?_
    rw [hd.book.newPaths]
    refine List.mem_append.2 (Or.inr (List.mem_map.2 ⟨x, ?_, ?_⟩))
    · have : x ∈ kept ++ gone := by rw [← hd.book.split]; exact hx
      rcases List.mem_append.1 this with hk | hk
      · exfalso
        rcases hnx with hnx | hnx
        · apply hnx
          show x ∈ s2.deltas
          rw [b4]
          show x ∈ s1.deltas
          rw [hd.book.deltas]
          exact mem_mergeDeltas.2 (Or.inl hk)
        · rw [hd.book.reset hnx] at hk; cases hk
      · exact hk
    · have hg : GoodRel name x.relPath := h1.sane.deltas x hx
      unfold SourceMappings.path Config.pubPath
      rw [h1.sane.mappings, joinPath_clean hg.clean]

/-- **C15.** After a successful update there is an instant `now` (a reading of the clock
during the run) such that what had been scheduled and is due is gone from disk and no longer
scheduled, what had been scheduled and is not due still is scheduled, nothing due remains
scheduled; and the replaced snapshot and each delta no longer held has been scheduled. -/
theorem C15_cleanup [Ext] (depth : Nat) (c : Config) (env : Env) (fs : FS)
    (base name : Str) (w' : World) (hl : Layout c base name) (hc : RunConds c base name env fs)
    (hlk : NoLinks fs c.stagingDir) (hlk' : NoLinks fs c.rrdpDir)
    (h : process depth c env (World.start fs) = (.ok (), w')) :
    ∃ s, InUse c base name fs s ∧
      ((w'.crashPoints = [fs] ∧ NothingNew c env fs s) ∨
      ∃ s' k now, now = env.clock k ∧ Recorded c w'.cur s' ∧ CleanedUp c now s s' w'.cur ∧
        (∀ x, s.snapshot = some x → Scheduled c env s' w'.cur k now (c.pubPath x.relPath)) ∧
        ∀ x ∈ s.deltas, x ∉ s'.deltas →
          Scheduled c env s' w'.cur k now (c.pubPath x.relPath)) := by
  rcases run_ok (w := World.start fs) hc h with ⟨h1, s, h2, h3⟩ | ⟨s, st, w1, n1, h1, h2⟩
  · refine ⟨s, h2, Or.inl ⟨?_, h3⟩⟩
    unfold World.crashPoints; rw [h1.1, h1.2]; rfl
  · obtain ⟨s0, n0, a1, ⟨v, rfl⟩, a3, a4, a5⟩ := h1.origin
    obtain ⟨s', k, now, b1, b2, b3, b4, b5⟩ := cleanup_of_publish hl hc hlk hlk' h1 h2
    exact ⟨s0, a1, Or.inr ⟨s', k, now, b1, b2, b3, b4, fun x hx hn => b5 x hx (Or.inl hn)⟩⟩

/-- **C12, removal.** If the source changed its session and the run succeeds, the snapshot and
all deltas of the old session have been scheduled for removal. -/
theorem C12_session_change_schedules [Ext] (depth : Nat) (c : Config) (env : Env) (fs : FS)
    (base name : Str) (w' : World) (s : RrdpState) (hl : Layout c base name)
    (hc : RunConds c base name env fs) (hs : Recorded c fs s)
    (hlk : NoLinks fs c.stagingDir) (hlk' : NoLinks fs c.rrdpDir)
    (hch : ∀ n, Offers c env fs s.source.etag n → ¬ SameSession s n)
    (h304 : ∀ u m tick, c.Locates c.notificationUri (.uri u m) →
      env.http tick ⟨u, m, s.source.etag⟩ ≠ .notModified)
    (h : process depth c env (World.start fs) = (.ok (), w')) :
    ∃ s' k now, now = env.clock k ∧ Recorded c w'.cur s' ∧
      ∀ q, s.Refers c q → Scheduled c env s' w'.cur k now q := by
  have huniq : ∀ s0, InUse c base name fs s0 → s0 = s := by
    rintro s0 (a1 | ⟨a1, _⟩)
    · exact a1.unique hs
    · obtain ⟨b, b1, _⟩ := hs
      rw [exists_of_read b1] at a1; cases a1
  rcases run_ok (w := World.start fs) hc h with ⟨h1, s0, h2, h3⟩ | ⟨s0, st, w1, n1, h1, h2⟩
  · exfalso
    obtain rfl := huniq s0 h2
    rcases h3 with ⟨n, c1, c2⟩ | ⟨u, m, tick, c1, c2⟩
    · refine hch n c1 (fun x hx => ?_)
      unfold NewVersion at c2
      simp only [Classical.not_forall] at c2
      obtain ⟨y, hy, c3⟩ := c2
      rw [hx] at hy; cases hy
      simp only [not_or, Classical.not_not] at c3
      exact c3.1
    · exact h304 u m tick c1 c2
  · obtain ⟨s1, n0, a1, ⟨v, rfl⟩, a3, a4, a5⟩ := h1.origin
    obtain rfl := huniq s1 a1
    obtain ⟨s', k, now, b1, b2, b3, b4, b5⟩ := cleanup_of_publish hl hc hlk hlk' h1 h2
    have hr : st.sessionReset = true := by
      obtain ⟨ds, _, rfl⟩ := a4
      match hr : st.sessionReset with
      | true => rfl
      | false =>
        have := (decide_reset h1.prepared.decided).1.1 hr
        exact absurd this (hch n0 a3)
    refine ⟨s', k, now, b1, b2, ?_⟩
    rintro q (⟨x, hx, rfl⟩ | ⟨x, hx, rfl⟩)
    · exact b4 x hx
    · exact b5 x hx (Or.inr hr)

/-- **C14.** At every instant of a run, a file that was in the RRDP directory when the run
started and is missing now (temporary file aside) may be removed: it was scheduled in the
state the run started with, or it was in use and was scheduled in this run, and at least
`--cleanup-after` seconds went by, by the local clock, between scheduling and removal. -/
theorem C14_removed_only_when_due [Ext] (depth : Nat) (c : Config) (env : Env) (fs : FS)
    (base name : Str) (hl : Layout c base name) (hc : RunConds c base name env fs) :
    ∀ f ∈ (process depth c env (World.start fs)).2.crashPoints, ∀ q, c.rrdpDir <+: q →
      q ≠ c.rrdpDir ++ [name ++ ".tmp".toList] → fs.leaf q ≠ none → f.leaf q = none →
      ∃ s, InUse c base name fs s ∧ Removable c env s q := by
  intro f hf q q1 q2 q3 q4
  rcases run_cases (depth := depth) (w := World.start fs) hc with ⟨h1, _⟩ | ⟨s, st, w1, n, h1, h2⟩
  · exfalso
    rw [(h1.crash_frame hc.wf f hf).2 q (hl.rrdpStaging.not_both q1)] at q4
    exact q3 q4
  · obtain ⟨s0, n0, a1, ⟨v, rfl⟩, _⟩ := h1.origin
    refine ⟨s0, a1, Removable.congr (s := { s0 with validator := v }) rfl rfl rfl ?_⟩
    have hk := publish_removes (env := env) hl (h1.pubPre hc) h1.wf fs
    have hk0 : Keeps (fun f => f.WF ∧ ∀ q, c.rrdpDir <+: q → q ≠ c.rrdpDir ++ [name ++ ".tmp".toList] →
        fs.leaf q ≠ none → f.leaf q = none → Removable c env { s0 with validator := v } q)
        (World.start fs) (process depth c env (World.start fs)).2 := by
      rw [h2]
      refine Tr.trans (Keeps.of_within h1.within ?_) hk
      rintro f f' ⟨g1, g2⟩ g3
      obtain ⟨g4, g5⟩ := g3 g1
      refine ⟨g4, fun q a1 a2 a3 a4 => g2 q a1 a2 a3 ?_⟩
      rw [← g5 q (hl.rrdpStaging.not_both a1)]; exact a4
    exact (hk0.start ⟨hc.wf, fun q _ _ b1 b2 => absurd b2 b1⟩ f hf).2 q q1 q2 q3 q4

/-- **C13, base.** At every instant the notification file is as before the run, or it is
a notification in which each URI starts with the directory part of the notification URI,
and which lists the snapshot and deltas of the source or those recorded before. -/
theorem C13_uris_below_base [Ext] (depth : Nat) (c : Config) (env : Env) (fs : FS)
    (base name : Str) (hl : Layout c base name) (hc : RunConds c base name env fs)
    (ho : OrderedState c base fs) :
    ∀ f ∈ (process depth c env (World.start fs)).2.crashPoints,
      f.leaf (c.notifPath name) = fs.leaf (c.notifPath name) ∨
      ∃ s n n' t, InUse c base name fs s ∧ Offers c env fs s.source.etag n ∧
        f.leaf (c.notifPath name) = some (.file (Ext.writeNotif n') t) ∧
        (∀ r ∈ n'.refs, ∃ rel, r.1 = base ++ rel) ∧ n'.snapUri = n.snapUri ∧
        ∀ d ∈ n'.deltas, d ∈ n.deltas ∨ d ∈ s.held base := by
  intro f hf
  rcases run_cases (depth := depth) (w := World.start fs) hc with ⟨h1, _⟩ | ⟨s, st, w1, n1, h1, h2⟩
  · left
    exact (h1.crash_frame hc.wf f hf).2 _ (hl.rrdpStaging.not_both (List.prefix_append _ _))
  · have hk : Keeps (fun f => f.WF ∧ (f.leaf (c.notifPath name) = fs.leaf (c.notifPath name) ∨
        ∃ t, f.leaf (c.notifPath name) = some (.file (Ext.writeNotif (newNotif s st)) t)))
        (World.start fs) (process depth c env (World.start fs)).2 := by
      rw [h2]
      refine Tr.trans (Keeps.of_within h1.within ?_)
        (publish_notif hl h1.sane h1.goodSnap h1.goodDeltas hc.objects h1.wf fs)
      rintro f f' ⟨g1, g2⟩ g3
      obtain ⟨g4, g5⟩ := g3 g1
      refine ⟨g4, ?_⟩
      rw [g5 (c.notifPath name) (hl.rrdpStaging.not_both (List.prefix_append _ _))]
      exact g2
    rcases (hk.start ⟨hc.wf, Or.inl rfl⟩ f hf).2 with h3 | ⟨t, h3⟩
    · exact Or.inl h3
    · right
      obtain ⟨s0, n0, a1, ⟨v, rfl⟩, a3, a4, a5, a6⟩ := h1.update hc.uri ho
      refine ⟨s0, n0, _, t, a1, a3, h3, newNotif_base hc.uri h1.sane st, ?_, fun d hd => ?_⟩
      · obtain ⟨ds, _, rfl⟩ := a4
        exact a6.version.snapUri
      · obtain ⟨ds, b1, rfl⟩ := a4
        rcases (a6.deltas d).1 hd with ⟨b2, _⟩ | ⟨b2, _⟩
        · left
          obtain ⟨older, hp, _⟩ := b1.split
          exact hp.mem_iff.1 (List.mem_append.2 (Or.inr b2))
        · exact Or.inr b2

/-- The snapshot or a new delta of `n` is not below the base. -/
def Outside (base : Str) (s : RrdpState) (n : Notif) : Prop :=
  (∀ rel, n.snapUri ≠ base ++ rel) ∨
  ∃ d ∈ n.deltas, NewDelta s n d.serial ∧ ∀ rel, d.uri ≠ base ++ rel

/-- **C13, refusal.** If each new version the source offers has its snapshot or a new delta
outside the directory of the notification URI, nothing is published: no instant of the run
shows any change outside the staging directory, and if the run succeeds it found nothing
new. -/
theorem C13_outside_refused [Ext] (depth : Nat) (c : Config) (env : Env) (fs : FS)
    (base name : Str) (hc : RunConds c base name env fs) (ho : OrderedState c base fs)
    (hout : ∀ s n n1, InUse c base name fs s → Offers c env fs s.source.etag n → Limited c n n1 →
      NewVersion s n1 → Outside base s n1) :
    (∀ f ∈ (process depth c env (World.start fs)).2.crashPoints, ∀ q, ¬ c.stagingDir <+: q →
      f.leaf q = fs.leaf q) ∧
    ((process depth c env (World.start fs)).1 = .ok () →
      (process depth c env (World.start fs)).2.crashPoints = [fs]) := by
  have hno : ∀ s st w1 n1, ¬ AtPublish depth c base name env (World.start fs) s st w1 n1 := by
    intro s st w1 n1 h1
    obtain ⟨s0, n0, a1, ⟨v, rfl⟩, a3, a4, a5, a6⟩ := h1.update hc.uri ho
    obtain ⟨⟨rel, i1⟩, i2⟩ := h1.staged.inside
    rcases hout s0 n0 n1 a1 a3 a4 a5 with h | ⟨d, d1, d2, d3⟩
    · exact h rel i1
    · have hr := (decide_reset h1.prepared.decided).1
      obtain ⟨rel', h⟩ := i2 d d1 ((deltaIsNew_iff (s := { s0 with validator := v }) (n := n1)
        (k := d.serial) hr (a1.ordered ho)).2 d2)
      exact d3 rel' h
  constructor
  · rcases run_cases (depth := depth) (w := World.start fs) hc with ⟨h1, _⟩ | ⟨s, st, w1, n1, h1, h2⟩
    · exact fun f hf q hq => (h1.crash_frame hc.wf f hf).2 q hq
    · exact absurd h1 (hno s st w1 n1)
  · intro hok
    match hp : process depth c env (World.start fs) with
    | (r, w') =>
    rw [hp] at hok
    dsimp only at hok
    subst hok
    rcases run_ok (w := World.start fs) hc hp with ⟨h1, s, h2, h3⟩ | ⟨s, st, w1, n1, h1, h2⟩
    · show w'.crashPoints = [fs]
      unfold World.crashPoints; rw [h1.1, h1.2]; rfl
    · exact absurd h1 (hno s st w1 n1)

/-- **C21, the file.** When a state was written without error, a new process that can read
the file gets the same state back, except that validator data is marked as not fetched. -/
theorem C21_restart [Ext] (c : Config) (env env' : Env) (s : RrdpState) (w w' : World)
    (h : s.persist c.rrdpStatePath env w = (.ok (), w')) (hf : env'.fault 0 = false) :
    ∃ s', s.SameUnfetched s' ∧ Recorded c w'.cur s' ∧
      (loadState c env' (World.start w'.cur)).1 = .ok s' := by
  obtain ⟨_, ⟨t, h1⟩, _⟩ := writeBuf_ok h
  refine ⟨s.persisted, persisted_same s, recorded_of_get h1, ?_⟩
  rw [loadState_run (w := World.start w'.cur) (recorded_of_get h1) hf]

/-- **C21, whole runs.** After a successful update the state on disk, which a new process
will load, describes exactly the notification that is published; and the directory of
removed files, the source and the mappings are the old ones or as C15 says. -/
theorem C21_state_describes_published [Ext] (depth : Nat) (c : Config) (env : Env) (fs : FS)
    (base name : Str) (w' : World) (hl : Layout c base name) (hc : RunConds c base name env fs)
    (h : process depth c env (World.start fs) = (.ok (), w')) :
    w'.crashPoints = [fs] ∨
    ∃ s' n' t, Recorded c w'.cur s' ∧ Sane c base name s' ∧ Describes base s' n' ∧
      w'.cur.get (c.notifPath name) = some (.file (Ext.writeNotif n') t) ∧
      ∀ env' : Env, env'.fault 0 = false →
        (loadState c env' (World.start w'.cur)).1 = .ok s' := by
  rcases run_ok (w := World.start fs) hc h with ⟨h1, s, h2, h3⟩ | ⟨s, st, w1, n1, h1, h2⟩
  · left
    unfold World.crashPoints; rw [h1.1, h1.2]; rfl
  · right
    obtain ⟨wa, wb, wc, s1, s2, kept, gone, new, hd⟩ := publish_done hl (h1.pubPre hc) h1.wf h2
    obtain ⟨t, ht⟩ := hd.notif
    obtain ⟨t', ht'⟩ := hd.state
    have hdes := hd.describes hc.uri h1.sane
    refine ⟨s2.persisted, _, t, recorded_of_get ht', hd.sane.persisted,
      ⟨hdes.1, hdes.2⟩, ht, fun env' hf => ?_⟩
    rw [loadState_run (w := World.start w'.cur) (recorded_of_get ht') hf]

/-- **C51 (partial).** Snapshot and delta files are put in the directory in which the
notification file is written: after a successful update the file written for a URI
`base ++ rel` is at `dir/rel`, where `dir` is the directory of the new notification file,
whose URI is `base ++ name`.  Missing: this needs (in `RunConds`) that the recorded state was
written with the same `--rrdp-dir`; see `C51_refuted_when_rrdp_dir_changed`. -/
theorem C51_same_directory_partial [Ext] (depth : Nat) (c : Config) (env : Env) (fs : FS)
    (base name : Str) (w' : World) (hl : Layout c base name) (hc : RunConds c base name env fs)
    (ho : OrderedState c base fs) (h0 : No304 env)
    (h1 : ∀ etag n, Offers c env fs etag n → OneHashPerPath base n)
    (hlk : NoLinks fs c.stagingDir)
    (hfr : ∀ s n n1, InUse c base name fs s → Offers c env fs s.source.etag n → Limited c n n1 →
      NewVersion s n1 → FreshFiles c base s n1)
    (h : process depth c env (World.start fs) = (.ok (), w')) :
    w'.crashPoints = [fs] ∨
    ∃ dir n' t, c.notificationUri = base ++ name ∧
      w'.cur.get (dir ++ [name]) = some (.file (Ext.writeNotif n') t) ∧
      (∃ rel, n'.snapUri = base ++ rel ∧ FileHas w'.cur (dir ++ comps rel) n'.snapHash) ∧
      ∃ s, InUse c base name fs s ∧ ∀ d ∈ n'.deltas,
        d ∈ s.held base ∨ ∃ rel, d.uri = base ++ rel ∧ FileHas w'.cur (dir ++ comps rel) d.hash := by
  obtain ⟨s, a1, ⟨a2, _⟩ | ⟨n, n1, n', b1, b2, b3, b4, ⟨t, b5⟩, b6, b7⟩⟩ :=
    C03_update_complete depth c env fs base name w' hl hc ho h0 h1 hlk hfr h
  · exact Or.inl a2
  · refine Or.inr ⟨c.rrdpDir, n', t, hc.uri.eq, b5, ?_, s, a1, fun d hd => ?_⟩
    · rw [b4.version.snapUri, b4.version.snapHash]; exact b6
    · rcases (b4.deltas d).1 hd with ⟨c1, c2⟩ | ⟨c1, _⟩
      · exact Or.inr (b7 d c1 c2)
      · exact Or.inl c1

/-! ## Concrete cases -/

section

open Demo

set_option maxRecDepth 100000

namespace Demo

theorem orderedState1 : OrderedState conf base fs1 := by
  intro s hs
  rw [← recorded1.unique hs]
  have : state1.held base = [] := by decide
  rw [this]
  exact List.Pairwise.nil

theorem no304 (t : Time) (n : Notif) : No304 (envAt t n) := by
  intro tick r _
  show (if _ then _ else _) ≠ _
  split
  · simp
  · split <;> simp

/-- The second run ends successfully. -/
theorem run2 : process 5 conf (envAt 1 notif2) (World.start fs1) =
    (.ok (), (process 5 conf (envAt 1 notif2) (World.start fs1)).2) :=
  Prod.ext (by decide +kernel) rfl

/-- ... and did something. -/
theorem run2_works : (process 5 conf (envAt 1 notif2) (World.start fs1)).2.crashPoints ≠ [fs1] := by
  decide +kernel

theorem rel_eq {s : String} {rel : Str} (h : uri s = base ++ rel) : rel = s.toList :=
  (List.append_cancel_left (as := base) h).symm

theorem oneHash2 : ∀ etag n, Offers conf (envAt 1 notif2) fs1 etag n → OneHashPerPath base n := by
  intro etag n hn
  rw [offers hn]
  intro r hr r' hr' rel rel' h h' he
  have h2 : notif2.refs = [(uri "s2", snap 2), (uri "d2", [2])] := by decide
  rw [h2] at hr hr'
  simp only [List.mem_cons, List.not_mem_nil, or_false] at hr hr'
  rcases hr with rfl | rfl <;> rcases hr' with rfl | rfl
  · rfl
  · rw [rel_eq h, rel_eq h'] at he; exact absurd he (by decide)
  · rw [rel_eq h, rel_eq h'] at he; exact absurd he (by decide)
  · rfl

theorem inUse1 {s : RrdpState} (h : InUse conf base name fs1 s) : s = state1 := by
  rcases h with h | ⟨h, _⟩
  · exact h.unique recorded1
  · have : fs1.exists? conf.rrdpStatePath = true := by decide +kernel
    rw [this] at h; cases h

theorem limited {t : Time} {fs : FS} {n n0 n1 : Notif} {etag : Option Str}
    (h : Offers conf (envAt t n) fs etag n0) (hl : Limited conf n0 n1) :
    n1.snapUri = n.snapUri ∧ n1.session = n.session ∧ n1.serial = n.serial ∧
      ∀ d ∈ n1.deltas, d ∈ n.deltas := by
  rw [offers h] at hl
  obtain ⟨ds, h1, rfl⟩ := hl
  refine ⟨rfl, rfl, rfl, fun d hd => ?_⟩
  obtain ⟨older, hp, _⟩ := h1.split
  exact hp.mem_iff.1 (List.mem_append.2 (Or.inr hd))

theorem freshPath1 {rel : Str} (h : rel ≠ "s1".toList) (h' : comps rel ≠ comps "s1".toList) :
    FreshPath conf state1 (conf.pubPath rel) := by
  constructor
  · rintro (⟨x, hx, he⟩ | ⟨d, hd, he⟩)
    · have : x.relPath = "s1".toList := by
        have h2 : state1.snapshot.map (·.relPath) = some "s1".toList := by decide
        rw [hx] at h2; simpa using h2
      rw [this] at he
      exact h' (List.append_cancel_left he)
    · have : state1.deltas = [] := by decide
      rw [this] at hd; cases hd
  · intro d hd
    have : state1.deprecated = [] := by decide
    rw [this] at hd; cases hd

theorem fresh2 : ∀ s n n1, InUse conf base name fs1 s →
    Offers conf (envAt 1 notif2) fs1 s.source.etag n → Limited conf n n1 →
    NewVersion s n1 → FreshFiles conf base s n1 := by
  intro s n n1 h1 h2 h3 _
  rw [inUse1 h1] at *
  obtain ⟨l1, _, _, l2⟩ := limited h2 h3
  refine ⟨fun rel h => ?_, fun d hd _ rel h => ?_⟩
  · rw [l1] at h
    obtain rfl := rel_eq (s := "s2") h
    exact freshPath1 (by decide) (by decide)
  · have hd' := l2 d hd
    rw [show notif2.deltas = [⟨2, uri "d2", [2]⟩] from rfl, List.mem_singleton] at hd'
    subst hd'
    obtain rfl := rel_eq (s := "d2") h
    exact freshPath1 (by decide) (by decide)

theorem noLinks1 : NoLinks fs1 conf.stagingDir := FS.noLinks_of_check (by decide +kernel)
theorem noLinks1' : NoLinks fs1 conf.rrdpDir := FS.noLinks_of_check (by decide +kernel)

end Demo

example := C03_update_complete 5 conf (envAt 1 notif2) fs1 base name _ layout (runConds1 1)
  orderedState1 (no304 1 notif2) oneHash2 noLinks1 fresh2 run2

example := C51_same_directory_partial 5 conf (envAt 1 notif2) fs1 base name _ layout (runConds1 1)
  orderedState1 (no304 1 notif2) oneHash2 noLinks1 fresh2 run2

example := C03_published_version 5 conf (envAt 1 notif2) fs1 base name _ layout (runConds1 1)
  orderedState1 run2

example := C03_files_published_partial 5 conf (envAt 1 notif2) fs1 base name _ layout (runConds1 1)
  orderedState1 (no304 1 notif2) oneHash2 noLinks1 run2

example := C21_state_describes_published 5 conf (envAt 1 notif2) fs1 base name _ layout (runConds1 1)
  run2

example := C14_removed_only_when_due 5 conf (envAt 1 notif2) fs1 base name layout (runConds1 1)

example := C13_uris_below_base 5 conf (envAt 1 notif2) fs1 base name layout (runConds1 1)
  orderedState1

example := C15_cleanup 5 conf (envAt 1 notif2) fs1 base name _ layout (runConds1 1)
  noLinks1 noLinks1' run2

/-! ### A third run in which something is removed -/

namespace Demo

/-- The state recorded after the second run: `s1` is scheduled for removal. -/
def state2 : RrdpState :=
  ⟨⟨uri "n", "n".toList, none⟩, ⟨"https://h/".toList, ["r".toList]⟩,
    some ⟨1, 2, snap 2, "s2".toList, 1⟩, [⟨1, 2, [2], "d2".toList⟩],
    [⟨1, ["r".toList, "s1".toList]⟩], none⟩

theorem recorded2 : Recorded conf fs2 state2 :=
  ⟨Ext.encState state2, by decide +kernel, by decide +kernel⟩

theorem runConds2 (t : Time) {n : Notif} (h : goodNotifB base name n = true) :
    RunConds conf base name (envAt t n) fs2 :=
  ⟨notifUri, FS.wf_of_check (by decide +kernel), saneState_of (dep := ["s1".toList]) recorded2
    ⟨by decide, by decide, by decide, by decide, by decide, by decide, by decide⟩, goodSource h,
    fun _ => cleanObjects _⟩

theorem orderedState2 : OrderedState conf base fs2 := by
  intro s hs
  rw [← recorded2.unique hs]
  exact List.pairwise_singleton _ _

theorem run3 : process 5 conf (envAt 20 notif3) (World.start fs2) =
    (.ok (), (process 5 conf (envAt 20 notif3) (World.start fs2)).2) :=
  Prod.ext (by decide +kernel) rfl

theorem runB : process 5 conf (envAt 20 notifB) (World.start fs2) =
    (.ok (), (process 5 conf (envAt 20 notifB) (World.start fs2)).2) :=
  Prod.ext (by decide +kernel) rfl

end Demo

example := C15_cleanup 5 conf (envAt 20 notif3) fs2 base name _ layout
  (runConds2 20 (by decide)) (FS.noLinks_of_check (by decide +kernel))
  (FS.noLinks_of_check (by decide +kernel)) run3

/-- ... and there `s1` really is removed. -/
example : fs2.leaf (conf.pubPath "s1".toList) ≠ none ∧
    (after conf (envAt 20 notif3) fs2).leaf (conf.pubPath "s1".toList) = none := by
  decide +kernel

example := C14_removed_only_when_due 5 conf (envAt 20 notif3) fs2 base name layout
  (runConds2 20 (by decide))

theorem Demo.sessionB (n : Notif) (h : Offers conf (envAt 20 notifB) fs2 state2.source.etag n) :
    ¬ SameSession state2 n := by
  rw [offers h]
  intro hs
  exact absurd (hs _ rfl) (by decide)

theorem Demo.no304At (t : Time) (n : Notif) {u : Str} {m : Bool} {tick : Nat} {etag : Option Str} :
    (envAt t n).http tick ⟨u, m, etag⟩ ≠ .notModified := by
  show (if _ then _ else _) ≠ _
  split
  · simp
  · split <;> simp

example := C12_session_change_deltas 5 conf (envAt 20 notifB) fs2 base name _ state2 layout
  (runConds2 20 (by decide)) orderedState2 recorded2 sessionB (fun _ _ _ _ => no304At _ _) runB

example := C12_session_change_schedules 5 conf (envAt 20 notifB) fs2 base name _ state2 layout
  (runConds2 20 (by decide)) recorded2 (FS.noLinks_of_check (by decide +kernel))
  (FS.noLinks_of_check (by decide +kernel)) sessionB (fun _ _ _ _ => no304At _ _) runB

example : (state2.persist conf.rrdpStatePath (envAt 0 notif1) (World.start fs2)).1 = .ok () := by
  decide +kernel

example (w' : World)
    (h : state2.persist conf.rrdpStatePath (envAt 0 notif1) (World.start fs2) = (.ok (), w')) :=
  C21_restart conf (envAt 0 notif1) (envAt 1 notif2) state2 (World.start fs2) w' h rfl

/-- Staging of the second version. -/
example : ∃ st w', state1.updateStaged conf (envAt 1 notif2) (World.start fs1) = (.ok (some st), w') := by
  match h : (state1.updateStaged conf (envAt 1 notif2) (World.start fs1)) with
  | (.ok (some st), w') => exact ⟨st, w', rfl⟩
  | (.ok none, w') =>
    have : (state1.updateStaged conf (envAt 1 notif2) (World.start fs1)).1 ≠ .ok none := by
      decide +kernel
    rw [h] at this; exact absurd rfl this
  | (.error e, w') =>
    have : (match (state1.updateStaged conf (envAt 1 notif2) (World.start fs1)).1 with
      | .ok _ => true | .error _ => false) = true := by decide +kernel
    rw [h] at this; cases this

example (st : StagedChanges) (w' : World)
    (h : state1.updateStaged conf (envAt 1 notif2) (World.start fs1) = (.ok (some st), w')) :=
  C04_staged_has_hash conf (envAt 1 notif2) fs1 base name state1 st w' notifUri
    (saneState1 _ recorded1) (runConds1 1).source oneHash2 (no304 1 notif2) noLinks1 h

/-- A version 2 whose snapshot is on another host. -/
def Demo.notifOut : Notif := ⟨1, 2, "https://x/s2".toList, snap 2, []⟩

theorem Demo.outside2 (rel : Str) : notifOut.snapUri ≠ base ++ rel := by
  intro h
  have h1 : stripPrefix base notifOut.snapUri = none := by decide
  rw [stripPrefix_some.2 h] at h1
  cases h1

theorem Demo.runCondsOut : RunConds conf base name (envAt 1 notifOut) fs1 :=
  ⟨notifUri, (runConds1 1).wf, saneState1, goodSource (by decide), fun _ => cleanObjects _⟩

theorem Demo.outsideOut (s : RrdpState) (n n1 : Notif) (_ : InUse conf base name fs1 s)
    (h2 : Offers conf (envAt 1 notifOut) fs1 s.source.etag n) (h3 : Limited conf n n1)
    (_ : NewVersion s n1) : Outside base s n1 :=
  Or.inl (fun rel h => outside2 rel ((limited h2 h3).1 ▸ h))

example := C13_outside_refused 5 conf (envAt 1 notifOut) fs1 base name runCondsOut orderedState1
  outsideOut

/-! ### Where claims fail -/

/-- The demonstration configuration with rsync off. -/
def Demo.confR : Config := { conf with rsyncDisable := true }

/-- The disk after a run over session 1 at time 0 and one over session 2 at time 1. -/
def Demo.fsAB : FS := after confR (envAt 1 notifB) (after confR (envAt 0 notif1) fs0)

/-- **C03 and C16 fail when a path is used again.**  Session 1, then session 2, then session 1
again: the third run succeeds and announces snapshot `s1`, but its cleanup has just removed
the file, because it had been scheduled for removal in the second run. -/
theorem C03_refuted_for_reused_path :
    (process 5 confR (envAt 0 notif1) (World.start fs0)).1 = .ok () ∧
    (process 5 confR (envAt 1 notifB) (World.start (after confR (envAt 0 notif1) fs0))).1 = .ok () ∧
    (process 5 confR (envAt 20 notif1) (World.start fsAB)).1 = .ok () ∧
    (after confR (envAt 20 notif1) fsAB).file? (confR.notifPath name) =
      some (Ext.writeNotif notif1) ∧
    notif1.snapUri = base ++ "s1".toList ∧
    (after confR (envAt 20 notif1) fsAB).get (confR.pubPath "s1".toList) = none := by
  decide +kernel

/-- **C51 fails when `--rrdp-dir` is changed.**  The second run is made with another
`--rrdp-dir` and the same state directory: it succeeds, the new notification is written to the
old directory, and the snapshot it announces is not there but in the new directory. -/
theorem C51_refuted_when_rrdp_dir_changed :
    (process 5 { confR with rrdpDir := ["r2".toList] } (envAt 1 notif2)
      (World.start (after confR (envAt 0 notif1) fs0))).1 = .ok () ∧
    (after { confR with rrdpDir := ["r2".toList] } (envAt 1 notif2)
      (after confR (envAt 0 notif1) fs0)).file? ["r".toList, name] = some (Ext.writeNotif notif2) ∧
    notif2.snapUri = base ++ "s2".toList ∧
    (after { confR with rrdpDir := ["r2".toList] } (envAt 1 notif2)
      (after confR (envAt 0 notif1) fs0)).get ["r".toList, "s2".toList] = none ∧
    (after { confR with rrdpDir := ["r2".toList] } (envAt 1 notif2)
      (after confR (envAt 0 notif1) fs0)).file? ["r2".toList, "s2".toList] = some (snap 2) := by
  decide +kernel

end

end KSync
