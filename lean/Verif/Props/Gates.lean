import Verif.Lemmas.Hourly
import Verif.Spec.History
import Verif.Examples.Tree
import Verif.Examples.Conds
import Verif.Lemmas.Gates
import Verif.Lemmas.Malformed
import Verif.Lemmas.Unobtained
import Verif.Lemmas.Unscripted

/-!
# What can keep a version from being published (properties C17, C18, C19, C46)

Issues found by the validation, scripts, a snapshot that cannot be parsed.
-/

set_option linter.unusedVariables false

namespace KSync

/-- **C17.** With TALs and `--tal-reject-invalid`, a run changes anything outside the staging area
only if the validation, of the notification offered by the source, with the configured TALs, was
completed and no CA naming the repository had an issue, and there was such a CA; otherwise nothing
is changed, and the run fails if there was anything to publish. -/
theorem C17_nothing_invalid_published [Ext] (depth : Nat) (c : Config) (env : Env) (fs : FS)
    (base name : Str) (hc : RunConds c base name env fs) (ht : c.talFiles ≠ [])
    (hr : c.talRejectInvalid = true) :
    Withheld c fs (process depth c env (World.start fs)) ∨
    ∃ n n1 etag v g k certs, Offers c env fs etag n ∧ Limited c n n1 ∧
      RunValidator c base env fs g v ∧
      g.file? (c.stagingDir ++ [name]) = some (Ext.writeNotif n1) ∧
      Validates env g v c.offlineValidation k certs ∧
      (∃ ca ∈ certs, ca.Names c.notificationUri) ∧
      ∀ ca ∈ certs, ca.Names c.notificationUri → ca.issues = [] := by
  rcases run_withheld (depth := depth) hc with h | ⟨s, st, w1, n, h, _⟩
  · exact Or.inl h
  · right
    obtain ⟨n, s0, v, v1, g, k, rep, h1, h2, h3, h4⟩ := prepare_validated hc ht h.prep
    obtain ⟨etag, n0, h5, h6⟩ := h1.offered
    exact ⟨n0, n, etag, v1, g.cur, k, rep.certs, h5, h6, h4.runValidator h2, h4.notif, h4.walked,
      h4.cleared hr⟩

/-- **C18, a first validation.** If no validator is recorded, the objects validated for the
repository to be published are exactly those of a snapshot that was staged and has the announced
hash. -/
theorem C18_first_validation [Ext] (depth : Nat) (c : Config) (env : Env) (fs : FS)
    (base name : Str) (hc : RunConds c base name env fs) (ht : c.talFiles ≠ [])
    (hnone : ∀ s, Recorded c fs s → s.validator = none) :
    Withheld c fs (process depth c env (World.start fs)) ∨
    ∃ n n1 etag v g k certs rel b els objs, Offers c env fs etag n ∧ Limited c n n1 ∧
      RunValidator c base env fs g v ∧ Cleared c certs ∧
      ValidatesWith env g v c.offlineValidation k c.notificationUri
        objs certs ∧
      n1.snapUri = base ++ rel ∧ g.read (c.stagingDir ++ comps rel) = some b ∧
      Ext.sha b = n1.snapHash ∧ Ext.parseSnapshot b = some els ∧ SnapshotOf els (mapGet objs) := by
  rcases run_withheld (depth := depth) hc with h | ⟨s, st, w1, n, h, _⟩
  · exact Or.inl h
  · right
    obtain ⟨n, s0, v, v1, g, k, rep, h1, h2, h3, h4⟩ := prepare_validated hc ht h.prep
    obtain ⟨etag, n0, h5, h6⟩ := h1.offered
    have hv : s0.validator = none := by
      rcases h2 with h2 | ⟨_, rfl⟩
      · exact hnone s0 h2
      · rfl
    have hf := h4.fetcher (fun v hv' => by rw [hv] at hv'; cases hv')
    have hd0 : mapGet v.repos.data c.notificationUri = none := by
      rcases h4.chosen with k1 | ⟨k1, _⟩
      · rw [k1]; rfl
      · rw [hv] at k1; cases k1
    obtain ⟨d, i, j, k1, k2⟩ := h4.latest
    cases k2 with
    | cached d0 h0 why same => rw [hd0] at h0; cases h0
    | current d0 h0 hoff why same => rw [hd0] at h0; cases h0
    | deltas n' hn hoff d0 h0 => rw [hd0] at h0; cases h0
    | snapshot n' hn hoff from' =>
      rw [hf] at hn from'
      have := staged_finds hc.uri h4.notif hn
      subst this
      obtain ⟨src, b, e, els, g1, g2, g3, g4, g5⟩ := from'.body
      have hu := h1.staged.snapUri
      rw [hu] at g1
      have g1 := Fetcher.locates_iff.2 g1
      unfold Config.stagedFetcher Fetcher.resolve FetchMap.source at g1
      dsimp only at g1
      rw [stripPrefix_append] at g1
      cases g1
      have g6 : g.cur.read (joinPath c.stagingDir st.snapshot.relPath) = some b := g2.1
      rw [joinPath_clean h1.goodSnap.clean] at g6
      refine ⟨n0, n', etag, v1, g.cur, k, rep.certs, _, b, els, d.objects, h5, h6,
        h4.runValidator h2, h4.cleared, h4.objects k1 from'.fetched, hu, g6, g3, g4, g5⟩

/-- **C18 (partial).** The objects validated for the repository to be published are those of the
announced snapshot.  What is missing: this holds only if the data kept from an earlier run, if any,
are at least an hour old (see `C18_refuted_for_recent_data`), and are of an earlier version. -/
theorem C18_validates_what_is_published_partial [Ext] (depth : Nat) (c : Config) (env : Env) (fs : FS)
    (base name : Str) (hc : RunConds c base name env fs) (ht : c.talFiles ≠ [])
    (content : Uuid → Nat → Objects)
    (hsrc : ∀ etag n, Offers c env fs etag n → Truthful content n ∧ ReachesSerial n)
    (hkept : ∀ s v, Recorded c fs s → s.validator = some v → v.repos.Keyed ∧
      ∀ d, mapGet v.repos.data c.notificationUri = some d → d.Genuine content ∧
        d.fetched = false ∧ (∀ k, d.lastFetch + 3600 ≤ env.clock k) ∧
        ∀ etag n, Offers c env fs etag n → d.session = n.session → d.serial ≤ n.serial) :
    Withheld c fs (process depth c env (World.start fs)) ∨
    ∃ n n1 etag v g k certs objs, Offers c env fs etag n ∧ Limited c n n1 ∧
      RunValidator c base env fs g v ∧ Cleared c certs ∧
      ValidatesWith env g v c.offlineValidation k c.notificationUri objs certs ∧
      ∀ b els, Ext.sha b = n1.snapHash → Ext.parseSnapshot b = some els →
        SnapshotOf els (mapGet objs) := by
  rcases run_withheld (depth := depth) hc with h | ⟨s, st, w1, n, h, _⟩
  · exact Or.inl h
  · right
    obtain ⟨n, s0, v, v1, g, k, rep, h1, h2, h3, h4⟩ := prepare_validated hc ht h.prep
    obtain ⟨etag, n0, h5, h6⟩ := h1.offered
    have hrec : ∀ v, s0.validator = some v → Recorded c fs s0 := by
      intro v hv
      rcases h2 with h2 | ⟨_, rfl⟩
      · exact h2
      · cases hv
    obtain ⟨hs1, hs2⟩ := hsrc _ _ h5
    obtain ⟨e1, e2⟩ := hs2.limited h6
    have hver : n.session = n0.session ∧ n.serial = n0.serial := by
      obtain ⟨ds, _, rfl⟩ := h6
      exact ⟨rfl, rfl⟩
    obtain ⟨d, k1, k2, k3⟩ := h4.content hc.uri (fun v hv => (hkept s0 v (hrec v hv) hv).1)
      (fun v0 d0 hv hd => by
        obtain ⟨_, q2, q3, q4⟩ := (hkept s0 v0 (hrec v0 hv) hv).2 d0 hd
        refine ⟨q2, q3, fun hse => ?_⟩
        rw [hver.2]
        exact q4 _ _ h5 (by rw [hse, hver.1])) e1 (fun x hx => ((hs1.limited h6).range x hx).2) e2
    refine ⟨n0, n, etag, v1, g.cur, k, rep.certs, d.objects, h5, h6, h4.runValidator h2,
      h4.cleared, h4.objects k1 k2,
      fun b els hb hp => ?_⟩
    have q := k3 content (hs1.limited h6) (fun v0 d0 hv hd => ((hkept s0 v0 (hrec v0 hv) hv).2 d0 hd).1)
    intro u
    rw [q u]
    exact (hs1.limited h6).snapshot b els hb hp u

/-- **C19.** Nothing is published unless all scripts were run, in order, and could be started and,
with `--tal-reject-invalid`, were successful. -/
theorem C19_scripts_before_publication [Ext] (depth : Nat) (c : Config) (env : Env) (fs : FS)
    (base name : Str) (hc : RunConds c base name env fs) :
    Withheld c fs (process depth c env (World.start fs)) ∨
    (process depth c env (World.start fs)).2.ran = c.scripts.reverse ∧
    ∃ t, ∀ (i : Nat) (p : Path), c.scripts[i]? = some p → env.script (t + i) p ≠ none ∧
      (c.talRejectInvalid = true → env.script (t + i) p = some true) := by
  rcases run_withheld (depth := depth) hc with h | ⟨s, st, w1, n, h, h'⟩
  · exact Or.inl h
  · right
    obtain ⟨s0, w2, w3, w4, h1, h2, h3, h4⟩ := prepare_parts h.prep
    have hran : w4.ran = [] := noScripts_prepare h1 h2 h3
    have hpub := publish_within (env := env) hc.uri h.sane h.goodSnap h.goodDeltas hc.objects h.wf
    have hran' : (publish c s st env w1).2.ran = w1.ran := LogIn.eq_of_false hpub.logs.ran
    rcases scriptGate_cases h4 with ⟨k1, k2, ⟨_, k3⟩ | ⟨k3, _⟩⟩ | ⟨e, i, p, k1, _⟩
    · refine ⟨?_, w4.tick, fun i p hi => ⟨k2 i p hi, fun hf => k3 hf i p hi⟩⟩
      rw [h', hran', k1]
      show c.scripts.reverse ++ w4.ran = _
      rw [hran, List.append_nil]
    · cases k3
    · cases k1

/-- **C19, without `--tal-reject-invalid`.** When a new version has been staged and the validation
did not refuse it, all scripts are run and, if they can be started, the publication begins,
whatever they say. -/
theorem C19_failing_scripts_do_not_stop [Ext] (depth : Nat) (c : Config) (env : Env) (w w1 w2 w3 : World)
    (s s' : RrdpState) (st : StagedChanges) (hf : c.talRejectInvalid = false)
    (hs : ∀ k, ∀ p ∈ c.scripts, env.script k p ≠ none)
    (h1 : loadState c env w = (.ok s, w1)) (h2 : s.updateStaged c env w1 = (.ok (some st), w2))
    (h3 : s.preValidate depth c env w2 = (.ok s', w3)) :
    process depth c env w = publish c s' st env
      { w3 with tick := w3.tick + c.scripts.length, ran := c.scripts.reverse ++ w3.ran } := by
  have h4 : scriptGate c env w3 = (.ok (),
      { w3 with tick := w3.tick + c.scripts.length, ran := c.scripts.reverse ++ w3.ran }) := by
    rcases scriptGate_cases (w' := (scriptGate c env w3).2) (r := (scriptGate c env w3).1) rfl with
      ⟨k1, k2, ⟨k3, _⟩ | ⟨_, k3, _⟩⟩ | ⟨e, i, p, k1, k2, k3, _⟩
    · exact Prod.ext k3 k1
    · rw [hf] at k3; cases k3
    · exact absurd k3 (hs _ p (List.mem_of_getElem? k2))
  unfold process
  rw [M.bind_of_ok h1, M.bind_of_ok h2]
  dsimp only
  rw [M.bind_of_ok h3, M.bind_of_ok h4]

/-- **C19, exit status.** Without `--tal-reject-invalid` a run is the same, in its result and all it
does, whatever the scripts say, as long as the same ones can be started. -/
theorem C19_exit_status_ignored [Ext] (depth : Nat) (c : Config) (env : Env)
    (s : Nat → Path → Option Bool) (w : World) (hr : c.talRejectInvalid = false)
    (hs : ∀ k, ∀ p ∈ c.scripts, s k p = none ↔ env.script k p = none) :
    process depth c { env with script := s } w = process depth c env w :=
  process_status w hr hs

/-- **C46.** If no file with the announced hash is a complete snapshot then, with rsync enabled,
the notification file, the state files and everything below `current` stay as they are, at every
instant, and the run fails unless there was nothing new. -/
theorem C46_malformed_snapshot [Ext] (depth : Nat) (c : Config) (env : Env) (fs : FS)
    (base name : Str) (hl : Layout c base name) (hc : RunConds c base name env fs)
    (he : c.rsyncEnabled = true) (h0 : No304 env) (hlk : NoLinks fs c.stagingDir)
    (h1 : ∀ etag n, Offers c env fs etag n → OneHashPerPath base n)
    (hbad : ∀ etag n, Offers c env fs etag n → ∀ b, Ext.sha b = n.snapHash →
      (Ext.streamSnapshot b).2 = false) :
    (∀ f ∈ (process depth c env (World.start fs)).2.crashPoints, ∀ q,
      (q = c.notifPath name ∨ q = c.rrdpStatePath ∨ q = c.rsyncStatePath ∨ c.rsyncCurrent <+: q) →
      f.leaf q = fs.leaf q) ∧
    ∀ w', process depth c env (World.start fs) = (.ok (), w') → w'.crashPoints = [fs] := by
  let Q : Path → Prop := fun q => q = c.notifPath name ∨ q = c.rrdpStatePath ∨
    q = c.rsyncStatePath ∨ c.rsyncCurrent <+: q
  have hcur : ∀ {q}, c.rsyncCurrent <+: q → c.rsyncDir <+: q :=
    fun h => (List.prefix_append _ _).trans h
  have nStaging : ∀ q, Q q → ¬ c.stagingDir <+: q := by
    rintro q (rfl | rfl | rfl | h) h'
    · exact hl.rrdpStaging.not_both (List.prefix_append _ _) h'
    · unfold Config.stagingDir Config.rrdpStatePath at h'
      rw [List.prefix_append_right_inj] at h'
      revert h'; decide
    · unfold Config.stagingDir Config.rsyncStatePath at h'
      rw [List.prefix_append_right_inj] at h'
      revert h'; decide
    · exact hl.rsyncStaging.not_both (hcur h) h'
  have nApply : ∀ q, Q q → ¬ (applyEff c name).files q := by
    rintro q hq (h | h)
    · exact nStaging q hq h
    · rcases hq with rfl | rfl | rfl | h'
      · exact not_dataPath_single (Or.inl rfl) h
      · exact hl.rrdpState.1 h.below
      · exact hl.rrdpRsyncState.1 h.below
      · exact hl.rrdpRsync.not_both h.below (hcur h')
  rcases run_withheld (depth := depth) hc with ⟨k1, k2⟩ | ⟨s, st, w1, n, h, h'⟩
  · exact ⟨fun f hf q hq => k1 f hf q (nStaging q hq), fun w' hw => by
      rw [hw] at k2; exact k2 rfl⟩
  · have hst := prepare_staged (w := World.start fs) hc h0 h1 hlk h.prep
    have hp := h.pubPre hc
    obtain ⟨etag, n0, k1, ds, _, rfl⟩ := h.offered
    have hb : ∀ b, Ext.sha b = st.snapshot.hash → (Ext.streamSnapshot b).2 = false := by
      rw [h.staged.snapHash]
      exact hbad etag n0 k1
    let P : FS → Prop := fun f => f.WF ∧ ∀ q, Q q → f.leaf q = fs.leaf q
    have frame : ∀ {S : Path → Prop}, (∀ q, Q q → ¬ S q) → ∀ f f' : FS, P f → Change S f f' → P f' := by
      rintro S hS f f' ⟨g1, g2⟩ g3
      obtain ⟨g4, g5⟩ := g3 g1
      exact ⟨g4, fun q hq => by rw [g5 q (hS q hq)]; exact g2 q hq⟩
    have hfail : ∀ {w1' s1 w2 s2 w3 w4}, moveStaged c st env w1 = (.ok (), w1') →
        s.absorb st env w1' = (.ok s1, w2) → s1.clean c env w2 = (.ok s2, w3) → w3.cur.WF →
        rsyncPart c s2 env w3 ≠ (.ok (), w4) := by
      intro w1' s1 w2 s2 w3 w4 e1 e2 e3 hw3 e4
      obtain ⟨m1, m2⟩ := malformed_rsync hl hp hst hb e1 e2 e3
      unfold rsyncPart at e4
      rw [if_pos he] at e4
      exact (updateRsync_fails hw3 (hc.objects he) m1 m2).1 _ e4
    have hk : Keeps P (World.start fs) (process depth c env (World.start fs)).2 := by
      rw [h']
      refine Tr.trans (Keeps.of_within h.within (frame nStaging)) ?_
      refine publish_by (T := Keeps P) hp h.wf ?_ ?_ ?_ ?_ ?_ ?_
      · exact fun h => Keeps.of_within h (frame nApply)
      · exact fun _ _ _ h => Keeps.of_within h (frame (fun _ _ => id))
      · exact fun _ _ _ _ _ _ _ h => Keeps.of_within h (frame nApply)
      · intro w1' s1 w2 s2 w3 e1 e2 e3 hw3 hs2 _
        obtain ⟨m1, m2⟩ := malformed_rsync hl hp hst hb e1 e2 e3
        unfold rsyncPart
        rw [if_pos he]
        refine Keeps.of_within (updateRsync_fails hw3 (hc.objects he) m1 m2).2 (frame ?_)
        rintro q (rfl | rfl | rfl | hq) hq'
        · exact hl.rrdpRsync.not_both (List.prefix_append _ _) ((List.prefix_append _ _).trans hq')
        · exact hl.rsyncState.1 ((List.prefix_append _ _).trans hq')
        · exact hl.rsyncRsyncState.1 ((List.prefix_append _ _).trans hq')
        · exact revision_not_current hq hq'
      · intro _ _ _ _ _ _ e1 e2 e3 e4 hw4
        exact absurd e4 (hfail e1 e2 e3 (rsync_wf e1 e2 e3 hp h.wf))
      · intro _ _ _ _ _ _ _ e1 e2 e3 e4
        exact absurd e4 (hfail e1 e2 e3 (rsync_wf e1 e2 e3 hp h.wf))
    refine ⟨fun f hf => (hk.start ⟨hc.wf, fun _ _ => rfl⟩ f hf).2, fun w' hw => ?_⟩
    exfalso
    rw [h'] at hw
    obtain ⟨w1', s1, w2, s2, w3, w4, w5, e1, e2, e3, e4, _⟩ := publish_ok hw
    exact hfail e1 e2 e3 (rsync_wf e1 e2 e3 hp h.wf) e4

/-! ## The hypotheses can be met; what does not hold -/

section
open Demo
set_option maxRecDepth 100000

/-- A server with the notification `n` and one snapshot, at time `t`. -/
def Demo.serving (t : Time) (n : Notif) (snap : Bytes) : Env := { treeEnv with
  clock := fun _ => t
  http := fun _ r =>
    if r.uri = uri "q" then .ok .absent (some (Inst.toBytes n))
    else if r.uri = n.snapUri then .ok .absent (some snap)
    else if r.uri = uri "ta" then .ok .absent (some (Inst.toBytes taCert))
    else .other 404 }

/-- The second version, with the objects of the tree, which has issues. -/
def Demo.badNotif : Notif := ⟨5, 2, uri "qs2", treeSnap, []⟩
/-- The second version, with the same objects as the first. -/
def Demo.nextNotif : Notif := ⟨5, 2, uri "qs2", goodSnap, []⟩
/-- After a successful run with validation. -/
def Demo.fsG : FS := after confT goodEnv fsT

def Demo.nameT : Str := "q".toList

theorem Demo.notifUriT : NotifUri confT base nameT :=
  ⟨by decide, by decide, by decide, by decide, by decide, by decide, by decide⟩

theorem Demo.offersT {c : Config} {t : Time} {n n' : Notif} {snap : Bytes} {fs : FS} {etag : Option Str}
    (hm : c.fetchMap = none) (hu : c.notificationUri = uri "q")
    (h : Offers c (serving t n snap) fs etag n') : n' = n :=
  offers_only hm (fun k r hr => by
    show (if r.uri = uri "q" then _ else _) = _
    rw [if_pos (hr.trans hu)]) h

theorem Demo.runCondsT (t : Time) {n : Notif} {snap : Bytes} (h : goodNotifB base nameT n = true) :
    RunConds confT base nameT (serving t n snap) fsT where
  uri := notifUriT
  wf := FS.wf_of_check (by decide +kernel)
  state := by
    rintro s ⟨b, h, _⟩
    have : fsT.read confT.rrdpStatePath = none := by decide
    rw [this] at h; cases h
  source := fun etag n' hn => by
    rw [offersT rfl rfl hn]
    exact goodNotif_of_check h
  objects := fun _ => cleanObjects _

/-- The state after the successful run. -/
def Demo.stateG : Option RrdpState := (fsG.read confT.rrdpStatePath).bind Ext.decState

theorem Demo.recordedG : ∃ s, stateG = some s ∧ Recorded confT fsG s := by
  have h : (stateG.isSome && (fsG.read confT.rrdpStatePath).isSome) = true := by decide +kernel
  unfold stateG at h ⊢
  match hr : fsG.read confT.rrdpStatePath with
  | none => rw [hr] at h; cases h
  | some b =>
    rw [hr] at h
    match hd : (Ext.decState b : Option RrdpState) with
    | none => rw [show (some b : Option Bytes).bind Ext.decState = Ext.decState b from rfl, hd] at h; cases h
    | some s => exact ⟨s, hd, b, hr, hd⟩

theorem Demo.stateG_is {P : RrdpState → Prop} [DecidablePred P]
    (h : stateG.all (fun s => decide (P s)) = true) : ∀ s, Recorded confT fsG s → P s := by
  intro s hs
  obtain ⟨s', h1, h2⟩ := recordedG
  rw [h1] at h
  have := hs.unique h2
  subst this
  exact of_decide_eq_true h

theorem Demo.runCondsG (t : Time) {n : Notif} {snap : Bytes} (h : goodNotifB base nameT n = true) :
    RunConds confT base nameT (serving t n snap) fsG where
  uri := notifUriT
  wf := FS.wf_of_check (by decide +kernel)
  state := by
    have h1 : ∀ s, Recorded confT fsG s → s.source.uri = confT.notificationUri ∧ s.source.name = nameT ∧
        s.mappings = ⟨base, confT.rrdpDir⟩ ∧ s.snapshot.all (fun x => goodRelB nameT x.relPath) = true ∧
        s.deltas = [] ∧ s.deprecated = [] := stateG_is (by decide +kernel)
    intro s hs
    obtain ⟨a, b, c, d, e, f⟩ := h1 s hs
    exact SaneCheck.sane (dep := []) ⟨a, b, c, d, by rw [e]; rfl, by rw [f]; rfl, rfl⟩
  source := fun etag n' hn => by
    rw [offersT rfl rfl hn]
    exact goodNotif_of_check h
  objects := fun _ => cleanObjects _

/-- One run publishes, with issues another does not. -/
example : (process 5 confT (serving 50 goodNotif goodSnap) (World.start fsT)).1 = .ok () ∧
    (process 5 confT (serving 50 treeNotif treeSnap) (World.start fsT)).1 = .error .invalid ∧
    Withheld confT fsT (process 5 confT (serving 50 treeNotif treeSnap) (World.start fsT)) := by
  refine ⟨by decide +kernel, by decide +kernel, ?_⟩
  rcases run_withheld (depth := 5) (runCondsT 50 (n := treeNotif) (snap := treeSnap) (by decide)) with h | ⟨s, st, w1, n, h, h'⟩
  · exact h
  · exfalso
    have e : (process 5 confT (serving 50 treeNotif treeSnap) (World.start fsT)).2.cur.get
        (confT.notifPath nameT) = none := by decide +kernel
    have e' : (prepare 5 confT (serving 50 treeNotif treeSnap) (World.start fsT)).1 = .error .invalid := by
      decide +kernel
    rw [h.prep] at e'
    cases e'

example : confT.talFiles ≠ [] ∧ confT.talRejectInvalid = true := by decide

/-- No validator was recorded before the first run. -/
example : ∀ s, Recorded confT fsT s → s.validator = none := by
  rintro s ⟨b, h, _⟩
  have : fsT.read confT.rrdpStatePath = none := by decide
  rw [this] at h; cases h

/-- **C18 does not hold for data fetched less than an hour ago.** Content with issues is not published by
a first run, but it is published, ten seconds after the successful publication of an earlier version,
since it is that version which is validated again. -/
theorem C18_refuted_for_recent_data :
    RunConds confT base nameT (serving 60 badNotif treeSnap) fsG ∧
    confT.talFiles ≠ [] ∧ confT.talRejectInvalid = true ∧
    (process 5 confT (serving 60 badNotif treeSnap) (World.start fsT)).1 = .error .invalid ∧
    (process 5 confT (serving 60 badNotif treeSnap) (World.start fsG)).1 = .ok () ∧
    (process 5 confT (serving 60 badNotif treeSnap) (World.start fsG)).2.cur.file?
      (confT.notifPath nameT) = some (Ext.writeNotif badNotif) :=
  ⟨runCondsG 60 (by decide), by decide, by decide, by decide +kernel, by decide +kernel,
    by decide +kernel⟩

/-- An hour later it is refused. -/
example : (process 5 confT (serving 3650 badNotif treeSnap) (World.start fsG)).1 = .error .invalid := by
  decide +kernel

/-- The objects of the two good versions. -/
def Demo.contentG : Uuid → Nat → Objects := fun s k =>
  if s = 5 ∧ (k = 1 ∨ k = 2) then
    fun u => (goodObjects.reverse.find? (fun e => decide (e.1.toStr = u))).map (·.2)
  else fun _ => none

/-- The conditions of the partial theorem, an hour later. -/
example : RunConds confT base nameT (serving 3650 nextNotif goodSnap) fsG ∧
    (∀ etag n, Offers confT (serving 3650 nextNotif goodSnap) fsG etag n →
      Truthful contentG n ∧ ReachesSerial n) ∧
    (∀ s v, Recorded confT fsG s → s.validator = some v → v.repos.Keyed ∧
      ∀ d, mapGet v.repos.data confT.notificationUri = some d → d.Genuine contentG ∧
        d.fetched = false ∧
        (∀ k, d.lastFetch + 3600 ≤ (serving 3650 nextNotif goodSnap).clock k) ∧
        ∀ etag n, Offers confT (serving 3650 nextNotif goodSnap) fsG etag n → d.session = n.session →
          d.serial ≤ n.serial) ∧
    (process 5 confT (serving 3650 nextNotif goodSnap) (World.start fsG)).1 = .ok () := by
  have hparse : Ext.parseSnapshot goodSnap = some goodObjects := by decide +kernel
  refine ⟨runCondsG 3650 (by decide), ?_, ?_, by decide +kernel⟩
  · intro etag n hn
    rw [offersT rfl rfl hn]
    refine ⟨⟨(fun d hd => by cases hd), (fun b els hb hp => ?_), (fun d hd => by cases hd)⟩, (fun x hx => by cases hx), fun h => absurd rfl h⟩
    have : b = goodSnap := hb
    rw [this, hparse] at hp
    cases hp
    intro u
    rfl
  · have key : ∀ s, Recorded confT fsG s → s.validator.all (fun v =>
        decide (v.repos.fetchers.map (·.1) = [uri "q"]) &&
        v.repos.fetchers.all (fun e => decide (e.2.notificationUri = e.1)) &&
        (mapGet v.repos.data confT.notificationUri).all (fun d => d.fetched == false &&
          decide (d.lastFetch = 50) && decide (d.session = 5) && decide (d.serial = 1) &&
          decide (d.objects = mapOfList (goodObjects.map (fun e => (e.1.toStr, e.2)))))) = true :=
      stateG_is (P := fun s => s.validator.all (fun v =>
        decide (v.repos.fetchers.map (·.1) = [uri "q"]) &&
        v.repos.fetchers.all (fun e => decide (e.2.notificationUri = e.1)) &&
        (mapGet v.repos.data confT.notificationUri).all (fun d => d.fetched == false &&
          decide (d.lastFetch = 50) && decide (d.session = 5) && decide (d.serial = 1) &&
          decide (d.objects = mapOfList (goodObjects.map (fun e => (e.1.toStr, e.2)))))) = true)
        (by decide +kernel)
    intro s v hs hv
    have h := key s hs
    rw [hv] at h
    simp only [Option.all_some, Bool.and_eq_true, decide_eq_true_eq] at h
    obtain ⟨⟨h1, h2⟩, h3⟩ := h
    refine ⟨⟨by rw [h1]; decide, fun e he => of_decide_eq_true (List.all_eq_true.1 h2 e he)⟩,
      fun d hd => ?_⟩
    rw [hd] at h3
    simp only [Option.all_some, Bool.and_eq_true, decide_eq_true_eq, beq_iff_eq] at h3
    obtain ⟨⟨⟨⟨q1, q2⟩, q3⟩, q4⟩, q5⟩ := h3
    refine ⟨fun u => ?_, q1, fun k => by rw [q2]; show (50 : Int) + 3600 ≤ 3650; decide, fun etag n hn hs => ?_⟩
    · rw [q3, q4, q5]
      refine (snapshot_objects (o := contentG 5 1) ?_ u)
      intro u
      rfl
    · rw [offersT rfl rfl hn, q4]; decide

/-- A script that says no. -/
def Demo.confS (reject : Bool) : Config :=
  { conf with scripts := [["x".toList]], talRejectInvalid := reject }
def Demo.envNo : Env := { envAt 0 notif1 with script := fun _ _ => some false }

example : (process 5 (confS false) envNo (World.start fs0)).1 = .ok () ∧
    (process 5 (confS false) envNo (World.start fs0)).2.ran = [["x".toList]] ∧
    (process 5 (confS true) envNo (World.start fs0)).1 ≠ .ok () ∧
    (process 5 (confS true) envNo (World.start fs0)).2.ran = [["x".toList]] ∧
    (process 5 (confS true) (envAt 0 notif1) (World.start fs0)).1 = .ok () ∧
    (process 5 (confS false) { envNo with script := fun _ _ => none } (World.start fs0)).1 ≠ .ok () := by
  decide +kernel

example : RunConds (confS true) base name envNo fs0 :=
  ⟨⟨by decide, by decide, by decide, by decide, by decide, by decide, by decide⟩,
    FS.wf_of_check (by decide +kernel), fun s hs => by
      obtain ⟨b, h, _⟩ := hs
      have : fs0.read (confS true).rrdpStatePath = none := by decide
      rw [this] at h
      injection h,
    fun etag n h => by
      rw [offers_only (n := notif1) rfl (fun k r hr => by
        show (if r.uri = uri "n" then _ else _) = _
        rw [if_pos (show r.uri = uri "n" from hr)]) h]
      exact goodNotif_of_check (by decide),
    fun _ => cleanObjects _⟩

example : (loadState (confS false) envNo (World.start fs0)).1 =
    .ok (freshState (confS false) base name) := by decide +kernel

/-- The publication takes place although the script said no. -/
example : process 5 (confS false) envNo (World.start fs0) =
      process 5 (confS false) { envNo with script := fun _ _ => some true } (World.start fs0) ∧
    (process 5 (confS false) envNo (World.start fs0)).1 = .ok () ∧
    (process 5 (confS false) envNo (World.start fs0)).2.cur ≠ fs0 ∧ (confS false).scripts ≠ [] :=
  ⟨(C19_exit_status_ignored 5 (confS false) envNo (fun _ _ => some true) (World.start fs0) rfl
    (fun _ _ _ => by simp [envNo])).symm, by decide +kernel, by decide +kernel, by decide⟩

/-- A snapshot that is no snapshot. -/
def Demo.junkNotif : Notif := ⟨1, 2, uri "s2", [2], [⟨2, uri "d2", [2]⟩]⟩
def Demo.junkEnv : Env := { envAt 1 junkNotif with
  http := fun _ r =>
    if r.uri = uri "n" then .ok .absent (some (Inst.toBytes junkNotif)) else .ok .absent (some [2]) }

theorem Demo.offersJunk {fs : FS} {etag : Option Str} {n : Notif} (h : Offers conf junkEnv fs etag n) :
    n = junkNotif :=
  offers_only rfl (fun k r hr => by
    show (if r.uri = uri "n" then _ else _) = _
    rw [if_pos (show r.uri = uri "n" from hr)]) h

example : (∀ f ∈ (process 5 conf junkEnv (World.start fs1)).2.crashPoints,
      f.leaf (conf.notifPath name) = fs1.leaf (conf.notifPath name)) ∧
    (process 5 conf junkEnv (World.start fs1)).1 ≠ .ok () := by
  have hc : RunConds conf base name junkEnv fs1 :=
    ⟨notifUri, FS.wf_of_check (by decide +kernel), saneState1, fun etag n h => by
      rw [offersJunk h]; exact goodNotif_of_check (by decide), fun _ => cleanObjects _⟩
  have h := C46_malformed_snapshot 5 conf junkEnv fs1 base name layout hc rfl
    (fun k r _ => by
      show (if r.uri = uri "n" then _ else _) ≠ _
      split <;> simp) (FS.noLinks_of_check (by decide +kernel))
    (fun etag n hn => by
      rw [offersJunk hn]
      rintro ⟨a, b⟩ ha ⟨a', b'⟩ ha' rel rel' h1 h2 h3
      have e1 := List.mem_cons.1 ha
      have e2 := List.mem_cons.1 ha'
      simp only [junkNotif, List.map_cons, List.map_nil, List.mem_singleton, Prod.mk.injEq] at e1 e2
      rcases e1 with ⟨_, rfl⟩ | ⟨_, rfl⟩ <;> rcases e2 with ⟨_, rfl⟩ | ⟨_, rfl⟩ <;> rfl)
    (fun etag n hn b hb => by
      rw [offersJunk hn] at hb
      have : b = [2] := hb
      subst this
      decide +kernel)
  refine ⟨fun f hf => h.1 f hf _ (Or.inl rfl), by decide +kernel⟩

end

end KSync
