import Verif.Lemmas.Update
import Verif.Examples.Setup

/-!
# Deciding whether there is something to do (properties C07, C08, C09)

`Recorded`, `Offers`, `Locates`, `IsLimit` and `Gapless` are defined in
`Verif/Spec/Basic.lean`.
-/

set_option linter.unusedVariables false

namespace KSync

/-- What can be said about requests after a run that found nothing to do: at most one,
for the notification file. -/
def AskedOnce [Ext] (c : Config) (etag : Option Str) (reqs : List Req) : Prop :=
  reqs = [] ∨ ∃ q, reqs = [q] ∧ c.Locates c.notificationUri (.uri q.uri q.insecure) ∧
    q.etag = etag

theorem asked_once [Ext] {c : Config} {etag : Option Str} {r : Req}
    (h : c.fetcher.Asks c.notificationUri etag r) : AskedOnce c etag [r] := by
  obtain ⟨src, h1, h2⟩ := h
  cases src with
  | file p => exact h2.elim
  | uri u m =>
    have h2 : r = ⟨u, m, etag⟩ := h2
    subst h2
    exact Or.inr ⟨_, rfl, resolve_locates.1 h1, rfl⟩

/-- **C07.** If all the source can offer is the version published last, then the run -
however it ends - changes nothing on disk at any point, runs no script, and sends at most
the one request for the notification file. -/
theorem C07_unchanged_no_effect [Ext] (depth : Nat) (c : Config) (env : Env) (fs : FS)
    (s : RrdpState) (snap : SnapshotState) (hs : Recorded c fs s)
    (hsnap : s.snapshot = some snap)
    (hsame : ∀ n, Offers c env fs s.source.etag n →
      n.session = snap.session ∧ n.serial = snap.serial) :
    (process depth c env (World.start fs)).2.crashPoints = [fs] ∧
    (process depth c env (World.start fs)).2.ran = [] ∧
    AskedOnce c s.source.etag (process depth c env (World.start fs)).2.reqs := by
  have hq := process_quiet (depth := depth) (c := c) (env := env) (w := World.start fs)
    (fun s' w1 n ds reset h1 h2 h3 => by
      have := loadState_recorded (w := World.start fs) hs h1
      subst this
      obtain ⟨h4, h5⟩ := hsame n h2
      unfold decideUpdate
      rw [hsnap]
      simp [h4, h5])
  obtain ⟨h1, h2, _, h3⟩ := hq
  refine ⟨?_, h2, ?_⟩
  · unfold World.crashPoints; rw [h1.1, h1.2]; rfl
  · rcases h3 with h3 | ⟨r, s', w1, h4, h5, h6⟩
    · exact Or.inl h3
    · have := loadState_recorded (w := World.start fs) hs h4
      subst this
      rw [h6]
      exact asked_once h5

/-- **C07, success.** If moreover the source answers with a well-formed notification and no
system call fails, the run succeeds. -/
theorem C07_unchanged_succeeds [Ext] (depth : Nat) (c : Config) (env : Env) (fs : FS)
    (s : RrdpState) (snap : SnapshotState) (src : FetchSource) (hs : Recorded c fs s)
    (hsnap : s.snapshot = some snap) (hmax : c.rrdpMaxDeltas ≠ some 0)
    (hf : NoFaults env) (hloc : c.Locates c.notificationUri src)
    (hans : src.Answers env fs s.source.etag (fun b => ∃ n, Ext.parseNotif b = some n ∧
      n.session = snap.session ∧ n.serial = snap.serial ∧ Gapless n.deltas)) :
    (process depth c env (World.start fs)).1 = .ok () := by
  obtain ⟨n, e, w2, h1, h2, h3, h4⟩ := readNotification_answers (f := c.fetcher)
    (w := { World.start fs with tick := (World.start fs).tick + 1 })
    (resolve_locates.2 hloc) (hf _) hans
  obtain ⟨ds, h5⟩ := sortVerify_ok hmax h4
  unfold process
  rw [M.bind_of_ok (loadState_run (w := World.start fs) hs (hf _))]
  have h6 : s.updateStaged c env { World.start fs with tick := (World.start fs).tick + 1 } =
      (.ok none, w2) := by
    unfold RrdpState.updateStaged
    rw [M.bind_of_ok h1]
    dsimp only
    rw [h5, M.bind_of_ok (a := ds) (w1 := w2) rfl]
    unfold decideUpdate
    rw [hsnap]
    simp [h2, h3]
  rw [M.bind_of_ok h6]
  rfl

/-- **C07, 'not modified'.** The same if the server always answers 'not modified'. -/
theorem C07_not_modified [Ext] (depth : Nat) (c : Config) (env : Env) (fs : FS)
    (s : RrdpState) (u : Str) (m : Bool) (hs : Recorded c fs s)
    (hloc : c.Locates c.notificationUri (.uri u m))
    (h304 : ∀ tick, env.http tick ⟨u, m, s.source.etag⟩ = .notModified) :
    (process depth c env (World.start fs)).2.crashPoints = [fs] ∧
    (process depth c env (World.start fs)).2.ran = [] ∧
    AskedOnce c s.source.etag (process depth c env (World.start fs)).2.reqs ∧
    (NoFaults env → (process depth c env (World.start fs)).1 = .ok ()) := by
  have hres := resolve_locates.2 hloc
  have noOffer : ∀ n, ¬ Offers c env fs s.source.etag n := by
    rintro n ⟨src, b, e, h1, h2, _⟩
    have := resolve_locates.2 h1
    rw [hres] at this
    cases this
    obtain ⟨tick, hdr, h3, _⟩ := h2
    rw [h304] at h3; cases h3
  have hq := process_quiet (depth := depth) (c := c) (env := env) (w := World.start fs)
    (fun s' w1 n ds reset h1 h2 h3 => by
      have := loadState_recorded (w := World.start fs) hs h1
      subst this
      exact absurd h2 (noOffer n))
  obtain ⟨h1, h2, _, h3⟩ := hq
  refine ⟨?_, h2, ?_, ?_⟩
  · unfold World.crashPoints; rw [h1.1, h1.2]; rfl
  · rcases h3 with h3 | ⟨r, s', w1, h4, h5, h6⟩
    · exact Or.inl h3
    · have := loadState_recorded (w := World.start fs) hs h4
      subst this
      rw [h6]
      exact asked_once h5
  · intro hf
    unfold process
    rw [M.bind_of_ok (loadState_run (w := World.start fs) hs (hf _))]
    have h6 : ∃ w2, s.updateStaged c env
        { World.start fs with tick := (World.start fs).tick + 1 } = (.ok none, w2) := by
      rcases updateStaged_cases s c env { World.start fs with tick := (World.start fs).tick + 1 }
        with ⟨e, w1, h1, h2, h3⟩ | ⟨w1, h1, _⟩ | ⟨n, _, _, _, _, h1, _⟩
      · exfalso
        unfold RrdpState.updateStaged Fetcher.readNotification at h1
        rw [show c.fetcher.resolve c.fetcher.notificationUri = .ok (.uri u m) from hres] at h1
        simp only [M.lift_ok, M.bind_run, M.pure_run', FetchSource.fetch, FetchSource.raw,
          httpGet_run, h304, M.pure_run] at h1
        cases h1
      · exact ⟨w1, h1⟩
      · exact absurd h1 (noOffer n)
    obtain ⟨w2, h6⟩ := h6
    rw [M.bind_of_ok h6]
    rfl

/-- The source does not answer 'not modified' to the request for the notification file. -/
def NotifAnswered [Ext] (c : Config) (env : Env) (etag : Option Str) : Prop :=
  ∀ u m tick, c.Locates c.notificationUri (.uri u m) → env.http tick ⟨u, m, etag⟩ ≠ .notModified

/-- **C08.** If all the source offers is a version of the published session with a lower
serial, the run fails and changes nothing at any point. -/
theorem C08_lower_serial_refused [Ext] (depth : Nat) (c : Config) (env : Env) (fs : FS)
    (s : RrdpState) (snap : SnapshotState) (hs : Recorded c fs s)
    (hsnap : s.snapshot = some snap)
    (hlow : ∀ n, Offers c env fs s.source.etag n →
      n.session = snap.session ∧ n.serial < snap.serial)
    (h304 : NotifAnswered c env s.source.etag) :
    (∃ e, (process depth c env (World.start fs)).1 = .error e) ∧
    (process depth c env (World.start fs)).2.crashPoints = [fs] ∧
    (process depth c env (World.start fs)).2.ran = [] := by
  have key : ∀ n ds reset, Offers c env fs s.source.etag n →
      decideUpdate s.snapshot { n with deltas := ds } ≠ .proceed reset := by
    intro n ds reset h2
    obtain ⟨h4, h5⟩ := hlow n h2
    have h6 : ¬ snap.serial < n.serial := by omega
    have h7 : snap.serial ≠ n.serial := by omega
    unfold decideUpdate
    rw [hsnap]
    simp [h4, h6, h7]
  have hq := process_quiet (depth := depth) (c := c) (env := env) (w := World.start fs)
    (fun s' w1 n ds reset h1 h2 h3 => by
      have := loadState_recorded (w := World.start fs) hs h1
      subst this
      exact key n ds reset h2)
  obtain ⟨h1, h2, _, _⟩ := hq
  refine ⟨?_, ?_, h2⟩
  · rcases process_cases depth c env (World.start fs) with ⟨e, w1, h1, h2, h3⟩ | ⟨s', w1, h1, h2, h3⟩
    · exact ⟨e, by rw [h1]⟩
    · have := loadState_recorded (w := World.start fs) hs h1
      subst this
      have hc : w1.cur = fs := h2.1
      rw [h3]
      rcases updateStaged_cases s' c env w1 with ⟨e, w2, h4, _⟩ | ⟨w2, h4, h5, _, h6⟩ |
        ⟨n, etag, ds, reset, w2, h4, h5, h6, _⟩
      · rw [M.bind_of_error h4]; exact ⟨e, rfl⟩
      · exfalso
        rcases h6 with ⟨n, h6, sn, h7, h8, h9⟩ | ⟨u, m, tick, h6, h7⟩
        · rw [hsnap] at h7; cases h7
          have := hlow n (hc ▸ h6)
          omega
        · exact h304 u m tick h6 h7
      · exact absurd h6 (key n ds reset (hc ▸ h4))
  · unfold World.crashPoints; rw [h1.1, h1.2]; rfl

/-- **C09.** If no notification the source offers has a usable delta list (the allowed
number of most recent deltas being a contiguous range of serials, each listed once, in
whatever order they are listed), the run fails and changes nothing at any point. -/
theorem C09_bad_deltas_refused [Ext] (depth : Nat) (c : Config) (env : Env) (fs : FS)
    (hbad : ∀ etag n, Offers c env fs etag n → ∀ ds, ¬ IsLimit c.rrdpMaxDeltas n.deltas ds)
    (h304 : ∀ etag, NotifAnswered c env etag) :
    (∃ e, (process depth c env (World.start fs)).1 = .error e) ∧
    (process depth c env (World.start fs)).2.crashPoints = [fs] ∧
    (process depth c env (World.start fs)).2.ran = [] := by
  have hq := process_quiet (depth := depth) (c := c) (env := env) (w := World.start fs)
    (fun s' w1 n ds reset h1 h2 h3 => absurd (sortVerify_limit h3) (hbad _ n h2 ds))
  obtain ⟨h1, h2, _, _⟩ := hq
  refine ⟨?_, ?_, h2⟩
  · rcases process_cases depth c env (World.start fs) with ⟨e, w1, h1, h2, h3⟩ | ⟨s', w1, h1, h2, h3⟩
    · exact ⟨e, by rw [h1]⟩
    · rw [h3]
      rcases updateStaged_cases s' c env w1 with ⟨e, w2, h4, _⟩ | ⟨w2, h4, h5, _, h6⟩ |
        ⟨n, etag, ds, reset, w2, h4, h5, h6, _⟩
      · rw [M.bind_of_error h4]; exact ⟨e, rfl⟩
      · exfalso
        -- the only successful way is 'no change', after the deltas were found usable
        unfold RrdpState.updateStaged at h4
        obtain ⟨r, w3, h7, h8⟩ := M.bind_ok.1 h4
        obtain ⟨_, src, hsrc, hc⟩ := readNotification_ok h7
        rcases hc with ⟨n, e, b, rfl, hb, hp⟩ | ⟨rfl, u, m, tick, rfl, hm⟩
        · dsimp only at h8
          obtain ⟨ds, w4, h9, _⟩ := M.bind_ok.1 h8
          rw [M.lift_ok_iff] at h9
          exact hbad _ n ⟨src, b, e, resolve_locates.1 hsrc, h2.1 ▸ hb, hp⟩ ds
            (sortVerify_limit h9.1)
        · exact h304 _ u m tick (resolve_locates.1 hsrc) hm
      · exact absurd (sortVerify_limit h5) (hbad _ n (h2.1 ▸ h4) ds)
  · unfold World.crashPoints; rw [h1.1, h1.2]; rfl

/-- **C09, a gap.** Without a limit: a serial missing between two listed ones makes the
list unusable. -/
theorem C09_gap_unusable [Ext] (ds ds' : List DeltaInfo) (a b : DeltaInfo) (x : Nat)
    (ha : a ∈ ds) (hb : b ∈ ds) (h1 : a.serial < x) (h2 : x < b.serial)
    (hx : ∀ d ∈ ds, d.serial ≠ x) : ¬ IsLimit none ds ds' := by
  intro h
  have hp := h.perm_of_none
  obtain ⟨i, hi, rfl⟩ := List.mem_iff_getElem.1 (hp.mem_iff.2 ha)
  obtain ⟨j, hj, rfl⟩ := List.mem_iff_getElem.1 (hp.mem_iff.2 hb)
  have hij : i ≤ j := by
    rcases Nat.lt_or_ge j i with hlt | hge
    · have := h.serials j (i - j) (by omega)
      have hh : j + (i - j) = i := by omega
      simp only [hh] at this
      omega
    · exact hge
  have e1 := h.serials i (j - i) (by omega)
  have hh : i + (j - i) = j := by omega
  simp only [hh] at e1
  have hk : i + (x - (ds'[i]).serial) < ds'.length := by omega
  have e2 := h.serials i (x - (ds'[i]).serial) hk
  refine hx _ (hp.mem_iff.1 (List.getElem_mem hk)) ?_
  omega

/-- **C09, a duplicate.** Without a limit: a serial listed twice makes the list unusable. -/
theorem C09_duplicate_unusable [Ext] (ds ds' : List DeltaInfo)
    (hd : ¬ (ds.map (·.serial)).Nodup) : ¬ IsLimit none ds ds' := by
  intro h
  apply hd
  have hp := h.perm_of_none
  rw [← (hp.map (·.serial)).nodup_iff]
  rw [List.nodup_iff_pairwise_ne, List.pairwise_iff_getElem]
  intro i j hi hj hij
  simp only [List.getElem_map, List.length_map] at hi hj ⊢
  have e1 := h.serials i (j - i) (by omega)
  have hh : i + (j - i) = j := by omega
  simp only [hh] at e1
  omega

/-! ## The hypotheses can be met -/

section
open Demo
set_option maxRecDepth 100000

/-- The state recorded after the first run of the demonstration world. -/
def Demo.state1 : RrdpState :=
  ⟨⟨uri "n", "n".toList, none⟩, ⟨"https://h/".toList, ["r".toList]⟩,
    some ⟨1, 1, snap 1, "s1".toList, 0⟩, [], [], none⟩

theorem Demo.recorded1 : Recorded conf fs1 state1 :=
  ⟨Ext.encState state1, by decide +kernel, by decide +kernel⟩

theorem Demo.locates : conf.Locates conf.notificationUri (.uri (uri "n") false) :=
  Config.Locates.direct rfl

/-- All the server offers in `envAt t n` is `n`. -/
theorem Demo.offers {t : Time} {n n' : Notif} {fs : FS} {etag : Option Str}
    (h : Offers conf (envAt t n) fs etag n') : n' = n := by
  obtain ⟨src, b, e, h1, h2, h3⟩ := h
  have : src = .uri (uri "n") false := by
    have h4 := resolve_locates.2 h1
    have h5 := resolve_locates.2 locates
    rw [h4] at h5; cases h5; rfl
  subst this
  obtain ⟨tick, hdr, h4, _⟩ := h2
  have h5 : HttpResp.ok .absent (some (Inst.toBytes n)) = .ok hdr (some b) := h4
  cases h5
  have h6 := Ext.parse_write n
  rw [show Ext.writeNotif n = Inst.toBytes n from rfl, h3] at h6
  cases h6; rfl

example : (process 5 conf (envAt 7 notif1) (World.start fs1)).2.crashPoints = [fs1] ∧
    (process 5 conf (envAt 7 notif1) (World.start fs1)).1 = .ok () :=
  ⟨(C07_unchanged_no_effect 5 conf (envAt 7 notif1) fs1 state1 _ recorded1 rfl
      (fun n hn => by rw [offers hn]; exact ⟨rfl, rfl⟩)).1,
   C07_unchanged_succeeds 5 conf (envAt 7 notif1) fs1 state1 _ _ recorded1 rfl (by decide)
      (fun _ => rfl) locates
      (fun tick => ⟨.absent, Inst.toBytes notif1, rfl, by simp, notif1, Ext.parse_write notif1,
        rfl, rfl, [], List.Perm.refl _, by simp⟩)⟩

/-- The server answers 'not modified' (the recorded state has an entity tag). -/
example : (process 5 conf { envAt 7 notif1 with http := fun _ _ => .notModified }
      (World.start fs1)).2.crashPoints = [fs1] :=
  (C07_not_modified 5 conf { envAt 7 notif1 with http := fun _ _ => .notModified } fs1 state1 _ _
    recorded1 locates (fun _ => rfl)).1

/-- A lower serial, after version 2 has been published. -/
example : ∃ e, (process 5 conf (envAt 7 notif1) (World.start fs2)).1 = .error e := by
  have hrec : ∃ s snap, Recorded conf fs2 s ∧ s.snapshot = some snap ∧ snap.session = 1 ∧
      snap.serial = 2 ∧ s.source.etag = none := by
    refine ⟨⟨⟨uri "n", "n".toList, none⟩, ⟨"https://h/".toList, ["r".toList]⟩,
      some ⟨1, 2, snap 2, "s2".toList, 1⟩, [⟨1, 2, [2], "d2".toList⟩],
      [⟨1, ["r".toList, "s1".toList]⟩], none⟩, _, ⟨(fs2.read conf.rrdpStatePath).getD [],
        by decide +kernel, by decide +kernel⟩, rfl, rfl, rfl, rfl⟩
  obtain ⟨s, sn, h1, h2, h3, h4, h5⟩ := hrec
  refine (C08_lower_serial_refused 5 conf (envAt 7 notif1) fs2 s sn h1 h2 (fun n hn => ?_)
    (fun u m tick hl => ?_)).1
  · rw [offers hn, h3, h4]; decide
  · have h6 := resolve_locates.2 hl
    have h7 := resolve_locates.2 locates
    rw [h6] at h7; cases h7
    intro h8; cases h8

/-- A notification listing deltas 2 and 4 but not 3. -/
def Demo.notifGap : Notif := ⟨1, 4, uri "s3", snap 3, [⟨4, uri "d3", [3]⟩, ⟨2, uri "d2", [2]⟩]⟩

example : ∃ e, (process 5 conf (envAt 7 notifGap) (World.start fs1)).1 = .error e := by
  refine (C09_bad_deltas_refused 5 conf (envAt 7 notifGap) fs1 (fun etag n hn ds => ?_)
    (fun etag u m tick hl => ?_)).1
  · rw [offers hn]
    exact C09_gap_unusable _ _ ⟨2, uri "d2", [2]⟩ ⟨4, uri "d3", [3]⟩ 3 (by decide) (by decide)
      (by decide) (by decide) (by decide)
  · have h6 := resolve_locates.2 hl
    have h7 := resolve_locates.2 locates
    rw [h6] at h7; cases h7
    intro h8; cases h8

example : ∀ ds', ¬ IsLimit none [⟨2, uri "d2", [2]⟩, ⟨2, uri "d3", [3]⟩] ds' :=
  fun ds' => C09_duplicate_unusable _ ds' (by decide)

end

end KSync
