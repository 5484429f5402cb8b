import Verif.Lemmas.Accepted
import Verif.Lemmas.Prevalidate
import Verif.Examples.Loop
import Verif.Examples.Deltas

/-!
# Validation (properties C37 to C43, C49, C52, C53)

What the validator accepts, how it counts, on which data it works and what it requests.  The
vocabulary is in `Verif/Spec/Validation.lean`.
-/

namespace KSync

/-! ## Counting -/

/-- **C37.** In the report of a validation there is an entry for exactly the repositories named
by some CA in the report; its numbers are the sums over these CAs, and its issues are theirs. -/
theorem C37_counts [Ext] {v v' : Validator} {depth : Nat} {offline : Bool} {env : Env}
    {w w' : World} {rep : Report} (h : v.validate depth offline env w = (.ok (rep, v'), w')) :
    rep.Adds := (validate_tree h).2.2.1.adds

section
open Demo
set_option maxRecDepth 100000

/-- The result of validating the tree of `Verif/Examples/Tree.lean`. -/
def Demo.treeRep : Report := match treeRun.1 with
  | .ok x => x.1
  | .error _ => Report.zero
def Demo.treeVal : Validator := match treeRun.1 with
  | .ok x => x.2
  | .error _ => validator

/-- The hypothesis of `C37_counts`, and of all theorems below that start with a validation. -/
theorem Demo.tree_ok : validator.validate 5 false treeEnv (World.start fs0) =
    (.ok (treeRep, treeVal), treeRun.2) := Prod.ext (by decide +kernel) rfl

example : treeRep.certs.length = 2 ∧ (mapGet treeRep.repos (uri "q")).map (fun r =>
    (r.caCerts, r.roas, r.vrps, r.issues.length)) = some (1, 1, 1, 3) := by decide +kernel

end

/-- **C37, merging.** The order in which two reports are merged does not matter for the numbers. -/
theorem C37_merge_order (a b : Report) (ha : (a.repos.map (·.1)).Nodup)
    (hb : (b.repos.map (·.1)).Nodup) (u : Str) :
    (mapGet (a.addOther b).repos u = none ↔ mapGet (b.addOther a).repos u = none) ∧
    ∀ r r', mapGet (a.addOther b).repos u = some r → mapGet (b.addOther a).repos u = some r' →
      r.SameNumbers r' := by
  have h1 : mapGet (a.addOther b).repos u = _ := merge_get b.repos a.repos hb u
  have h2 : mapGet (b.addOther a).repos u = _ := merge_get a.repos b.repos ha u
  rw [h1, h2]
  match mapGet a.repos u, mapGet b.repos u with
  | none, none => exact ⟨Iff.rfl, fun r r' h => by cases h⟩
  | some x, none =>
    refine ⟨⟨(fun h => by cases h), (fun h => by cases h)⟩, fun r r' h h' => ?_⟩
    cases h; cases h'
    exact ⟨rfl, rfl, rfl, rfl, rfl, .refl _⟩
  | none, some x =>
    refine ⟨⟨(fun h => by cases h), (fun h => by cases h)⟩, fun r r' h h' => ?_⟩
    cases h; cases h'
    exact ⟨rfl, rfl, rfl, rfl, rfl, .refl _⟩
  | some x, some y =>
    refine ⟨⟨(fun h => by cases h), (fun h => by cases h)⟩, fun r r' h h' => ?_⟩
    cases h; cases h'
    exact ⟨Nat.add_comm .., Nat.add_comm .., Nat.add_comm .., Nat.add_comm .., Nat.add_comm ..,
      List.perm_append_comm⟩

section
open Demo
set_option maxRecDepth 100000

example : (treeRep.repos.map (·.1)).Nodup := by decide +kernel

end

/-! ## Repository data -/

/-- **C38.** Cached data are those of their version; the deltas of a notification are consecutive,
reach from the version after the cached one (or an earlier one) to the notification's, can all be
had and describe the changes.  Then the update from deltas succeeds and gives exactly the objects of
the notification's version. -/
theorem C38_deltas_give_snapshot [Ext] {content : Uuid → Nat → Objects} {n : Notif}
    {etag : Option Str} {d : RepoData} {f : Fetcher} {time : Time} {env : Env} {w : World}
    (hf : NoFaults env) (ht : Truthful content n) (hg : d.Genuine content)
    (hs : d.session = n.session) (hgap : Gapless n.deltas)
    (hfirst : ∃ x ∈ n.deltas, x.serial ≤ d.serial + 1) (hlast : ∃ x ∈ n.deltas, x.serial = n.serial)
    (hmax : ∀ x ∈ n.deltas, x.serial ≤ n.serial) (hold : d.serial ≤ n.serial)
    (h64 : d.serial + 1 < 2 ^ 64)
    (hd : ∀ x ∈ n.deltas, f.Delivers env w.cur x) :
    ∃ d' w', updateFromDeltas n etag d f time env w = (.ok (.ok (), d'), w') ∧
      d'.session = n.session ∧ d'.serial = n.serial ∧
      ∀ u, mapGet d'.objects u = content n.session n.serial u := by
  obtain ⟨ds, hv⟩ := sortVerify_ok (max := none) (by decide) hgap
  obtain ⟨d', w', h1⟩ := updateFromDeltas_progress (etag := etag) (time := time) hf ht hg hs hv
    hfirst (Nat.ne_of_lt h64) hd
  obtain ⟨_, h2, _, _, _, h34, h5, _, h6⟩ := updateFromDeltas_ok h1
  obtain ⟨h3, h4⟩ := h34 (Nat.ne_of_lt h64) (fun x hx => (ht.range x hx).2)
  have h7 : d'.serial = n.serial := by
    obtain ⟨x, hx, hxs⟩ := hlast
    have := h4 x hx
    rcases h5 with h5 | ⟨y, hy, h5⟩
    · omega
    · have := hmax y hy
      omega
  refine ⟨d', w', h1, h2, h7, fun u => ?_⟩
  have := h6 content ht hg u
  rw [h2, h7] at this
  exact this

section
open Demo
set_option maxRecDepth 100000

/-- The hypotheses of `C38_deltas_give_snapshot` are met by two deltas in reverse order. -/
example : NoFaults envV ∧ Truthful versions notifV ∧ dataV.Genuine versions ∧
    dataV.session = notifV.session ∧ Gapless notifV.deltas ∧
    (∃ x ∈ notifV.deltas, x.serial ≤ dataV.serial + 1) ∧
    (∃ x ∈ notifV.deltas, x.serial = notifV.serial) ∧ (∀ x ∈ notifV.deltas, x.serial ≤ notifV.serial) ∧
    dataV.serial ≤ notifV.serial ∧ dataV.serial + 1 < 2 ^ 64 ∧ ∀ x ∈ notifV.deltas, fetcherV.Delivers envV fs0 x := by
  refine ⟨fun _ => rfl, truthfulV, genuineV, rfl,
    ⟨[⟨2, uri "v2", delta2⟩, ⟨3, uri "v3", delta3⟩], List.Perm.swap .., ?_⟩,
    by decide +kernel, by decide +kernel, by decide +kernel, by decide +kernel, by decide +kernel, ?_⟩
  · intro i h
    match i, h with
    | 0, _ => rfl
    | i + 1, h => exact absurd h (by simp)
  · intro x hx
    rcases List.mem_cons.1 hx with rfl | hx
    · exact ⟨.uri (uri "v3") true, .direct rfl, fun _ => ⟨.absent, delta3, by
        show envV.http 0 _ = _; decide +kernel, by decide, rfl, els3, by decide +kernel⟩⟩
    · cases List.mem_singleton.1 hx
      exact ⟨.uri (uri "v2") true, .direct rfl, fun _ => ⟨.absent, delta2, by
        show envV.http 0 _ = _; decide +kernel, by decide, rfl, els2, by decide +kernel⟩⟩

end

/-- **C38, one delta.** A delta that describes a change can be applied and brings it about. -/
theorem C38_delta_applies [Ext] {els : List DeltaElement} {objs : List (Str × Bytes)} {a b : Objects}
    (hc : ChangeOf els a b) (ha : ∀ u, mapGet objs u = a u) :
    ∃ objs', applyElements objs els = (.ok (), objs') ∧ ∀ u, mapGet objs' u = b u := by
  obtain ⟨objs', h⟩ := change_applies (objs := objs) els hc.once
    (fun u h x hx => by rw [ha]; exact (hc.update u h x hx).2)
    (fun u h hx => by rw [ha]; exact (hc.withdraw u h hx).2)
  exact ⟨objs', h, change_applied hc ha h⟩

section
open Demo
set_option maxRecDepth 100000

example : ChangeOf els3 (versions 5 2) (versions 5 3) := change3

end

/-- **C38, any outcome.** Whenever an update from deltas reports success, the data are those of
some version of the session, if they were before; this version is not before the cached one nor
before any delta in the notification. -/
theorem C38_success_is_version [Ext] {content : Uuid → Nat → Objects} {n : Notif}
    {etag : Option Str} {d d' : RepoData} {f : Fetcher} {time : Time} {env : Env} {w w' : World}
    (h : updateFromDeltas n etag d f time env w = (.ok (.ok (), d'), w')) (ht : Truthful content n)
    (hg : d.Genuine content) : d'.Genuine content ∧ d'.session = n.session ∧ d.serial ≤ d'.serial ∧
      ∀ x ∈ n.deltas, x.serial ≤ d'.serial := by
  obtain ⟨_, h2, _, ⟨x, hx, hle⟩, _, h34, _, _, h6⟩ := updateFromDeltas_ok h
  refine ⟨h6 content ht hg, h2, h34 (fun he => ?_) (fun x hx => (ht.range x hx).2)⟩
  have h0 := (ht.range x hx).1
  unfold serialAfter at hle
  rw [if_pos (by omega)] at hle
  omega

section
open Demo
set_option maxRecDepth 100000

/-- The hypotheses of `C38_success_is_version` are met. -/
example : ∃ d' w', updateFromDeltas notifV none dataV fetcherV 5000 envV (World.start fs0) =
    (.ok (.ok (), d'), w') ∧ d'.serial = 3 :=
  match h : updateFromDeltas notifV none dataV fetcherV 5000 envV (World.start fs0) with
  | (.ok (.ok (), d'), w') => ⟨d', w', rfl, by
      have := congrArg (fun x : Except Err (Except Err Unit × RepoData) × World =>
        match x.1 with | .ok y => y.2.serial | .error _ => 0) h
      have h2 : (match (updateFromDeltas notifV none dataV fetcherV 5000 envV (World.start fs0)).1 with
        | .ok y => y.2.serial | .error _ => 0) = 3 := by decide +kernel
      exact this.symm.trans h2⟩
  | (.ok (.error e, d'), w') => by
      have h2 : (match (updateFromDeltas notifV none dataV fetcherV 5000 envV (World.start fs0)).1 with
        | .ok (.ok (), _) => true | _ => false) = true := by decide +kernel
      rw [h] at h2; cases h2
  | (.error e, w') => by
      have h2 : (match (updateFromDeltas notifV none dataV fetcherV 5000 envV (World.start fs0)).1 with
        | .ok (.ok (), _) => true | _ => false) = true := by decide +kernel
      rw [h] at h2; cases h2

end

/-- **C38, the last serial.** When the cached data have the last of the 64-bit serials and no delta is
announced with serial 0, no delta is used or even fetched, and the data stay as they are. -/
theorem C38_at_last_serial [Ext] {n : Notif} {etag : Option Str} {d : RepoData} {f : Fetcher} {time : Time}
    {env : Env} {w : World} (hl : d.serial = 2 ^ 64 - 1) (h0 : ∀ x ∈ n.deltas, 0 < x.serial) :
    ∃ e, updateFromDeltas n etag d f time env w = (.ok (.error e, d), w) := by
  have hn : nextSerial d.serial = 0 := by rw [hl]; rfl
  unfold updateFromDeltas
  by_cases hs : n.session ≠ d.session
  · exact ⟨_, by rw [if_pos hs]; rfl⟩
  · rw [if_neg hs]
    match hv : sortVerify none n.deltas with
    | .error e => exact ⟨e, rfl⟩
    | .ok [] => exact ⟨_, rfl⟩
    | .ok (first :: rest) =>
      have := h0 first ((sortVerify_limit hv).perm_of_none.mem_iff.1 (List.mem_cons_self ..))
      dsimp only
      rw [hn, if_pos this]
      exact ⟨_, rfl⟩

section
open Demo
set_option maxRecDepth 100000

example : ({ dataV with serial := 2 ^ 64 - 1 } : RepoData).serial = 2 ^ 64 - 1 ∧
    notifV.deltas.length = 2 ∧ ∀ x ∈ notifV.deltas, 0 < x.serial := by decide +kernel

/-- The condition that there is no delta with serial 0 is needed: such a delta is applied to the data with
the last serial, which have serial 0 then. -/
example : (match (updateFromDeltas { notifV with deltas := [⟨0, uri "v2", delta2⟩] } none
      { dataV with serial := 2 ^ 64 - 1 } fetcherV 5000 envV (World.start fs0)).1 with
    | .ok (.ok (), d') => some (d'.serial, mapGet d'.objects (rs "b").toStr)
    | _ => none) = some (0, some [9]) := by decide +kernel

end

/-- **C39.** The data used for a repository are one of: those in the cache, the snapshot of a
notification, or the result of applying each of the consecutive deltas of a notification
completely.  If there are none to be used, then any left in the cache are as before, apart
from the mark that they have been looked at.  Other repositories' data are not touched. -/
theorem C39_never_half_applied [Ext] {v : Visited} {uri : Str} {offline : Bool} {time : Time}
    {env : Env} {w w' : World} {x : Except Err (Except Err RepoData × Visited)}
    (h : v.getLatest uri offline time env w = (x, w')) :
    ∃ r v', x = .ok (r, v') ∧
      (∀ d, r = .ok d → mapGet v'.data uri = some d ∧ Latest env w.cur v uri offline time w.tick d) ∧
      (∀ e, r = .error e → Unavailable env w.cur v offline uri ∧
        ∀ d, mapGet v'.data uri = some d →
          ∃ d0, mapGet v.data uri = some d0 ∧ d = { d0 with fetched := true }) ∧
      ∀ u, u ≠ uri → mapGet v'.data u = mapGet v.data u := by
  obtain ⟨r, v', rfl, hd⟩ := getLatest_done h
  refine ⟨r, v', rfl, hd.ok, fun e he => ⟨?_, hd.err e he⟩, hd.others⟩
  subst he
  exact getLatest_fails h

section
open Demo
set_option maxRecDepth 100000

/-- With both deltas the data are updated ... -/
example : (match (visitedV.getLatest (uri "v") false 5000 envV (World.start fs0)).1 with
    | .ok (.ok d, _) => some (d.serial, d.objects)
    | _ => none) = some (3, [((rs "a").toStr, [5])]) := by decide +kernel

/-- ... and without the second one they come from the snapshot. -/
example : (match (visitedV.getLatest (uri "v") false 5000 envW (World.start fs0)).1 with
    | .ok (.ok d, _) => some (d.serial, d.objects)
    | _ => none) = some (3, [((rs "a").toStr, [5])]) := by decide +kernel

end

/-- **C39, failing deltas.** If the update from deltas fails, at whatever point, then the data
used are those of the snapshot of the same notification, or there are none and none are left. -/
theorem C39_failed_deltas [Ext] {v v' : Visited} {uri : Str} {time : Time} {env : Env}
    {w w1 w2 w' : World} {r : Except Err RepoData} {d0 d1 : RepoData} {n : Notif} {etag : Option Str}
    {e : Err}
    (h : v.getLatest uri false time env w = (.ok (r, v'), w'))
    (h0 : mapGet v.data uri = some d0) (hf : d0.fetched = false)
    (hold : d0.lastFetch ≤ env.clock w.tick - 3600)
    (hn : (v.fetcherOf uri).readNotification d0.etag env { w with tick := w.tick + 1 } =
      (.ok (some (n, etag)), w1)) (hne : ¬ (n.session = d0.session ∧ n.serial = d0.serial))
    (hu : updateFromDeltas n etag { d0 with fetched := true } (v.fetcherOf uri) time env w1 =
      (.ok (.error e, d1), w2)) :
    (∃ d, r = .ok d ∧ mapGet v'.data uri = some d ∧
      FromSnapshot env w.cur (v.fetcherOf uri) time n d) ∨
    ((∃ e, r = .error e) ∧ mapGet v'.data uri = none) := by
  have hs1 := readNotification_same (v.fetcherOf uri) d0.etag env { w with tick := w.tick + 1 }
  rw [hn] at hs1
  have hs2 := (updateFromDeltas_frame hu).1
  unfold Visited.getLatest at h
  rw [Visited.getFetcher_eq] at h
  rw [h0] at h
  dsimp only at h
  rw [if_neg (by rw [hf]; decide), if_neg (by decide), now_bind,
    if_neg (Int.not_lt.2 hold), attempt_bind, hn] at h
  dsimp only at h
  rw [if_neg hne, M.bind_of_ok hu] at h
  dsimp only at h
  rw [attempt_bind] at h
  match h8 : dataFromSnapshot n etag (v.fetcherOf uri) time env w2 with
  | (.ok d', w3) =>
    rw [h8] at h
    dsimp only at h
    have h9 := dataFromSnapshot_ok h8
    rw [hs2.1, hs1.1] at h9
    have hg : mapGet (mapInsert (mapInsert v.data uri d1) uri d') uri = some d' :=
      (mapGet_insert ..).trans (if_pos rfl)
    unfold Visited.final at h
    dsimp only at h
    rw [hg] at h
    cases h
    exact .inl ⟨d', rfl, hg, h9⟩
  | (.error e', w3) =>
    rw [h8] at h
    dsimp only at h
    have hg : mapGet (mapErase (mapInsert v.data uri d1) uri) uri = none :=
      (mapGet_erase ..).trans (if_pos rfl)
    unfold Visited.final at h
    dsimp only at h
    rw [hg] at h
    cases h
    exact .inr ⟨⟨_, rfl⟩, hg⟩

section
open Demo
set_option maxRecDepth 100000

/-- The hypotheses of `C39_failed_deltas` are met: the second delta is missing. -/
example : mapGet visitedV.data (uri "v") = some dataV ∧ dataV.fetched = false ∧
    dataV.lastFetch ≤ envW.clock 0 - 3600 ∧
    ((visitedV.fetcherOf (uri "v")).readNotification none envW (World.start fs0)).1 =
      .ok (some (notifV, none)) ∧ ¬ (notifV.session = dataV.session ∧ notifV.serial = dataV.serial) ∧
    (match (updateFromDeltas notifV none { dataV with fetched := true } (visitedV.fetcherOf (uri "v"))
      5000 envW (World.start fs0)).1 with
      | .ok (.error _, d1) => some d1.serial
      | _ => none) = some 2 := by decide +kernel

end

/-- **C39, the cache.** If the data in the cache are those of the versions they claim to be and
all servers are truthful, then after a validation the data in the cache are again those of the
versions they claim to be. -/
theorem C39_cache_genuine [Ext] {v v' : Validator} {depth : Nat} {offline : Bool} {env : Env}
    {w w' : World} {rep : Report} (h : v.validate depth offline env w = (.ok (rep, v'), w'))
    (content : Str → Uuid → Nat → Objects) (hs : v.repos.Sources env w.cur content)
    (hg : v.repos.Genuine content) : v'.repos.Genuine content :=
  (validate_tree h).2.2.2.1 content hs hg

section
open Demo
set_option maxRecDepth 100000

/-- The hypotheses of `C39_cache_genuine`: an empty cache is genuine, and there is only one
notification to be found. -/
example : validator.repos.Genuine (fun _ => versions) := fun u d h => by cases h

end

/-! ## What is accepted -/

/-- **C40.** For each CA in the report one of two things is the case.  Either nothing of it is
accepted.  Or it has a valid manifest and CRL, the manifest's EE certificate is not on the CRL, and
each revoked ROA, ASPA and CA certificate on the manifest leads to an issue and is not accepted. -/
theorem C40_revoked [Ext] {v v' : Validator} {depth : Nat} {offline : Bool} {env : Env}
    {w w' : World} {rep : Report} (h : v.validate depth offline env w = (.ok (rep, v'), w'))
    {ca : ValidatedCa} (hca : ca ∈ rep.certs) :
    ∃ issuer, Trusted env w.cur (env.clock w.tick) v issuer ∧
      (ca.accepted = [] ∨ ∃ u objs content crlUri crl, ca.Names u ∧
        Usable env w.cur v.repos u objs ∧
        InOrder objs issuer ca.info (env.clock w.tick) content crlUri crl ∧
        content.eeSerial ∉ crl.revoked ∧
        ∀ uri hash obj, uri ≠ crlUri.toStr → Listed ca.info content uri hash →
          mapGet objs uri = some obj → RevokedObject issuer crl uri obj →
          uri ∉ ca.accepted ∧ ∃ k, ⟨some uri, k⟩ ∈ ca.issues) := by
  obtain ⟨issuer, kids, h1, h2, _⟩ := (validate_chain h).1 ca hca
  refine ⟨issuer, h1, ?_⟩
  cases h2 with
  | noRrdp _ hr => exact .inl hr.no_accepted
  | noData _ _ _ hr => exact .inl hr.no_accepted
  | disordered _ _ _ _ _ hr => exact .inl hr.no_accepted
  | examined u objs content crlUri crl h3 h4 he =>
    exact .inr ⟨u, objs, content, crlUri, crl, h3, h4, he.order, he.order.unrevoked,
      fun uri hash obj hne hl ho hr => he.revoked hne hl ho hr⟩

section
open Demo
set_option maxRecDepth 100000

/-- In the tree of the example there is a revoked certificate and a revoked ROA. -/
example : RevokedObject taCert ⟨9000, [9], [7]⟩ (rs "t/o.cer").toStr oldCer ∧
    RevokedObject kidCert ⟨9000, [4], [8]⟩ (rs "k/x.roa").toStr roa2 := by
  refine ⟨.inr (.inr ⟨(extension_iff (by decide)).1 (by decide +kernel), ⟨true, 9, [1]⟩, by decide +kernel, rfl, by decide +kernel⟩),
    .inl ⟨(extension_iff (by decide)).1 (by decide +kernel), roa2, by decide +kernel, ?_⟩⟩
  intro t ee p h
  have : Ext.processRoa roa2 kidCert 0 = some (4, ⟨65000, [], []⟩) := by decide +kernel
  have h' : Ext.processRoa roa2 kidCert 0 = some (ee, p) := h
  rw [this] at h'
  cases h'
  decide +kernel

example : treeRep.certs.all (fun ca => decide ((rs "k/x.roa").toStr ∉ ca.accepted)) = true ∧
    treeRep.certs.any (fun ca => decide ((rs "k/r.roa").toStr ∈ ca.accepted)) = true := by
  decide +kernel

end

section
open Demo KSync.Inst
set_option maxRecDepth 100000

namespace Demo

/-- a router certificate whose serial number is on the CRL of the trust anchor -/
def routerCer : Bytes := toBytes (⟨false, 9, []⟩ : CertObj)

def routerContent : MftContent :=
  ⟨some (rs "t/t.crl"), 2, [("t.crl".toList, taCrl), ("b.cer".toList, routerCer)]⟩
def routerSnap : Bytes := toBytes ([(rs "t/t.mft", toBytes routerContent), (rs "t/t.crl", taCrl),
  (rs "t/b.cer", routerCer)] : List (RsyncUri × Bytes))

def routerEnv : Env := { treeEnv with
  http := fun _ r =>
    if r.uri = uri "q" then .ok .absent (some (toBytes (⟨5, 1, uri "qs", routerSnap, []⟩ : Notif)))
    else if r.uri = uri "qs" then .ok .absent (some routerSnap)
    else if r.uri = uri "ta" then .ok .absent (some (toBytes taCert))
    else .other 404 }

end Demo

/-- **C40 does not extend to router certificates**: these are not looked up on the CRL.  Here one is
accepted, without any issue, though it is on the CRL. -/
theorem C40_refuted_for_router_certificates :
    (match (validator.validate 5 false routerEnv (World.start fs0)).1 with
      | .ok (rep, _) => rep.certs.map (fun ca => (ca.routers, ca.issues))
      | .error _ => []) = [([(rs "t/b.cer").toStr], [])] ∧
    Ext.decodeCert routerCer = some ⟨false, 9, []⟩ ∧
    Ext.decodeCrl taCrl = some ⟨9000, [9], [7]⟩ := by decide +kernel

end

/-- **C41.** Each ROA, ASPA, router and CA certificate accepted is listed on the manifest of the
CA, which is valid and comes with a valid CRL, is present in the data of the repository named by the
CA's certificate, and matches the hash on the manifest. -/
theorem C41_accepted_listed [Ext] {v v' : Validator} {depth : Nat} {offline : Bool} {env : Env}
    {w w' : World} {rep : Report} (h : v.validate depth offline env w = (.ok (rep, v'), w'))
    {ca : ValidatedCa} (hca : ca ∈ rep.certs) :
    ∃ issuer, Trusted env w.cur (env.clock w.tick) v issuer ∧ ∀ uri ∈ ca.accepted,
      ∃ u objs content crlUri crl hash obj, ca.Names u ∧ Usable env w.cur v.repos u objs ∧
        InOrder objs issuer ca.info (env.clock w.tick) content crlUri crl ∧
        uri ≠ crlUri.toStr ∧ Listed ca.info content uri hash ∧ mapGet objs uri = some obj ∧
        Ext.mftHashOk hash obj = true := by
  obtain ⟨issuer, kids, h1, h2, _⟩ := (validate_chain h).1 ca hca
  refine ⟨issuer, h1, fun uri hu => ?_⟩
  obtain ⟨u, objs, content, crlUri, crl, h3, h4, h5⟩ := examined_of_accepted h2 hu
  obtain ⟨hne, hash, obj, _, _, h6, h7, h8, _⟩ := h5.accepted hu
  exact ⟨u, objs, content, crlUri, crl, hash, obj, h3, h4, h5.order, hne, h6, h7, h8⟩

/-- **C41, completeness.** Each CA in the report is either turned down as a whole (nothing
accepted, one issue; it names no repository, its repository's data are unavailable, or its manifest
or CRL is not in order), or each file on its manifest except the CRL leads to exactly one finding,
which is an accepted or ignored object if that is deserved and an issue otherwise, and the CA's
result consists of just these findings. -/
theorem C41_one_finding_each [Ext] {v v' : Validator} {depth : Nat} {offline : Bool} {env : Env}
    {w w' : World} {rep : Report} (h : v.validate depth offline env w = (.ok (rep, v'), w'))
    {ca : ValidatedCa} (hca : ca ∈ rep.certs) :
    ∃ issuer kids, Trusted env w.cur (env.clock w.tick) v issuer ∧
      Judged env (Usable env w.cur v.repos) (Unavailable env w.cur v.repos offline) issuer
        ca.info (env.clock w.tick) ca kids := by
  obtain ⟨issuer, kids, h1, h2, _⟩ := (validate_chain h).1 ca hca
  exact ⟨issuer, kids, h1, h2⟩

/-- **C53.** A chain of certificates connects each CA in the report to a trust anchor; each child
accepted has a result of its own in the report, judged with the child's certificate; and every
TAL has its trust anchor there. -/
theorem C53_tree [Ext] {v v' : Validator} {depth : Nat} {offline : Bool} {env : Env}
    {w w' : World} {rep : Report} (h : v.validate depth offline env w = (.ok (rep, v'), w')) :
    (∀ ca ∈ rep.certs, ∃ issuer kids,
      Trusted env w.cur (env.clock w.tick) v issuer ∧
      Judged env (Usable env w.cur v.repos) (Unavailable env w.cur v.repos offline) issuer
        ca.info (env.clock w.tick) ca kids ∧
      ca.children.map (·.2) = kids.map (·.2) ∧
      ∀ k ∈ kids, ∃ ca' ∈ rep.certs, ∃ kids', ca'.info = k.2 ∧
        Judged env (Usable env w.cur v.repos) (Unavailable env w.cur v.repos offline) k.1
          ca'.info (env.clock w.tick) ca' kids') ∧
    ∀ t ∈ v.tals, ∃ c i, TrustAnchor env w.cur (env.clock w.tick) t c ∧ CaInfo.Of i c ∧
      ∃ ca ∈ rep.certs, ∃ kids, ca.info = i ∧
        Judged env (Usable env w.cur v.repos) (Unavailable env w.cur v.repos offline) c
          ca.info (env.clock w.tick) ca kids := by
  obtain ⟨h1, h2⟩ := validate_chain h
  refine ⟨fun ca hca => ?_, h2⟩
  obtain ⟨issuer, kids, a1, a2, a3⟩ := h1 ca hca
  exact ⟨issuer, kids, a1, a2, a2.children, a3⟩

/-- **C53.** The CAs in the report are, in this order and without repetition beyond that in the
manifests, those found by going through the TALs, from each trust anchor to the children accepted
below it and from there on. -/
theorem C53_exact [Ext] {v v' : Validator} {depth : Nat} {offline : Bool} {env : Env}
    {w w' : World} {rep : Report} (h : v.validate depth offline env w = (.ok (rep, v'), w')) :
    WalkedTals (TrustAnchor env w.cur (env.clock w.tick))
      (fun c i ca kids => Judged env (Usable env w.cur v.repos)
        (Unavailable env w.cur v.repos offline) c i (env.clock w.tick) ca kids)
      v.tals rep.certs := (validate_tree h).2.2.2.2

/-- **C52.** A certificate accepted for a TAL has the TAL's key and comes from the TAL's place. -/
theorem C52_trust_anchor [Ext] {t : Tal} {time : Time} {env : Env} {w w' : World} {c : ResCert}
    (h : t.validateAt time env w = (.ok c, w')) : TrustAnchor env w.cur time t c :=
  (validateAt_ok h).2

section
open Demo
set_option maxRecDepth 100000

/-- The trust anchor of the example is accepted; with another key it would not be. -/
example : (tal.validateAt 50 treeEnv (World.start fs0)).1 = .ok taCert ∧
    (({ tal with key := [9] } : Tal).validateAt 50 treeEnv (World.start fs0)).1 = .error .tal := by
  decide +kernel

end

/-- **C52, parsing.** The key and place of a TAL are the key and the first https URI in its file. -/
theorem C52_parse [Ext] {name : Str} {b : Bytes} {t : Tal} (h : Tal.parse name b = .ok t) :
    TalOf b name t := talParse_ok h

section
open Demo
set_option maxRecDepth 100000

example : Tal.parse "tal".toList talBytes = .ok ⟨"tal".toList, .uri (uri "ta") true, [7]⟩ := by
  decide +kernel

end

/-! ## Termination -/

/-- A ranking for the example tree: the trust anchor above all. -/
def Demo.rank1 (c : ResCert) : Nat := if c.key = [7] then 1 else 0

/-- **C42, partial.** Validation does not exhaust the stack if the certificates that can occur can
be ranked such that each has a smaller rank than its issuer, and there is room for the ranks of
the trust anchors.  Without such a ranking (a CA that is issued a certificate by a CA below it) it
does not end, see `C42_refuted_by_cycle`. -/
theorem C42_terminates_partial [Ext] {v : Validator} {offline : Bool} {depth : Nat} {env : Env}
    {w : World} (rank : ResCert → Nat)
    (hr : ∀ issuer i u x obj cert rc, Trusted env w.cur (env.clock w.tick) v issuer →
      CaInfo.Of i issuer → i.siaRrdp = some u → Available env w.cur v.repos u x obj →
      Ext.decodeCert obj = some cert → cert.isCa = true →
      Ext.validateCa cert issuer (env.clock w.tick) = some rc → rank rc < rank issuer)
    (hd : ∀ t ∈ v.tals, ∀ c, TrustAnchor env w.cur (env.clock w.tick) t c → rank c < depth) :
    (v.validate depth offline env w).1 ≠ .error .overflow :=
  validate_shallow rank hr hd

section
open Demo
set_option maxRecDepth 100000

/-- The hypotheses of `C42_terminates_partial` are met by the example tree. -/
example : (∀ issuer i u x obj cert rc, Trusted treeEnv fs0 50 validator issuer →
      CaInfo.Of i issuer → i.siaRrdp = some u →
      Available treeEnv fs0 validator.repos u x obj → Ext.decodeCert obj = some cert →
      cert.isCa = true → Ext.validateCa cert issuer 50 = some rc →
      rank1 rc < rank1 issuer) ∧
    ∀ t ∈ validator.tals, ∀ c, TrustAnchor treeEnv fs0 50 t c → rank1 c < 5 := by
  refine ⟨fun issuer i u x obj cert rc _ _ _ ha hdec hca hv => ?_, fun t _ c _ => ?_⟩
  · have key : ∀ y, (y, obj) ∈ treeObjects → rank1 rc < rank1 issuer := by
      intro y hy
      have hall : ∀ e ∈ treeObjects, ∀ cert, (Ext.decodeCert e.2 : Option CertObj) = some cert →
          cert.isCa = true → (Inst.ofBytes cert.raw : Option (Bytes × ResCert)) = none ∨
            (Inst.ofBytes cert.raw : Option (Bytes × ResCert)) = some ([7], kidCert) := by
        have : ∀ e ∈ treeObjects, (Ext.decodeCert e.2 : Option CertObj).all (fun cert =>
            decide ((Inst.ofBytes cert.raw : Option (Bytes × ResCert)) = none ∨
              (Inst.ofBytes cert.raw : Option (Bytes × ResCert)) = some ([7], kidCert))) = true := by
          decide +kernel
        intro e he cert hc _
        have := this e he
        rw [hc] at this
        exact of_decide_eq_true this
      change (match (Inst.ofBytes cert.raw : Option (Bytes × ResCert)) with
        | some (key, rc) => if key = issuer.key then some rc else none
        | none => none) = some rc at hv
      rcases hall _ hy cert hdec hca with h | h
      · rw [h] at hv; cases hv
      · rw [h] at hv
        dsimp only at hv
        by_cases hk : ([7] : Bytes) = issuer.key
        · rw [if_pos hk] at hv
          cases hv
          unfold rank1
          rw [if_pos hk.symm]
          decide
        · rw [if_neg hk] at hv; cases hv
    have bodies : ∀ (a : Str) src b e, (validator.repos.fetcherOf u).resolve a = .ok src →
        src.Body treeEnv fs0 none b e →
        b = Inst.toBytes treeNotif ∨ b = treeSnap ∨ b = Inst.toBytes taCert := by
      intro a src b e hs hb
      have : src = .uri a true := by
        have h1 : (Except.ok (.uri a true) : Except Err FetchSource) = .ok src := hs
        cases h1
        rfl
      subst this
      obtain ⟨tick, hdr, h1, _⟩ := hb
      change (if a = uri "q" then _ else _) = _ at h1
      by_cases h2 : a = uri "q"
      · rw [if_pos h2] at h1; cases h1; exact Or.inl rfl
      · rw [if_neg h2] at h1
        change (if a = uri "qs" then _ else _) = _ at h1
        by_cases h3 : a = uri "qs"
        · rw [if_pos h3] at h1; cases h1; exact Or.inr (Or.inl rfl)
        · rw [if_neg h3] at h1
          change (if a = uri "ta" then _ else _) = _ at h1
          by_cases h4 : a = uri "ta"
          · rw [if_pos h4] at h1; cases h1; exact Or.inr (Or.inr rfl)
          · rw [if_neg h4] at h1; cases h1
    cases ha with
    | cached d hd ho => cases hd
    | snapshot a src b e els y hs hb hp ho hx =>
      rcases bodies a src b e (Fetcher.locates_iff.2 hs) hb with rfl | rfl | rfl
      · exact absurd hp (by rw [show Ext.parseSnapshot (Inst.toBytes treeNotif) = none by decide +kernel]; exact fun h => by cases h)
      · rw [show Ext.parseSnapshot treeSnap = some treeObjects by decide +kernel] at hp
        cases hp
        exact key y ho
      · exact absurd hp (by rw [show Ext.parseSnapshot (Inst.toBytes taCert) = none by decide +kernel]; exact fun h => by cases h)
    | delta a src b e els y hs hb hp ho hx =>
      rcases bodies a src b e (Fetcher.locates_iff.2 hs) hb with rfl | rfl | rfl
      · exact absurd hp (by rw [show Ext.parseDelta (Inst.toBytes treeNotif) = none by decide +kernel]; exact fun h => by cases h)
      · exact absurd hp (by rw [show Ext.parseDelta treeSnap = none by decide +kernel]; exact fun h => by cases h)
      · exact absurd hp (by rw [show Ext.parseDelta (Inst.toBytes taCert) = none by decide +kernel]; exact fun h => by cases h)
  · unfold rank1
    by_cases h : c.key = [7]
    · rw [if_pos h]; decide
    · rw [if_neg h]; decide

end

open Demo in
/-- **C42, refuted.** There are a trust anchor and repository data on which the validation exhausts
any stack: the trust anchor's manifest lists a certificate of the trust anchor itself. -/
theorem C42_refuted_by_cycle : ∃ (_ : Ext) (v : Validator) (env : Env) (w : World), NoFaults env ∧
    ∀ depth offline, (v.validate depth offline env w).1 = .error .overflow := by
  refine ⟨Demo.instExt, Demo.loopValidator, Demo.treeEnv, World.start Demo.fs0, fun _ => rfl,
    fun depth offline => ?_⟩
  let w1 : World := { World.start Demo.fs0 with tick := 1 }
  have hta : ∃ w2, Demo.tal.validateAt 50 Demo.treeEnv w1 = (.ok Demo.taCert, w2) :=
    ⟨(Demo.tal.validateAt 50 Demo.treeEnv w1).2, Prod.ext (by decide +kernel) rfl⟩
  obtain ⟨w2, hta⟩ := hta
  have hloop := validateTree_loop (env := Demo.treeEnv) (J := fun _ v => v = Demo.loopVisited)
    (c := Demo.taCert) (i := Demo.taInfo) (offline := offline) (time := 50)
    (by
      rintro w v rfl
      obtain ⟨ca, w', h⟩ := Demo.loop_checkCa offline w
      exact ⟨ca, _, w', h, rfl⟩) depth w2 Demo.loopVisited rfl
  match hx : validateTree offline 50 depth Demo.loopVisited Demo.taCert Demo.taInfo Demo.treeEnv w2 with
  | (x, w3) =>
    rw [hx] at hloop
    change x = _ at hloop
    subst hloop
    have h1 : validateTa depth Demo.loopVisited Demo.tal offline 50 Demo.treeEnv w1 =
        (.error .overflow, w3) := by
      unfold validateTa
      rw [M.bind_of_ok hta]
      exact hx
    unfold Validator.validate
    rw [now_bind]
    have h2 : validateTals depth Demo.loopVisited Report.zero offline 50 [Demo.tal] Demo.treeEnv w1 =
        (.error .overflow, w3) := by
      unfold validateTals
      rw [M.bind_of_error h1]
    have h3 : validateTals depth Demo.loopValidator.repos Report.zero offline
        (Demo.treeEnv.clock (World.start Demo.fs0).tick) Demo.loopValidator.tals Demo.treeEnv
        { World.start Demo.fs0 with tick := (World.start Demo.fs0).tick + 1 } =
        (.error .overflow, w3) := h2
    rw [M.bind_of_error h3]

/-! ## The validator kept between runs -/

/-- **C43.** Without TALs there is no validator.  With TALs it has exactly the TALs found in the
files now, in this order; and it is either a new one without any data that looks at the repository
in the staging directory, or the one kept from the run before, which also has this fetcher. -/
theorem C43_reused_only_if_same [Ext] {existing : Option Validator} {c : Config} {env : Env}
    {w w' : World} {o : Option Validator}
    (h : chooseValidator existing c env w = (.ok o, w')) :
    (c.talFiles = [] ∧ o = none) ∨ c.talFiles ≠ [] ∧
      ∃ v base, o = some v ∧ TalsOf w.cur c.talFiles v.tals ∧
        httpsParent c.notificationUri = some base ∧
        (v.repos = ⟨[(c.notificationUri, c.stagedFetcher base)], []⟩ ∨
          existing = some v ∧ ∃ u, (u, c.stagedFetcher base) ∈ v.repos.fetchers) := by
  rcases (chooseValidator_ok h).2 with h1 | ⟨h1, v, tals, base, h2, h3, h4, h5, h6⟩
  · exact .inl h1
  · refine .inr ⟨h1, v, base, h2, h4 ▸ h3, h5, ?_⟩
    rcases h6 with rfl | h6
    · exact .inl rfl
    · exact .inr h6

/-- **C43, the pre-validation.** What is kept after a successful pre-validation is what the
validation left of the validator so chosen; without TALs it is nothing. -/
theorem C43_prevalidate [Ext] {depth : Nat} {s s' : RrdpState} {c : Config} {env : Env}
    {w w' : World} (h : s.preValidate depth c env w = (.ok s', w')) :
    (c.talFiles = [] ∧ s' = { s with validator := none }) ∨
    ∃ v v1 v2 rep w1 w2, chooseValidator s.validator c env w = (.ok (some v), w1) ∧
      v.initStaging c.notificationUri env w1 = (.ok v1, w2) ∧
      v1.validate depth c.offlineValidation env w2 = (.ok (rep, v2), w') ∧
      v1.tals = v.tals ∧ v2.tals = v.tals ∧ s' = { s with validator := some v2 } := by
  rcases preValidate_steps h with ⟨e, he, _⟩ | ⟨o, w1, h1, ⟨rfl, h2, _⟩ | ⟨v, rfl, h2⟩⟩
  · cases he
  · cases h2
    rcases (chooseValidator_ok h1).2 with h3 | ⟨_, v, _, _, hv, _⟩
    · exact .inl ⟨h3.1, rfl⟩
    · cases hv
  · rcases h2 with ⟨e, he, _⟩ | ⟨v1, w2, h2, ⟨e, he, _⟩ | ⟨rep, v2, h3, ⟨e, he, _⟩ | ⟨he, _⟩⟩⟩
    · cases he
    · cases he
    · cases he
    · cases he
      exact .inr ⟨v, v1, v2, rep, w1, w2, h1, h2, h3, (initStaging_ok h2).2.1,
        (validate_tree h3).2.1.trans (initStaging_ok h2).2.1, rfl⟩

section
open Demo
set_option maxRecDepth 100000

/-- A new validator is made ... -/
example : (chooseValidator none confT treeEnv (World.start fsT)).1.toOption.map (·.isSome) = some true :=
  by decide +kernel

/-- ... and used again. -/
example : (match (chooseValidator none confT treeEnv (World.start fsT)).1 with
    | .ok v => decide ((chooseValidator v confT treeEnv (World.start fsT)).1 = .ok v)
    | .error _ => false) = true := by decide +kernel

/-- A successful pre-validation. -/
example : (process 5 confT goodEnv (World.start fsT)).1 = .ok () := by decide +kernel

end

/-! ## Requests -/

/-- **C49.** An offline validation requests nothing but the trust anchors. -/
theorem C49_offline [Ext] (depth : Nat) (v : Validator) (env : Env) (fs : FS) (r : Req)
    (h : r ∈ (v.validate depth true env (World.start fs)).2.reqs) :
    ∃ t ∈ v.tals, ∃ u m, t.source = .uri u m ∧ r = ⟨u, m, none⟩ := by
  obtain ⟨⟨l, h1, h2⟩, _⟩ := validate_offline_logs
    (E := ⟨fun _ => True, fun r => ∃ t ∈ v.tals, ∃ u m, t.source = .uri u m ∧ r = ⟨u, m, none⟩,
      fun _ => True, fun _ => True, fun _ => True, fun _ => True⟩) depth v
    (fun t ht r hr => by
      match hs : t.source with
      | .file p => rw [hs] at hr; exact hr.elim
      | .uri u m => rw [hs] at hr; exact ⟨t, ht, u, m, hs, hr⟩) env (World.start fs)
  rw [h1] at h
  rcases List.mem_append.1 h with h | h
  · exact h2 r h
  · cases h

/-- **C49, the pre-validation.** With `--offline-validation` the pre-validation as a whole, however
it ends, requests nothing but the first https URIs of the TALs.  The validator kept from the run
before is assumed to have its fetchers stored under their notification URIs. -/
theorem C49_prevalidate [Ext] (depth : Nat) (s : RrdpState) (c : Config) (env : Env) (fs : FS)
    (ho : c.offlineValidation = true) (hk : ∀ v, s.validator = some v → v.repos.Keyed) (r : Req)
    (h : r ∈ (s.preValidate depth c env (World.start fs)).2.reqs) :
    ∃ file ∈ c.talFiles, ∃ b t u, fs.read (joinPath [] file) = some b ∧ TalOf b file t ∧
      t.source = .uri u true ∧ r = ⟨u, true, none⟩ := by
  obtain ⟨⟨l, h1, h2⟩, _⟩ := preValidate_offline_logs
    (E := ⟨fun _ => True, fun r => ∃ file ∈ c.talFiles, ∃ b t u, fs.read (joinPath [] file) = some b ∧
      TalOf b file t ∧ t.source = .uri u true ∧ r = ⟨u, true, none⟩, fun _ => True, fun _ => True,
      fun _ => True, fun _ => True⟩)
    (w := World.start fs) (env := env) (depth := depth) (s := s) ho hk
    (fun tals htals => by
      change TalsOf fs c.talFiles tals at htals
      generalize c.talFiles = files at htals
      induction htals with
      | nil => intro t ht; cases ht
      | cons f b t files ts hr htal _ ih =>
        intro t' ht' r hr'
        rcases List.mem_cons.1 ht' with rfl | ht'
        · obtain ⟨uris, u, a1, a2, a3, a4⟩ := htal
          rw [a4] at hr'
          exact ⟨f, List.mem_cons_self .., b, t', u, hr, ⟨uris, u, a1, a2, a3, a4⟩, a4, hr'⟩
        · obtain ⟨file, hf, rest⟩ := ih t' ht' r hr'
          exact ⟨file, List.mem_cons_of_mem _ hf, rest⟩)
  rw [h1] at h
  rcases List.mem_append.1 h with h | h
  · exact h2 r h
  · cases h

section
open Demo
set_option maxRecDepth 100000

/-- An offline validation does request the trust anchor. -/
example : (validator.validate 5 true treeEnv (World.start fs0)).2.reqs = [⟨uri "ta", true, none⟩] := by
  decide +kernel

example : (RrdpState.preValidate 5 ⟨⟨uri "q", "q".toList, none⟩, ⟨uri "", []⟩, none, [], [], none⟩
    { confT with offlineValidation := true } treeEnv
    (World.start (process 5 confT treeEnv (World.start fsT)).2.cur)).2.reqs =
      [⟨uri "ta", true, none⟩] := by
  decide +kernel

end

end KSync
