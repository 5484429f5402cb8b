import Verif.Lemmas.Ca
import Verif.Lemmas.Update
import Verif.Lemmas.Paths

/-! # Repository data of the validator -/

set_option linter.unusedSectionVars false
set_option linter.unusedVariables false

namespace KSync

variable [Ext] {env : Env} {w w' : World}

theorem readBytes_ok {f : Fetcher} {uri : Str} {hash : Hash} {b : Bytes}
    (h : readBytes f uri hash env w = (.ok b, w')) :
    Ext.sha b = hash ∧ Same w w' ∧ ∃ src e, f.Locates uri src ∧ src.Body env w.cur none b e := by
  unfold readBytes at h
  obtain ⟨src, w1, h1, h2⟩ := M.bind_ok.1 h
  rw [M.lift_ok_iff] at h1
  obtain ⟨h1, rfl⟩ := h1
  obtain ⟨resp, w2, h3, h4⟩ := M.bind_ok.1 h2
  rcases fetch_ok h3 with ⟨b', e, hb, hh, hc⟩ | ⟨rfl, _⟩
  · rcases hc with ⟨_, rfl, hs⟩ | ⟨t, w3, ht, _⟩
    · change (pure b' : M Bytes) env w2 = _ at h4
      rw [M.pure_ok] at h4
      obtain ⟨rfl, rfl⟩ := h4
      exact ⟨hh _ rfl, hs, src, e, Fetcher.locates_iff.1 h1, hb⟩
    · cases ht
  · cases h4

/-! ## Deltas -/

theorem applyElement_ok {objs objs' : List (Str × Bytes)} {e : DeltaElement}
    (h : applyElement objs e = .ok objs') (u : Str) :
    (u ≠ e.about → mapGet objs' u = mapGet objs u) ∧
    (u = e.about → mapGet objs' u = match e with
      | .publish _ b => some b
      | .update _ _ b => some b
      | .withdraw _ _ => none) := by
  cases e with
  | publish v b =>
    cases h
    exact ⟨fun hu => (mapGet_insert ..).trans (if_neg hu), fun hu => (mapGet_insert ..).trans (if_pos hu)⟩
  | update v hh b =>
    unfold applyElement at h
    dsimp only at h
    split at h
    · cases h
    · split at h
      · cases h
      · cases h
        exact ⟨fun hu => (mapGet_insert ..).trans (if_neg hu),
          fun hu => (mapGet_insert ..).trans (if_pos hu)⟩
  | withdraw v hh =>
    unfold applyElement at h
    dsimp only at h
    split at h
    · cases h
    · split at h
      · cases h
      · cases h
        exact ⟨fun hu => (mapGet_erase ..).trans (if_neg hu),
          fun hu => (mapGet_erase ..).trans (if_pos hu)⟩

/-- If all elements could be applied, each URI has the content the (only) element about it
says, and the others are as before. -/
theorem applyElements_ok (els : List DeltaElement) : ∀ {objs objs' : List (Str × Bytes)},
    applyElements objs els = (.ok (), objs') → (els.map (·.about)).Nodup → ∀ u,
    (u ∉ els.map (·.about) → mapGet objs' u = mapGet objs u) ∧
    (∀ e ∈ els, u = e.about → mapGet objs' u = match e with
      | .publish _ b => some b
      | .update _ _ b => some b
      | .withdraw _ _ => none) := by
  induction els with
  | nil =>
    intro objs objs' h _ u
    cases h
    exact ⟨fun _ => rfl, fun e he => by cases he⟩
  | cons e els ih =>
    intro objs objs' h hn u
    unfold applyElements at h
    match ha : applyElement objs e with
    | .error err => rw [ha] at h; cases h
    | .ok objs1 =>
      rw [ha] at h
      obtain ⟨h1, h2⟩ := applyElement_ok ha u
      have hn' := List.nodup_cons.1 (show (e.about :: els.map (·.about)).Nodup from hn)
      obtain ⟨h3, h4⟩ := ih h hn'.2 u
      constructor
      · intro hu
        rw [List.map_cons, List.mem_cons, not_or] at hu
        rw [h3 hu.2, h1 hu.1]
      · intro e' he' hu
        rcases List.mem_cons.1 he' with rfl | he'
        · rw [h3 (hu ▸ hn'.1), h2 hu]
          cases e' <;> rfl
        · exact h4 e' he' hu

theorem change_applied {els : List DeltaElement} {objs objs' : List (Str × Bytes)} {a b : Objects}
    (hc : ChangeOf els a b) (ha : ∀ u, mapGet objs u = a u)
    (h : applyElements objs els = (.ok (), objs')) : ∀ u, mapGet objs' u = b u := by
  intro u
  obtain ⟨h1, h2⟩ := applyElements_ok els h hc.once u
  by_cases hu : u ∈ els.map (·.about)
  · obtain ⟨e, he, rfl⟩ := List.mem_map.1 hu
    rw [h2 e he rfl]
    cases e with
    | publish v x => exact (hc.publish v x he).symm
    | update v h x => exact (hc.update v h x he).1.symm
    | withdraw v h => exact (hc.withdraw v h he).1.symm
  · rw [h1 hu, ha, hc.rest u hu]

/-- A correct change can be applied. -/
theorem change_applies (els : List DeltaElement) : ∀ {objs : List (Str × Bytes)},
    (els.map (·.about)).Nodup →
    (∀ u h x, .update u h x ∈ els → ∃ old, mapGet objs u.toStr = some old ∧ Ext.sha old = h) →
    (∀ u h, .withdraw u h ∈ els → ∃ old, mapGet objs u.toStr = some old ∧ Ext.sha old = h) →
    ∃ objs', applyElements objs els = (.ok (), objs') := by
  induction els with
  | nil => exact fun _ _ _ => ⟨_, rfl⟩
  | cons e els ih =>
    intro objs hn hu hw
    have hn' := List.nodup_cons.1 (show (e.about :: els.map (·.about)).Nodup from hn)
    have h1 : ∃ objs1, applyElement objs e = .ok objs1 := by
      cases e with
      | publish v b => exact ⟨_, rfl⟩
      | update v h b =>
        obtain ⟨old, h1, h2⟩ := hu v h b (List.mem_cons_self ..)
        unfold applyElement
        dsimp only
        rw [h1]
        dsimp only
        rw [if_neg (not_not_intro h2)]
        exact ⟨_, rfl⟩
      | withdraw v h =>
        obtain ⟨old, h1, h2⟩ := hw v h (List.mem_cons_self ..)
        unfold applyElement
        dsimp only
        rw [h1]
        dsimp only
        rw [if_neg (not_not_intro h2)]
        exact ⟨_, rfl⟩
    obtain ⟨objs1, h1⟩ := h1
    have keep : ∀ {e' : DeltaElement}, e' ∈ els → mapGet objs1 e'.about = mapGet objs e'.about :=
      fun {e'} he' => (applyElement_ok h1 _).1 (fun hh =>
        hn'.1 (hh ▸ List.mem_map.2 ⟨e', he', rfl⟩))
    obtain ⟨objs', h2⟩ := ih (objs := objs1) hn'.2
      (fun u h x hm => by
        obtain ⟨old, h3, h4⟩ := hu u h x (List.mem_cons_of_mem _ hm)
        exact ⟨old, (keep hm).trans h3, h4⟩)
      (fun u h hm => by
        obtain ⟨old, h3, h4⟩ := hw u h (List.mem_cons_of_mem _ hm)
        exact ⟨old, (keep hm).trans h3, h4⟩)
    refine ⟨objs', ?_⟩
    unfold applyElements
    rw [h1]
    exact h2

theorem find_reverse_lookup (l : List (RsyncUri × Bytes)) (u : Str) :
    mapGet (l.map (fun e => (e.1.toStr, e.2))) u =
      (l.find? (fun e => decide (e.1.toStr = u))).map (·.2) := by
  induction l with
  | nil => rfl
  | cons e l ih =>
    rw [List.map_cons, mapGet_cons, List.find?_cons, ih]
    by_cases h : u = e.1.toStr
    · rw [if_pos h]; simp [h]
    · rw [if_neg h]
      have : decide (e.1.toStr = u) = false := by simpa using fun hh : e.1.toStr = u => h hh.symm
      rw [this]

theorem snapshot_objects {els : List (RsyncUri × Bytes)} {o : Objects} (h : SnapshotOf els o)
    (u : Str) : mapGet (mapOfList (els.map (fun e => (e.1.toStr, e.2)))) u = o u := by
  rw [mapGet_ofList, ← List.map_reverse, find_reverse_lookup, h u]

/-! ## Genuine data -/

variable {content : Uuid → Nat → Objects}

theorem dataFromSnapshot_genuine {n : Notif} {etag : Option Str} {f : Fetcher} {time : Time}
    {d : RepoData} (ht : Truthful content n)
    (h : dataFromSnapshot n etag f time env w = (.ok d, w')) :
    d.Genuine content ∧ d.session = n.session ∧ d.serial = n.serial ∧ Same w w' := by
  unfold dataFromSnapshot at h
  obtain ⟨b, w1, h1, h2⟩ := M.bind_ok.1 h
  obtain ⟨h3, h4, _⟩ := readBytes_ok h1
  match hp : Ext.parseSnapshot b with
  | none => rw [hp] at h2; cases h2
  | some els =>
    rw [hp] at h2
    dsimp only at h2
    rw [M.pure_ok] at h2
    obtain ⟨rfl, rfl⟩ := h2
    exact ⟨fun u => snapshot_objects (ht.snapshot b els h3 hp) u, rfl, rfl, h4⟩

theorem Same.trans' {a b c : World} (h : Same a b) (h' : Same b c) : Same a c :=
  ⟨h'.1.trans h.1, h'.2.trans h.2⟩

theorem readBytes_same (f : Fetcher) (uri : Str) (hash : Hash) : Rel Same (readBytes f uri hash) := by
  intro env w
  unfold readBytes
  rcases M.bind_cases (M.lift (f.resolve uri)) _ env w with ⟨e, w1, h1, h2⟩ | ⟨src, w1, h1, h2⟩
  · rw [h2]; cases hr : f.resolve uri <;> rw [hr] at h1 <;> cases h1; exact ⟨rfl, rfl⟩
  · rw [M.lift_ok_iff] at h1
    obtain ⟨h1, hw⟩ := h1
    subst hw
    rw [h2]
    have hf := fetch_same (src := src) (hash := some hash) (etag := none) env w
    rcases M.bind_cases (src.fetch (some hash) none none) (fun r => r.tryIntoData) env w with
      ⟨e, w2, h3, h4⟩ | ⟨r, w2, h3, h4⟩
    · rw [h4]; rw [h3] at hf; exact hf
    · rw [h4]; rw [h3] at hf
      cases r <;> exact hf

theorem nextSerial_eq (s : Nat) : nextSerial s = serialAfter s := by
  unfold nextSerial serialAfter
  by_cases h : s = 2 ^ 64 - 1
  · subst h; rfl
  · rw [if_neg h, if_neg (by omega)]

theorem nextSerial_of_pos {s : Nat} (h : 0 < nextSerial s) : nextSerial s = s + 1 := by
  unfold nextSerial at h ⊢
  by_cases h1 : s + 1 = 18446744073709551616
  · rw [if_pos h1] at h; omega
  · exact if_neg h1

theorem nextSerial_of_ne {s : Nat} (h : s + 1 ≠ 2 ^ 64) : nextSerial s = s + 1 :=
  if_neg (by omega)

theorem nextSerial_le (s : Nat) : nextSerial s ≤ s + 1 := by
  unfold nextSerial
  split <;> omega

/-- Deltas applied one after the other lead from genuine data to genuine data, if all of
them succeed. -/
theorem applyDeltas_genuine {f : Fetcher} {n : Notif} (ht : Truthful content n)
    (ds : List DeltaInfo) : ∀ {d d' : RepoData} {w w' : World},
    (∀ x ∈ ds, x ∈ n.deltas) → d.Genuine content → d.session = n.session →
    applyDeltas f d ds env w = (.ok (.ok (), d'), w') → d'.Genuine content := by
  induction ds with
  | nil =>
    intro d d' w w' _ hg _ h
    cases h
    exact hg
  | cons i is ih =>
    intro d d' w w' hm hg hs h
    unfold applyDeltas at h
    by_cases hi : i.serial ≠ nextSerial d.serial
    · rw [if_pos hi] at h
      exact ih (fun x hx => hm x (List.mem_cons_of_mem _ hx)) hg hs h
    · rw [if_neg hi, attempt_bind] at h
      have hi : i.serial = nextSerial d.serial := Decidable.not_not.1 hi
      have hn := nextSerial_of_pos (hi ▸ (ht.range i (hm i (List.mem_cons_self ..))).1)
      rw [hn] at hi
      match hr : readBytes f i.uri i.hash env w with
      | (.error e, w1) => rw [hr] at h; cases h
      | (.ok b, w1) =>
        obtain ⟨hb, _⟩ := readBytes_ok hr
        rw [hr] at h
        dsimp only at h
        match hp : Ext.parseDelta b with
        | none => rw [hp] at h; cases h
        | some els =>
          rw [hp] at h
          dsimp only at h
          match ha : applyElements d.objects els with
          | (.error e, objs) => rw [ha] at h; cases h
          | (.ok (), objs) =>
            rw [ha, hn] at h
            have hc := ht.deltas i (hm i (List.mem_cons_self ..)) b els hb hp d.serial hi
            exact ih (d := { d with objects := objs, serial := d.serial + 1 })
              (fun x hx => hm x (List.mem_cons_of_mem _ hx))
              (fun u => by
                dsimp only
                rw [hs]
                exact change_applied hc (fun u => by rw [hg u, hs]) ha u) hs h

theorem applyElements_patch (els : List DeltaElement) : ∀ {objs objs' : List (Str × Bytes)},
    applyElements objs els = (.ok (), objs') → Patch (mapGet objs) els (mapGet objs') := by
  induction els with
  | nil =>
    intro objs objs' h
    cases h
    exact .nil _
  | cons e els ih =>
    intro objs objs' h
    unfold applyElements at h
    match ha : applyElement objs e with
    | .error err => rw [ha] at h; cases h
    | .ok objs1 =>
      rw [ha] at h
      have h1 := ih h
      cases e with
      | publish v b =>
        cases ha
        refine .publish v b els _ _ ?_
        have : Objects.set (mapGet objs) v.toStr (some b) = mapGet (mapInsert objs v.toStr b) :=
          funext fun u => (mapGet_insert ..).symm
        rw [this]
        exact h1
      | update v hh b =>
        unfold applyElement at ha
        dsimp only at ha
        match hg : mapGet objs v.toStr with
        | none => rw [hg] at ha; cases ha
        | some old =>
          rw [hg] at ha
          dsimp only at ha
          by_cases hs : Ext.sha old = hh
          · rw [if_neg (not_not_intro hs)] at ha
            cases ha
            refine .update v hh b els _ _ old hg hs ?_
            have : Objects.set (mapGet objs) v.toStr (some b) = mapGet (mapInsert objs v.toStr b) :=
              funext fun u => (mapGet_insert ..).symm
            rw [this]
            exact h1
          · rw [if_pos hs] at ha; cases ha
      | withdraw v hh =>
        unfold applyElement at ha
        dsimp only at ha
        match hg : mapGet objs v.toStr with
        | none => rw [hg] at ha; cases ha
        | some old =>
          rw [hg] at ha
          dsimp only at ha
          by_cases hs : Ext.sha old = hh
          · rw [if_neg (not_not_intro hs)] at ha
            cases ha
            refine .withdraw v hh els _ _ old hg hs ?_
            have : Objects.set (mapGet objs) v.toStr none = mapGet (mapErase objs v.toStr) :=
              funext fun u => (mapGet_erase ..).symm
            rw [this]
            exact h1
          · rw [if_pos hs] at ha; cases ha

theorem applyDeltas_patched {f : Fetcher} {fs : FS} (ds : List DeltaInfo) :
    ∀ {d d' : RepoData} {w w' : World}, w.cur = fs →
    applyDeltas f d ds env w = (.ok (.ok (), d'), w') →
    Patched f env fs d.serial (mapGet d.objects) ds d'.serial (mapGet d'.objects) := by
  induction ds with
  | nil =>
    intro d d' w w' _ h
    cases h
    exact .nil _ _
  | cons i is ih =>
    intro d d' w w' hw h
    unfold applyDeltas at h
    by_cases hi : i.serial ≠ nextSerial d.serial
    · rw [if_pos hi] at h
      exact .other _ _ _ _ _ _ (nextSerial_eq _ ▸ hi) (ih hw h)
    · rw [if_neg hi, attempt_bind] at h
      have hi : i.serial = serialAfter d.serial := nextSerial_eq _ ▸ Decidable.not_not.1 hi
      match hr : readBytes f i.uri i.hash env w with
      | (.error e, w1) => rw [hr] at h; cases h
      | (.ok b, w1) =>
        obtain ⟨hb, hsm, src, e, hres, hbody⟩ := readBytes_ok hr
        rw [hr] at h
        dsimp only at h
        match hp : Ext.parseDelta b with
        | none => rw [hp] at h; cases h
        | some els =>
          rw [hp] at h
          dsimp only at h
          match ha : applyElements d.objects els with
          | (.error e, objs) => rw [ha] at h; cases h
          | (.ok (), objs) =>
            rw [ha, nextSerial_eq] at h
            exact .apply _ _ (mapGet objs) i is _ _ src b e els hi hres (hw ▸ hbody) hb hp
              (applyElements_patch els ha) (ih (d := { d with objects := objs, serial := serialAfter d.serial })
                (hsm.1.trans hw) h)

theorem applyDeltas_frame {f : Fetcher} (ds : List DeltaInfo) : ∀ {d d' : RepoData} {w w' : World}
    {r : Except Err (Except Err Unit × RepoData)},
    applyDeltas f d ds env w = (r, w') →
    Same w w' ∧ (∃ p, r = .ok p) ∧ ∀ x, r = .ok (x, d') → d'.session = d.session := by
  induction ds with
  | nil =>
    intro d d' w w' r h
    cases h
    exact ⟨⟨rfl, rfl⟩, ⟨_, rfl⟩, fun x hx => by cases hx; rfl⟩
  | cons i is ih =>
    intro d d' w w' r h
    unfold applyDeltas at h
    by_cases hi : i.serial ≠ nextSerial d.serial
    · rw [if_pos hi] at h
      exact ih h
    · rw [if_neg hi, attempt_bind] at h
      have hs := readBytes_same f i.uri i.hash env w
      match hr : readBytes f i.uri i.hash env w with
      | (.error e, w1) =>
        rw [hr] at h hs; cases h
        exact ⟨hs, ⟨_, rfl⟩, fun x hx => by cases hx; rfl⟩
      | (.ok b, w1) =>
        rw [hr] at h hs
        dsimp only at h
        match hp : Ext.parseDelta b with
        | none =>
          rw [hp] at h; cases h
          exact ⟨hs, ⟨_, rfl⟩, fun x hx => by cases hx; rfl⟩
        | some els =>
          rw [hp] at h
          dsimp only at h
          match ha : applyElements d.objects els with
          | (.error e, objs) =>
            rw [ha] at h; cases h
            exact ⟨hs, ⟨_, rfl⟩, fun x hx => by cases hx; rfl⟩
          | (.ok (), objs) =>
            rw [ha] at h
            obtain ⟨h1, h2, h3⟩ := ih (d := { d with objects := objs, serial := nextSerial d.serial })
              (d' := d') h
            exact ⟨Same.trans' hs h1, h2, h3⟩

/-- The serial is that of the last delta applied. -/
theorem applyDeltas_last {f : Fetcher} (ds : List DeltaInfo) : ∀ {d d' : RepoData} {w w' : World},
    applyDeltas f d ds env w = (.ok (.ok (), d'), w') →
    d'.serial = d.serial ∨ ∃ x ∈ ds, x.serial = d'.serial := by
  induction ds with
  | nil =>
    intro d d' w w' h
    cases h
    exact .inl rfl
  | cons i is ih =>
    intro d d' w w' h
    unfold applyDeltas at h
    by_cases hi : i.serial ≠ nextSerial d.serial
    · rw [if_pos hi] at h
      exact (ih h).imp id (fun ⟨x, hx, h3⟩ => ⟨x, List.mem_cons_of_mem _ hx, h3⟩)
    · rw [if_neg hi, attempt_bind] at h
      have hi : i.serial = nextSerial d.serial := Decidable.not_not.1 hi
      match hr : readBytes f i.uri i.hash env w with
      | (.error e, w1) => rw [hr] at h; cases h
      | (.ok b, w1) =>
        rw [hr] at h
        dsimp only at h
        match hp : Ext.parseDelta b with
        | none => rw [hp] at h; cases h
        | some els =>
          rw [hp] at h
          dsimp only at h
          match ha : applyElements d.objects els with
          | (.error e, objs) => rw [ha] at h; cases h
          | (.ok (), objs) =>
            rw [ha] at h
            rcases ih (d := { d with objects := objs, serial := nextSerial d.serial }) h with
              h3 | ⟨x, hx, h3⟩
            · exact .inr ⟨i, List.mem_cons_self .., hi.trans h3.symm⟩
            · exact .inr ⟨x, List.mem_cons_of_mem _ hx, h3⟩

/-- Consecutive deltas of which the first is not too new bring the serial to that of the
last one. -/
theorem applyDeltas_serial {f : Fetcher} (ds : List DeltaInfo) : ∀ {d d' : RepoData} {w w' : World},
    contiguous (ds.map (·.serial)) = true → (∀ y ∈ ds.head?, y.serial ≤ d.serial + 1) →
    (∀ x ∈ ds, x.serial < 2 ^ 64) → (d.serial + 1 ≠ 2 ^ 64 ∨ ds = []) →
    applyDeltas f d ds env w = (.ok (.ok (), d'), w') →
    d.serial ≤ d'.serial ∧ ∀ x ∈ ds, x.serial ≤ d'.serial := by
  induction ds with
  | nil =>
    intro d d' w w' _ _ _ _ h
    cases h
    exact ⟨Nat.le_refl _, fun x hx => absurd hx (List.not_mem_nil)⟩
  | cons i is ih =>
    intro d d' w w' hc hf h64 hne h
    have hne : d.serial + 1 ≠ 2 ^ 64 := hne.resolve_right (by simp)
    have h64' : ∀ x ∈ is, x.serial < 2 ^ 64 := fun x hx => h64 x (List.mem_cons_of_mem _ hx)
    have hhead : i.serial ≤ d.serial + 1 := hf i (by simp)
    have hc' : contiguous (is.map (·.serial)) = true := by
      have := contiguous_drop hc 1
      simpa using this
    have hnext : ∀ y ∈ is.head?, y.serial = i.serial + 1 := by
      intro y hy
      cases is with
      | nil => cases hy
      | cons j js =>
        simp only [List.head?_cons, Option.mem_def, Option.some.injEq] at hy
        subst hy
        unfold contiguous at hc
        simp only [List.map_cons] at hc
        rw [Bool.and_eq_true, decide_eq_true_eq] at hc
        exact hc.1
    unfold applyDeltas at h
    rw [nextSerial_of_ne hne] at h
    by_cases hi : i.serial ≠ d.serial + 1
    · rw [if_pos hi] at h
      obtain ⟨h1, h2⟩ := ih hc' (fun y hy => by have := hnext y hy; omega) h64' (.inl hne) h
      refine ⟨h1, fun x hx => ?_⟩
      rcases List.mem_cons.1 hx with rfl | hx
      · omega
      · exact h2 x hx
    · rw [if_neg hi, attempt_bind] at h
      have hi : i.serial = d.serial + 1 := Decidable.not_not.1 hi
      match hr : readBytes f i.uri i.hash env w with
      | (.error e, w1) => rw [hr] at h; cases h
      | (.ok b, w1) =>
        rw [hr] at h
        dsimp only at h
        match hp : Ext.parseDelta b with
        | none => rw [hp] at h; cases h
        | some els =>
          rw [hp] at h
          dsimp only at h
          match ha : applyElements d.objects els with
          | (.error e, objs) => rw [ha] at h; cases h
          | (.ok (), objs) =>
            rw [ha] at h
            have hne' : d.serial + 1 + 1 ≠ 2 ^ 64 ∨ is = [] := by
              cases is with
              | nil => exact .inr rfl
              | cons j js =>
                have h1 := hnext j (by simp)
                have h2 := h64' j (List.mem_cons_self ..)
                exact .inl (by omega)
            obtain ⟨h1, h2⟩ := ih (d := { d with objects := objs, serial := d.serial + 1 })
              hc' (fun y hy => by have := hnext y hy; dsimp only; omega) h64' hne' h
            dsimp only at h1
            refine ⟨by omega, fun x hx => ?_⟩
            rcases List.mem_cons.1 hx with rfl | hx
            · omega
            · exact h2 x hx

theorem contiguous_head_le {i : DeltaInfo} {is : List DeltaInfo}
    (h : contiguous ((i :: is).map (·.serial)) = true) : ∀ x ∈ i :: is, i.serial ≤ x.serial := by
  induction is generalizing i with
  | nil => intro x hx; simp at hx; subst hx; exact Nat.le_refl _
  | cons j js ih =>
    intro x hx
    unfold contiguous at h
    simp only [List.map_cons] at h
    rw [Bool.and_eq_true, decide_eq_true_eq] at h
    rcases List.mem_cons.1 hx with rfl | hx
    · exact Nat.le_refl _
    · have := ih (i := j) h.2 x hx
      omega

theorem IsLimit.contiguous {max : Option Nat} {ds ds' : List DeltaInfo} (h : IsLimit max ds ds') :
    KSync.contiguous (ds'.map (·.serial)) = true := by
  rw [contiguous_iff]
  intro i hi
  simpa using h.contig i (by simpa using hi)

/-- What `updateFromDeltas` leaves behind. -/
theorem updateFromDeltas_frame {n : Notif} {etag : Option Str} {d : RepoData} {f : Fetcher}
    {time : Time} {r : Except Err (Except Err Unit × RepoData)}
    (h : updateFromDeltas n etag d f time env w = (r, w')) :
    Same w w' ∧ ∃ p, r = .ok p := by
  unfold updateFromDeltas at h
  by_cases hs : n.session ≠ d.session
  · rw [if_pos hs] at h; cases h; exact ⟨⟨rfl, rfl⟩, _, rfl⟩
  · rw [if_neg hs] at h
    match hv : sortVerify none n.deltas with
    | .error e => rw [hv] at h; cases h; exact ⟨⟨rfl, rfl⟩, _, rfl⟩
    | .ok [] => rw [hv] at h; cases h; exact ⟨⟨rfl, rfl⟩, _, rfl⟩
    | .ok (first :: rest) =>
      rw [hv] at h
      dsimp only at h
      by_cases hf : first.serial > nextSerial d.serial
      · rw [if_pos hf] at h; cases h; exact ⟨⟨rfl, rfl⟩, _, rfl⟩
      · rw [if_neg hf] at h
        rcases M.bind_cases (applyDeltas f d (first :: rest)) _ env w with
          ⟨e, w1, h1, h2⟩ | ⟨⟨x, d'⟩, w1, h1, h2⟩
        · obtain ⟨_, ⟨p, hp⟩, _⟩ := applyDeltas_frame (d' := d) _ h1
          cases hp
        · obtain ⟨h3, _, _⟩ := applyDeltas_frame (d' := d) _ h1
          rw [h2] at h
          cases x <;> cases h <;> exact ⟨h3, _, rfl⟩

/-- A successful update from deltas. -/
theorem updateFromDeltas_ok {n : Notif} {etag : Option Str} {d d' : RepoData} {f : Fetcher}
    {time : Time} (h : updateFromDeltas n etag d f time env w = (.ok (.ok (), d'), w')) :
    n.session = d.session ∧ d'.session = n.session ∧
    (d'.lastFetch = time ∧ d'.fetched = true) ∧
    (∃ x ∈ n.deltas, x.serial ≤ serialAfter d.serial) ∧ Gapless n.deltas ∧
    (d.serial + 1 ≠ 2 ^ 64 → (∀ x ∈ n.deltas, x.serial < 2 ^ 64) →
      d.serial ≤ d'.serial ∧ ∀ x ∈ n.deltas, x.serial ≤ d'.serial) ∧
    (d'.serial = d.serial ∨ ∃ x ∈ n.deltas, x.serial = d'.serial) ∧
    (∃ ds, ds.Perm n.deltas ∧ Patched f env w.cur d.serial (mapGet d.objects) ds d'.serial
      (mapGet d'.objects)) ∧
    (∀ content, Truthful content n → d.Genuine content → d'.Genuine content) := by
  unfold updateFromDeltas at h
  by_cases hs : n.session ≠ d.session
  · rw [if_pos hs] at h; cases h
  · rw [if_neg hs] at h
    have hs : n.session = d.session := Decidable.not_not.1 hs
    match hv : sortVerify none n.deltas with
    | .error e => rw [hv] at h; cases h
    | .ok [] => rw [hv] at h; cases h
    | .ok (first :: rest) =>
      rw [hv] at h
      dsimp only at h
      by_cases hf : first.serial > nextSerial d.serial
      · rw [if_pos hf] at h; cases h
      · rw [if_neg hf] at h
        have hlim := sortVerify_limit hv
        have hperm := hlim.perm_of_none
        obtain ⟨⟨x, d1⟩, w1, h1, h2⟩ := M.bind_ok.1 h
        match x with
        | .error e => cases h2
        | .ok () =>
          cases h2
          obtain ⟨_, _, h4⟩ := applyDeltas_frame (d' := d1) _ h1
          have hle := nextSerial_le d.serial
          have h7 := applyDeltas_last _ h1
          refine ⟨hs, (h4 _ rfl).trans hs.symm, ⟨rfl, rfl⟩, ⟨first, hperm.mem_iff.1 (List.mem_cons_self ..),
              nextSerial_eq d.serial ▸ Nat.not_lt.1 hf⟩,
            ⟨_, hperm, hlim.contig⟩, fun hne h64 => ?_, ?_,
            ⟨_, hperm, show Patched f env w.cur d.serial (mapGet d.objects) _ d1.serial (mapGet d1.objects)
              from applyDeltas_patched _ rfl h1⟩, ?_⟩
          · obtain ⟨h5, h6⟩ := applyDeltas_serial _ hlim.contiguous
              (fun y hy => by simp at hy; subst hy; omega)
              (fun x hx => h64 x (hperm.mem_iff.1 hx)) (.inl hne) h1
            exact ⟨h5, fun x hx => h6 x (hperm.mem_iff.2 hx)⟩
          · rcases h7 with h7 | ⟨x, hx, h7⟩
            · exact .inl h7
            · exact .inr ⟨x, hperm.mem_iff.1 hx, h7⟩
          · intro content ht hg
            have := applyDeltas_genuine ht _ (fun x hx => hperm.mem_iff.1 hx) hg hs.symm h1
            exact fun u => this u

/-! ## `get_latest` -/

theorem dataFromSnapshot_same (n : Notif) (etag : Option Str) (f : Fetcher) (time : Time) :
    Rel Same (dataFromSnapshot n etag f time) := by
  have h1 := readBytes_same f n.snapUri n.snapHash
  unfold dataFromSnapshot
  rel_auto

theorem retrieveNew_same (f : Fetcher) (time : Time) : Rel Same (retrieveNew f time) := by
  have h1 := readNotification_same f none
  have h2 := fun n etag => dataFromSnapshot_same n etag f time
  unfold retrieveNew
  rel_auto

theorem dataFromSnapshot_ok {n : Notif} {etag : Option Str} {f : Fetcher} {time : Time}
    {d : RepoData} (h : dataFromSnapshot n etag f time env w = (.ok d, w')) :
    FromSnapshot env w.cur f time n d := by
  unfold dataFromSnapshot at h
  obtain ⟨b, w1, h1, h2⟩ := M.bind_ok.1 h
  obtain ⟨h3, h4, src, e, hr, hb⟩ := readBytes_ok h1
  match hp : Ext.parseSnapshot b with
  | none => rw [hp] at h2; cases h2
  | some els =>
    rw [hp] at h2
    dsimp only at h2
    rw [M.pure_ok] at h2
    obtain ⟨rfl, rfl⟩ := h2
    exact ⟨rfl, rfl, rfl, rfl, src, b, e, els, hr, hb, h3, hp,
      fun u => snapshot_objects (fun _ => rfl) u⟩

theorem dataFromSnapshot_etag {n : Notif} {etag : Option Str} {f : Fetcher} {time : Time}
    {d : RepoData} (h : dataFromSnapshot n etag f time env w = (.ok d, w')) : d.etag = etag := by
  unfold dataFromSnapshot at h
  obtain ⟨b, w1, h1, h2⟩ := M.bind_ok.1 h
  match hp : Ext.parseSnapshot b with
  | none => rw [hp] at h2; cases h2
  | some els =>
    rw [hp] at h2
    dsimp only at h2
    rw [M.pure_ok] at h2
    obtain ⟨rfl, rfl⟩ := h2
    rfl

theorem updateFromDeltas_etag {n : Notif} {etag : Option Str} {d d' : RepoData} {f : Fetcher}
    {time : Time} (h : updateFromDeltas n etag d f time env w = (.ok (.ok (), d'), w')) :
    d'.etag = etag := by
  unfold updateFromDeltas at h
  split at h
  · cases h
  · split at h
    · cases h
    · split at h
      · cases h
      · split at h
        · cases h
        · obtain ⟨⟨r, d1⟩, w1, h1, h2⟩ := M.bind_ok.1 h
          match r with
          | .error e => cases h2
          | .ok () => cases h2; rfl

theorem FromSnapshot.genuine {fs : FS} {f : Fetcher} {time : Time} {n : Notif} {d : RepoData}
    (h : FromSnapshot env fs f time n d) (ht : Truthful content n) : d.Genuine content := by
  obtain ⟨src, b, e, els, _, _, h1, h2, h3⟩ := h.body
  intro u
  rw [h3 u, h.session, h.serial, ht.snapshot b els h1 h2 u]

/-- What `get_latest` leaves behind. -/
structure LatestDone (env : Env) (v : Visited) (uri : Str) (offline : Bool) (time : Time)
    (w : World) (r : Except Err RepoData) (v' : Visited) (w' : World) : Prop where
  same : Same w w'
  fetchers : v'.fetchers = v.fetchers
  others : ∀ u, u ≠ uri → mapGet v'.data u = mapGet v.data u
  ok : ∀ d, r = .ok d → mapGet v'.data uri = some d ∧ Latest env w.cur v uri offline time w.tick d
  err : ∀ e, r = .error e → ∀ d, mapGet v'.data uri = some d →
    ∃ d0, mapGet v.data uri = some d0 ∧ d = { d0 with fetched := true }

theorem LatestDone.of_insert {v : Visited} {uri : Str} {offline : Bool} {time : Time} {d : RepoData}
    {m : List (Str × RepoData)} (hm : ∀ u, u ≠ uri → mapGet m u = mapGet v.data u)
    (hs : Same w w') (h : Latest env w.cur v uri offline time w.tick d) :
    ∃ r v', ({ v with data := mapInsert m uri d } : Visited).final uri = (r, v') ∧
      LatestDone env v uri offline time w r v' w' := by
  have hg : mapGet (mapInsert m uri d) uri = some d :=
    (mapGet_insert ..).trans (if_pos rfl)
  refine ⟨.ok d, { v with data := mapInsert m uri d }, ?_, hs, rfl, ?_, ?_, ?_⟩
  · unfold Visited.final
    dsimp only
    rw [hg]
  · intro u hu
    exact ((mapGet_insert ..).trans (if_neg hu)).trans (hm u hu)
  · rintro d' ⟨⟩
    exact ⟨hg, h⟩
  · rintro e ⟨⟩

theorem getLatest_done {v : Visited} {uri : Str} {offline : Bool} {time : Time}
    {x : Except Err (Except Err RepoData × Visited)}
    (h : v.getLatest uri offline time env w = (x, w')) :
    ∃ r v', x = .ok (r, v') ∧ LatestDone env v uri offline time w r v' w' := by
  unfold Visited.getLatest at h
  rw [Visited.getFetcher_eq] at h
  match hd : mapGet v.data uri with
  | none =>
    rw [hd] at h
    dsimp only at h
    by_cases ho : offline = true
    · rw [if_pos ho] at h
      cases h
      unfold Visited.final
      rw [hd]
      refine ⟨_, _, rfl, ⟨rfl, rfl⟩, rfl, fun _ _ => rfl, by rintro d ⟨⟩, ?_⟩
      rintro e - d hh
      rw [hd] at hh; cases hh
    · rw [if_neg ho, attempt_bind] at h
      have hs := retrieveNew_same (v.fetcherOf uri) time env w
      match hr : retrieveNew (v.fetcherOf uri) time env w with
      | (.error e, w1) =>
        rw [hr] at h hs
        cases h
        refine ⟨_, _, rfl, hs, rfl, fun _ _ => rfl, by rintro d ⟨⟩, ?_⟩
        rintro e - d hh
        rw [hd] at hh; cases hh
      | (.ok d, w1) =>
        rw [hr] at h hs
        dsimp only at h
        cases h
        unfold retrieveNew at hr
        obtain ⟨o, w2, h1, h2⟩ := M.bind_ok.1 hr
        obtain ⟨h3, src, h4, h5⟩ := readNotification_ok h1
        rcases h5 with ⟨n, e, b, rfl, hb, hp⟩ | ⟨rfl, _⟩
        · have h6 := dataFromSnapshot_ok h2
          rw [h3.1] at h6
          obtain ⟨r, v', h7, h8⟩ := LatestDone.of_insert (offline := offline) (fun u _ => rfl) hs
            (Latest.snapshot n ⟨src, none, b, e, Fetcher.locates_iff.1 h4, hb, hp⟩ (by simpa using ho) h6
              (by rw [dataFromSnapshot_etag h2]; exact ⟨src, none, b, Fetcher.locates_iff.1 h4, hb, hp⟩))
          exact ⟨r, v', by rw [h7], h8⟩
        · cases h2
  | some d0 =>
    rw [hd] at h
    dsimp only at h
    have hv : ∀ u, u ≠ uri → mapGet v.data u = mapGet v.data u := fun _ _ => rfl
    by_cases hf : d0.fetched = true
    · rw [if_pos hf] at h
      cases h
      unfold Visited.final
      rw [hd]
      refine ⟨_, _, rfl, ⟨rfl, rfl⟩, rfl, fun _ _ => rfl, ?_, by rintro e ⟨⟩⟩
      rintro d ⟨⟩
      exact ⟨hd, .cached d0 hd (.inl hf) (by obtain ⟨a, b, c, e, f, g⟩ := d0; subst hf; rfl)⟩
    · rw [if_neg hf] at h
      by_cases ho : offline = true
      · rw [if_pos ho] at h
        cases h
        obtain ⟨r, v', h7, h8⟩ := LatestDone.of_insert (env := env) (w := w) (time := time) hv
          ⟨rfl, rfl⟩ (Latest.cached d0 hd (.inr (.inl ho)) rfl)
        exact ⟨r, v', by rw [h7], h8⟩
      · rw [if_neg ho, now_bind] at h
        have hoff : offline = false := by simpa using ho
        by_cases ht : d0.lastFetch > env.clock w.tick - 3600
        · rw [if_pos ht] at h
          cases h
          obtain ⟨r, v', h7, h8⟩ := LatestDone.of_insert (env := env) (w := w) (time := time)
            (w' := { w with tick := w.tick + 1 }) hv
            ⟨rfl, rfl⟩ (Latest.cached (offline := offline) d0 hd (.inr (.inr ht)) rfl)
          exact ⟨r, v', by rw [h7], h8⟩
        · rw [if_neg ht, attempt_bind] at h
          have hs := readNotification_same (v.fetcherOf uri) d0.etag env { w with tick := w.tick + 1 }
          match hr : (v.fetcherOf uri).readNotification d0.etag env { w with tick := w.tick + 1 } with
          | (.error e, w1) =>
            rw [hr] at h hs
            cases h
            refine ⟨_, _, rfl, hs, rfl, fun u hu => (mapGet_insert ..).trans (if_neg hu),
              by rintro d ⟨⟩, ?_⟩
            rintro e - d hh
            rw [(mapGet_insert ..).trans (if_pos rfl)] at hh
            cases hh
            exact ⟨d0, hd, rfl⟩
          | (.ok o, w1) =>
            rw [hr] at h hs
            have hs : Same w w1 := hs
            dsimp only at h
            obtain ⟨_, src, h4, h5⟩ := readNotification_ok hr
            rcases h5 with ⟨n, e, b, rfl, hb, hp⟩ | ⟨rfl, u, m, t, hu, h304⟩
            · have hn : (v.fetcherOf uri).Finds env w.cur n := ⟨src, _, b, e, Fetcher.locates_iff.1 h4, hb, hp⟩
              dsimp only at h
              by_cases hsame : n.session = d0.session ∧ n.serial = d0.serial
              · rw [if_pos hsame] at h
                cases h
                obtain ⟨r, v', h7, h8⟩ := LatestDone.of_insert (env := env) (w := w) (time := time) hv hs
                  (Latest.current d0 hd hoff (.inr ⟨n, hn, hsame⟩) rfl)
                exact ⟨r, v', by rw [h7], h8⟩
              · rw [if_neg hsame] at h
                rcases M.bind_cases (updateFromDeltas n e { d0 with fetched := true }
                  (v.fetcherOf uri) time) _ env w1 with ⟨e', w2, h6, h7⟩ | ⟨⟨o, d1⟩, w2, h6, h7⟩
                · obtain ⟨_, p, hp⟩ := updateFromDeltas_frame h6
                  cases hp
                · obtain ⟨hs2, _⟩ := updateFromDeltas_frame h6
                  rw [h7] at h
                  have hs' := Same.trans' hs hs2
                  dsimp only at h
                  match o with
                  | .ok () =>
                    cases h
                    obtain ⟨k1, k2, k8, ⟨x9, k9, _⟩, k3, k4, k5, k7, k6⟩ := updateFromDeltas_ok h6
                    rw [hs.1] at k7
                    obtain ⟨r, v', g7, g8⟩ := LatestDone.of_insert (env := env) (w := w) (time := time) hv hs'
                      (Latest.deltas n hn hoff d0 hd k1 k2 k8 (fun h => by rw [h] at k9; cases k9) k3
                        (fun hse => hsame ⟨k1, hse⟩) (fun h1 h2 => (k4 (Nat.ne_of_lt h1) h2).2) k5 k7
                        (fun content ht hg => k6 content ht hg) (by simpa using hf)
                        (by rw [updateFromDeltas_etag h6]; exact ⟨src, _, b, Fetcher.locates_iff.1 h4, hb, hp⟩))
                    exact ⟨r, v', by rw [g7], g8⟩
                  | .error e1 =>
                    dsimp only at h
                    rw [attempt_bind] at h
                    have hs3 := dataFromSnapshot_same n e (v.fetcherOf uri) time env w2
                    match h8 : dataFromSnapshot n e (v.fetcherOf uri) time env w2 with
                    | (.ok d', w3) =>
                      rw [h8] at h hs3
                      cases h
                      have h9 := dataFromSnapshot_ok h8
                      rw [hs'.1] at h9
                      obtain ⟨r, v', g7, g8⟩ := LatestDone.of_insert (env := env) (w := w) (v := v)
                        (m := mapInsert v.data uri d1)
                        (fun u hu => (mapGet_insert ..).trans (if_neg hu))
                        (Same.trans' hs' hs3) (Latest.snapshot n hn hoff h9
                          (by rw [dataFromSnapshot_etag h8]; exact ⟨src, _, b, Fetcher.locates_iff.1 h4, hb, hp⟩))
                      exact ⟨r, v', by rw [← g7], g8⟩
                    | (.error e', w3) =>
                      rw [h8] at h hs3
                      cases h
                      have hnone : mapGet (mapErase (mapInsert v.data uri d1) uri) uri = none :=
                        (mapGet_erase ..).trans (if_pos rfl)
                      unfold Visited.final
                      dsimp only
                      rw [hnone]
                      refine ⟨_, _, rfl, Same.trans' hs' hs3, rfl, fun u hu =>
                        ((mapGet_erase ..).trans (if_neg hu)).trans
                          ((mapGet_insert ..).trans (if_neg hu)), by rintro d ⟨⟩, ?_⟩
                      rintro e - d hh
                      rw [hnone] at hh
                      cases hh
            · dsimp only at h
              cases h
              obtain ⟨r, v', h7, h8⟩ := LatestDone.of_insert (env := env) (w := w) (time := time) hv hs
                (Latest.current d0 hd hoff (.inl ⟨src, u, m, t, Fetcher.locates_iff.1 h4, hu, h304⟩) rfl)
              exact ⟨r, v', by rw [h7], h8⟩

/-! ## The cache -/

theorem LatestDone.genuine {content : Str → Uuid → Nat → Objects} {v v' : Visited} {uri : Str}
    {offline : Bool} {time : Time} {r : Except Err RepoData}
    (h : LatestDone env v uri offline time w r v' w') (hg : v.Genuine content)
    (hs : v.Sources env w.cur content) : v'.Genuine content := by
  intro u d hd
  by_cases hu : u = uri
  · subst hu
    match r, h with
    | .error e, h =>
      obtain ⟨d0, h0, rfl⟩ := h.err e rfl d hd
      exact fun x => hg u d0 h0 x
    | .ok d', h =>
      obtain ⟨h1, h2⟩ := h.ok d' rfl
      rw [h1] at hd
      cases hd
      cases h2 with
      | cached d0 h0 _ hsame => subst hsame; exact fun x => hg u d0 h0 x
      | current d0 h0 _ _ hsame => subst hsame; exact fun x => hg u d0 h0 x
      | snapshot n hn _ hf _ => exact hf.genuine (hs u n hn)
      | deltas n hn _ d0 h0 _ _ _ _ _ _ _ _ _ hgen _ _ => exact hgen _ (hs u n hn) (hg u d0 h0)
  · exact hg u d ((h.others u hu).symm.trans hd)

theorem LatestDone.sources {content : Str → Uuid → Nat → Objects} {v v' : Visited} {uri : Str}
    {offline : Bool} {time : Time} {r : Except Err RepoData}
    (h : LatestDone env v uri offline time w r v' w') (hs : v.Sources env w.cur content) :
    v'.Sources env w'.cur content := by
  intro u n hn
  unfold Visited.fetcherOf at hn
  rw [h.fetchers, h.same.1] at hn
  exact hs u n hn

/-! ## Failure -/

theorem FetchSource.Answers.body {src : FetchSource} {fs : FS} {etag : Option Str}
    {P : Bytes → Prop} {b : Bytes} {e : Option Str} (h : src.Answers env fs etag P)
    (hb : src.Body env fs etag b e) : P b := by
  cases src with
  | file p =>
    obtain ⟨b', h1, h2⟩ := h
    have h3 := hb.1
    rw [h1] at h3
    cases h3
    exact h2
  | uri u m =>
    obtain ⟨tick, hdr, h1, _⟩ := hb
    obtain ⟨hdr', b', h2, _, h3⟩ := h tick
    rw [h1] at h2
    cases h2
    exact h3

theorem readBytes_answers {f : Fetcher} {uri : Str} {hash : Hash} {src : FetchSource}
    {P : Bytes → Prop} (hr : f.Locates uri src) (hf : env.fault w.tick = false)
    (h : src.Answers env w.cur none (fun b => Ext.sha b = hash ∧ P b)) :
    ∃ b w1, readBytes f uri hash env w = (.ok b, w1) ∧ P b := by
  obtain ⟨b, e, w1, h1, h2, h3⟩ := raw_answers hf h
  refine ⟨b, w1, ?_, h3⟩
  unfold readBytes
  rw [Fetcher.locates_iff.2 hr, M.bind_of_ok (a := src) (w1 := w) rfl]
  have h4 : src.fetch (some hash) none none env w = (.ok (.data b e), w1) := by
    unfold FetchSource.fetch
    rw [M.bind_of_ok h1]
    dsimp only
    rw [if_neg (not_not_intro h2)]
    rfl
  rw [M.bind_of_ok h4]
  rfl

theorem dataFromSnapshot_answers {n : Notif} {etag : Option Str} {f : Fetcher} {time : Time}
    {src : FetchSource} (hr : f.Locates n.snapUri src) (hf : NoFaults env)
    (h : src.Answers env w.cur none (fun b => Ext.sha b = n.snapHash ∧
      ∃ els, Ext.parseSnapshot b = some els)) :
    ∃ d w1, dataFromSnapshot n etag f time env w = (.ok d, w1) := by
  obtain ⟨b, w1, h1, els, h2⟩ := readBytes_answers hr (hf _) h
  unfold dataFromSnapshot
  rw [M.bind_of_ok h1, h2]
  exact ⟨_, _, rfl⟩

theorem retrieveNew_answers {f : Fetcher} {time : Time} (hf : NoFaults env)
    (h : f.Reliable env w.cur) : ∃ d w1, retrieveNew f time env w = (.ok d, w1) := by
  obtain ⟨src, hr, h⟩ := h
  obtain ⟨n, e, w1, h1, snap, h2, h3⟩ := readNotification_answers (Fetcher.locates_iff.2 hr) (hf _) (h none)
  unfold retrieveNew
  rw [M.bind_of_ok h1]
  dsimp only
  have hs := readNotification_same f none env w
  rw [h1] at hs
  exact dataFromSnapshot_answers h2 hf (by rw [hs.1]; exact h3)

/-- There are no data only if they are unavailable. -/
theorem getLatest_fetched {v : Visited} {uri : Str} {offline : Bool} {time : Time} {d : RepoData}
    (hd : mapGet v.data uri = some d) (hf : d.fetched = true) :
    v.getLatest uri offline time env w = (.ok (.ok d, v), w) := by
  unfold Visited.getLatest
  rw [Visited.getFetcher_eq]
  rw [hd]
  dsimp only
  rw [if_pos hf]
  unfold Visited.final
  rw [hd]
  rfl

theorem getLatest_fails {v v' : Visited} {uri : Str} {offline : Bool} {time : Time} {e : Err}
    (h : v.getLatest uri offline time env w = (.ok (.error e, v'), w')) :
    Unavailable env w.cur v offline uri := by
  unfold Unavailable
  refine ⟨fun d hd => ?_, ?_⟩
  · match hf : d.fetched with
    | false => rfl
    | true =>
      rw [getLatest_fetched hd hf] at h
      cases h
  cases offline with
  | true =>
    rw [if_pos rfl]
    unfold Visited.getLatest at h
    rw [Visited.getFetcher_eq] at h
    match hd : mapGet v.data uri with
    | none => rfl
    | some d0 =>
      rw [hd] at h
      dsimp only at h
      have hfin : ∀ x : Visited, (∃ d, mapGet x.data uri = some d) →
          ∀ y, x.final uri ≠ (.error e, y) := by
        rintro x ⟨d, hx⟩ y hy
        unfold Visited.final at hy
        rw [hx] at hy
        cases hy
      by_cases hf : d0.fetched = true
      · rw [if_pos hf, M.pure_ok] at h
        exact absurd h.1 (hfin v ⟨_, hd⟩ _)
      · rw [if_neg hf, if_pos rfl, M.pure_ok] at h
        exact absurd h.1 (hfin _ ⟨_, (mapGet_insert ..).trans (if_pos rfl)⟩ _)
  | false =>
    rw [if_neg (by decide)]
    rintro ⟨hf, hrel⟩
    have hfin : ∀ x : Visited, (∃ d, mapGet x.data uri = some d) →
        ∀ y, x.final uri ≠ (.error e, y) := by
      rintro x ⟨d, hx⟩ y hy
      unfold Visited.final at hy
      rw [hx] at hy
      cases hy
    unfold Visited.getLatest at h
    rw [Visited.getFetcher_eq] at h
    match hd : mapGet v.data uri with
    | none =>
      rw [hd] at h
      dsimp only at h
      rw [if_neg (by decide), attempt_bind] at h
      obtain ⟨d, w1, h1⟩ := retrieveNew_answers (time := time) hf hrel
      rw [h1] at h
      dsimp only at h
      rw [M.pure_ok] at h
      exact hfin _ ⟨_, (mapGet_insert ..).trans (if_pos rfl)⟩ _ h.1
    | some d0 =>
      rw [hd] at h
      dsimp only at h
      by_cases hft : d0.fetched = true
      · rw [if_pos hft, M.pure_ok] at h
        exact hfin v ⟨_, hd⟩ _ h.1
      · rw [if_neg hft, if_neg (by decide), now_bind] at h
        by_cases ht : d0.lastFetch > env.clock w.tick - 3600
        · rw [if_pos ht, M.pure_ok] at h
          exact hfin _ ⟨_, (mapGet_insert ..).trans (if_pos rfl)⟩ _ h.1
        · rw [if_neg ht, attempt_bind] at h
          obtain ⟨src, hr, hans⟩ := hrel
          obtain ⟨n, et, w1, h1, snap, h2, h3⟩ := readNotification_answers
            (w := { w with tick := w.tick + 1 }) (Fetcher.locates_iff.2 hr) (hf _) (hans d0.etag)
          have hs : Same w w1 := by
            have := readNotification_same (v.fetcherOf uri) d0.etag env { w with tick := w.tick + 1 }
            rw [h1] at this
            exact this
          rw [h1] at h
          dsimp only at h
          by_cases hsame : n.session = d0.session ∧ n.serial = d0.serial
          · rw [if_pos hsame, M.pure_ok] at h
            exact hfin _ ⟨_, (mapGet_insert ..).trans (if_pos rfl)⟩ _ h.1
          · rw [if_neg hsame] at h
            obtain ⟨⟨o, d1⟩, w2, h6, h7⟩ := M.bind_ok.1 h
            have hs2 := (updateFromDeltas_frame h6).1
            dsimp only at h7
            match o with
            | .ok () =>
              dsimp only at h7
              rw [M.pure_ok] at h7
              exact hfin _ ⟨_, (mapGet_insert ..).trans (if_pos rfl)⟩ _ h7.1
            | .error e1 =>
              dsimp only at h7
              rw [attempt_bind] at h7
              obtain ⟨d', w3, h8⟩ := dataFromSnapshot_answers (w := w2) (etag := et) (time := time)
                h2 hf (by rw [hs2.1, hs.1]; exact h3)
              rw [h8] at h7
              dsimp only at h7
              rw [M.pure_ok] at h7
              exact hfin _ ⟨_, (mapGet_insert ..).trans (if_pos rfl)⟩ _ h7.1

/-- An offline validation does not lose data. -/
theorem getLatest_offline_keys {v v' : Visited} {uri : Str} {time : Time} {r : Except Err RepoData}
    (h : v.getLatest uri true time env w = (.ok (r, v'), w')) :
    mapGet v'.data uri = none ↔ mapGet v.data uri = none := by
  unfold Visited.getLatest at h
  rw [Visited.getFetcher_eq] at h
  have hfin : ∀ (x y : Visited) r, x.final uri = (r, y) → y = x := by
    intro x y r hy
    unfold Visited.final at hy
    split at hy <;> cases hy <;> rfl
  match hd : mapGet v.data uri with
  | none =>
    rw [hd] at h
    dsimp only at h
    rw [if_pos rfl, M.pure_ok] at h
    rw [hfin _ _ _ h.1, hd]
  | some d0 =>
    rw [hd] at h
    dsimp only at h
    by_cases hf : d0.fetched = true
    · rw [if_pos hf, M.pure_ok] at h
      rw [hfin _ _ _ h.1, hd]
    · rw [if_neg hf, if_pos rfl, M.pure_ok] at h
      rw [hfin _ _ _ h.1]
      dsimp only
      rw [(mapGet_insert ..).trans (if_pos rfl)]
      simp

/-! ## Success -/

/-- Consecutive deltas that can all be had and describe the changes are applied. -/
theorem applyDeltas_progress {f : Fetcher} {n : Notif} {fs : FS} (hf : NoFaults env)
    (ht : Truthful content n) (ds : List DeltaInfo) : ∀ {d : RepoData} {w : World}, w.cur = fs →
    (∀ x ∈ ds, x ∈ n.deltas) → (∀ x ∈ ds, f.Delivers env fs x) → d.Genuine content →
    d.session = n.session → ∃ d' w', applyDeltas f d ds env w = (.ok (.ok (), d'), w') := by
  induction ds with
  | nil => exact fun _ _ _ _ _ => ⟨_, _, rfl⟩
  | cons i is ih =>
    intro d w hw hm hd hg hs
    unfold applyDeltas
    by_cases hi : i.serial ≠ nextSerial d.serial
    · rw [if_pos hi]
      exact ih hw (fun x hx => hm x (List.mem_cons_of_mem _ hx))
        (fun x hx => hd x (List.mem_cons_of_mem _ hx)) hg hs
    · rw [if_neg hi, attempt_bind]
      have hi : i.serial = nextSerial d.serial := Decidable.not_not.1 hi
      have hn := nextSerial_of_pos (hi ▸ (ht.range i (hm i (List.mem_cons_self ..))).1)
      rw [hn] at hi
      obtain ⟨src, h1, h2⟩ := hd i (List.mem_cons_self ..)
      obtain ⟨b, w1, h3, els, h4⟩ := readBytes_answers h1 (hf _) (hw ▸ h2)
      obtain ⟨hb, hsm, _⟩ := readBytes_ok h3
      rw [h3]
      dsimp only
      rw [h4]
      dsimp only
      have hc := ht.deltas i (hm i (List.mem_cons_self ..)) b els hb h4 d.serial hi
      rw [← hs] at hc
      obtain ⟨objs, ha⟩ := change_applies (objs := d.objects) els hc.once
        (fun u h x hx => by rw [hg u.toStr]; exact (hc.update u h x hx).2)
        (fun u h hx => by rw [hg u.toStr]; exact (hc.withdraw u h hx).2)
      rw [ha, hn]
      dsimp only
      exact ih (d := { d with objects := objs, serial := d.serial + 1 }) (hsm.1.trans hw)
        (fun x hx => hm x (List.mem_cons_of_mem _ hx))
        (fun x hx => hd x (List.mem_cons_of_mem _ hx))
        (fun u => by
          dsimp only
          exact change_applied hc hg ha u) hs

theorem updateFromDeltas_progress {n : Notif} {etag : Option Str} {d : RepoData} {f : Fetcher}
    {time : Time} {ds : List DeltaInfo} (hf : NoFaults env) (ht : Truthful content n)
    (hg : d.Genuine content) (hs : d.session = n.session)
    (hv : sortVerify none n.deltas = .ok ds) (hfirst : ∃ x ∈ n.deltas, x.serial ≤ d.serial + 1)
    (h64 : d.serial + 1 ≠ 2 ^ 64)
    (hd : ∀ x ∈ n.deltas, f.Delivers env w.cur x) :
    ∃ d' w', updateFromDeltas n etag d f time env w = (.ok (.ok (), d'), w') := by
  have hlim := sortVerify_limit hv
  have hperm := hlim.perm_of_none
  unfold updateFromDeltas
  rw [if_neg (not_not_intro hs.symm), hv]
  match ds with
  | [] =>
    obtain ⟨x, hx, _⟩ := hfirst
    exact absurd (hperm.mem_iff.2 hx) List.not_mem_nil
  | first :: rest =>
    dsimp only
    have h1 : ¬ first.serial > nextSerial d.serial := by
      rw [nextSerial_of_ne h64]
      obtain ⟨x, hx, hle⟩ := hfirst
      have hx := hperm.mem_iff.2 hx
      have : first.serial ≤ x.serial := contiguous_head_le hlim.contiguous x hx
      omega
    rw [if_neg h1]
    obtain ⟨d', w', h2⟩ := applyDeltas_progress (d := d) (w := w) hf ht (first :: rest) rfl
      (fun x hx => hperm.mem_iff.1 hx) (fun x hx => hd x (hperm.mem_iff.1 hx)) hg hs
    rw [M.bind_of_ok h2]
    exact ⟨_, _, rfl⟩

end KSync
