import Verif.Lemmas.Bounds

/-! # What is accepted -/

set_option linter.unusedSectionVars false
set_option linter.unusedVariables false

namespace KSync

variable [Ext] {env : Env}

theorem Rejected.no_accepted {info : CaInfo} {ca : ValidatedCa} {kids : List (ResCert × CaInfo)}
    {P : Issue → Prop} (hr : Rejected info ca kids P) : ca.accepted = [] := by
  obtain ⟨h1, h2, h3, h4, _, _⟩ := hr.nothing
  unfold ValidatedCa.accepted
  rw [h1, h2, h3, h4]
  rfl

theorem examined_of_accepted {D : Str → List (Str × Bytes) → Prop} {N : Str → Prop}
    {issuer : ResCert} {info : CaInfo} {time : Time} {ca : ValidatedCa}
    {kids : List (ResCert × CaInfo)} (h : Judged env D N issuer info time ca kids) {uri : Str}
    (hu : uri ∈ ca.accepted) : ∃ u objs content crlUri crl, info.siaRrdp = some u ∧ D u objs ∧
      Examined env objs issuer info time content crlUri crl ca kids := by
  have rej : ∀ {P}, Rejected info ca kids P → False := fun hr => by
    rw [hr.no_accepted] at hu; cases hu
  cases h with
  | noRrdp _ hr => exact (rej hr).elim
  | noData _ _ _ hr => exact (rej hr).elim
  | disordered _ _ _ _ _ hr => exact (rej hr).elim
  | examined u objs content crlUri crl h1 h2 he => exact ⟨u, objs, content, crlUri, crl, h1, h2, he⟩

/-- The finding behind an accepted object. -/
theorem finding_of_accepted {ca : ValidatedCa} {kids : List (ResCert × CaInfo)}
    {fs : List (Str × Finding)} (h : ConsistsOf ca kids fs)
    (hroa : ∀ x ∈ fs, ∀ r, x.2 = .roa r → r.uri = x.1)
    (hasp : ∀ x ∈ fs, ∀ r, x.2 = .aspa r → r.uri = x.1) {uri : Str} (hu : uri ∈ ca.accepted) :
    ∃ f, (uri, f) ∈ fs ∧ (∀ k, f ≠ .issue k) ∧ f ≠ .ignored := by
  unfold ValidatedCa.accepted at hu
  rw [h.children, h.routers, h.roas, h.aspas] at hu
  simp only [List.mem_append, List.mem_map, List.mem_filterMap] at hu
  rcases hu with ((⟨x, ⟨⟨u, f⟩, h1, h2⟩, rfl⟩ | ⟨⟨u, f⟩, h1, h2⟩) | ⟨x, ⟨⟨u, f⟩, h1, h2⟩, rfl⟩) |
    ⟨x, ⟨⟨u, f⟩, h1, h2⟩, rfl⟩
  · cases f <;> simp at h2
    subst h2
    exact ⟨_, h1, (fun k h => by cases h), (fun h => by cases h)⟩
  · cases f <;> simp at h2
    subst h2
    exact ⟨_, h1, (fun k h => by cases h), (fun h => by cases h)⟩
  · cases f <;> simp at h2
    subst h2
    rw [hroa _ h1 _ rfl]
    exact ⟨_, h1, (fun k h => by cases h), (fun h => by cases h)⟩
  · cases f <;> simp at h2
    subst h2
    rw [hasp _ h1 _ rfl]
    exact ⟨_, h1, (fun k h => by cases h), (fun h => by cases h)⟩

theorem payload_uri {objs : List (Str × Bytes)} {issuer : ResCert} {info : CaInfo}
    {time : Time} {content : MftContent} {crl : CrlObj} {fs : List (Str × Finding)}
    (h : ∀ x ∈ fs, ∃ h k, Listed info content x.1 h ∧
      x.2.Right objs issuer crl time (env.clock k) x.1 h) :
    (∀ x ∈ fs, ∀ r, x.2 = .roa r → r.uri = x.1) ∧ (∀ x ∈ fs, ∀ r, x.2 = .aspa r → r.uri = x.1) := by
  constructor
  · intro x hx r hr
    obtain ⟨hh, k, _, h2⟩ := h x hx
    rw [hr] at h2
    obtain ⟨obj, _, _, _, _, _, _, _, _, _, h3⟩ := h2
    exact h3.uri
  · intro x hx r hr
    obtain ⟨hh, k, _, h2⟩ := h x hx
    rw [hr] at h2
    obtain ⟨obj, _, _, _, _, _, _, _, _, _, h3⟩ := h2
    exact h3.uri

theorem Finding.Right.deserved {objs : List (Str × Bytes)} {issuer : ResCert} {crl : CrlObj}
    {time t : Time} {uri : Str} {h : Hash} {f : Finding}
    (hr : f.Right objs issuer crl time t uri h) (hf : ∀ k, f ≠ .issue k) :
    f.Deserved objs issuer crl time t uri h := by
  cases f with
  | issue k => exact absurd rfl (hf k)
  | _ => exact hr

/-- An accepted object is listed, present and unchanged. -/
theorem Examined.accepted {objs : List (Str × Bytes)} {issuer : ResCert} {info : CaInfo}
    {time : Time} {content : MftContent} {crlUri : RsyncUri} {crl : CrlObj} {ca : ValidatedCa}
    {kids : List (ResCert × CaInfo)}
    (he : Examined env objs issuer info time content crlUri crl ca kids) {uri : Str}
    (hu : uri ∈ ca.accepted) : uri ≠ crlUri.toStr ∧ ∃ hash obj f k, Listed info content uri hash ∧
      mapGet objs uri = some obj ∧ Ext.mftHashOk hash obj = true ∧ (∀ k, f ≠ .issue k) ∧
      f ≠ .ignored ∧ Finding.Deserved objs issuer crl time (env.clock k) uri hash f := by
  obtain ⟨fs, f1, f2, f3, f4⟩ := he.findings
  obtain ⟨g1, g2⟩ := payload_uri f4
  obtain ⟨f, h6, h7, h8⟩ := finding_of_accepted f1 g1 g2 hu
  obtain ⟨hash, k, h9, h10⟩ := f4 _ h6
  obtain ⟨hne, _⟩ := (f3 uri).1 (List.mem_map.2 ⟨_, h6, rfl⟩)
  have hd := h10.deserved h7
  obtain ⟨obj, h11, h12, h13⟩ := hd
  exact ⟨hne, hash, obj, f, k, h9, h11, h12, h7, h8, obj, h11, h12, h13⟩

/-- A revoked object does not deserve to be accepted. -/
theorem RevokedObject.not_deserved {objs : List (Str × Bytes)} {issuer : ResCert} {crl : CrlObj}
    {time t : Time} {uri : Str} {hash : Hash} {obj : Bytes} (h : RevokedObject issuer crl uri obj)
    (ho : mapGet objs uri = some obj) {f : Finding}
    (hd : Finding.Deserved objs issuer crl time t uri hash f) : False := by
  obtain ⟨obj', h1, _, h2⟩ := hd
  rw [ho] at h1
  cases h1
  have e1 : "roa".toList ≠ "asa".toList := by decide
  have e2 : "roa".toList ≠ "cer".toList := by decide
  have e3 : "asa".toList ≠ "cer".toList := by decide
  have e4 : "gbr".toList ≠ "roa".toList := by decide
  have e5 : "gbr".toList ≠ "asa".toList := by decide
  have e6 : "gbr".toList ≠ "cer".toList := by decide
  rcases h with ⟨he, x, hx, hrev⟩ | ⟨he, x, hx, hrev⟩ | ⟨he, x, hx, hca, hrev⟩
  · cases f with
    | child rc i => exact e2 (HasExtension.unique he h2.1)
    | router => exact e2 (HasExtension.unique he h2.1)
    | roa r =>
      obtain ⟨_, x', ee, p, h3, h4, h5, _⟩ := h2
      rw [hx] at h3; cases h3
      exact h5 (hrev t ee p h4)
    | aspa a => exact e1 (HasExtension.unique he h2.1)
    | ignored => exact e4 (HasExtension.unique h2 he)
    | issue k => exact h2
  · cases f with
    | child rc i => exact e3 (HasExtension.unique he h2.1)
    | router => exact e3 (HasExtension.unique he h2.1)
    | roa r => exact e1 (HasExtension.unique h2.1 he)
    | aspa a =>
      obtain ⟨_, x', ee, p, h3, h4, h5, _⟩ := h2
      rw [hx] at h3; cases h3
      exact h5 (hrev t ee p h4)
    | ignored => exact e5 (HasExtension.unique h2 he)
    | issue k => exact h2
  · cases f with
    | child rc i =>
      obtain ⟨_, c, h3, _, h4, _⟩ := h2
      rw [hx] at h3; cases h3
      exact h4 hrev
    | router =>
      obtain ⟨_, c, h3, h4, _⟩ := h2
      rw [hx] at h3; cases h3
      rw [hca] at h4; cases h4
    | roa r => exact e2 (HasExtension.unique h2.1 he)
    | aspa a => exact e3 (HasExtension.unique h2.1 he)
    | ignored => exact e6 (HasExtension.unique h2 he)
    | issue k => exact h2

theorem Examined.revoked {objs : List (Str × Bytes)} {issuer : ResCert} {info : CaInfo}
    {time : Time} {content : MftContent} {crlUri : RsyncUri} {crl : CrlObj} {ca : ValidatedCa}
    {kids : List (ResCert × CaInfo)}
    (he : Examined env objs issuer info time content crlUri crl ca kids) {uri : Str} {hash : Hash}
    {obj : Bytes} (hne : uri ≠ crlUri.toStr) (hl : Listed info content uri hash)
    (ho : mapGet objs uri = some obj) (hr : RevokedObject issuer crl uri obj) :
    uri ∉ ca.accepted ∧ ∃ k, ⟨some uri, k⟩ ∈ ca.issues := by
  constructor
  · intro hu
    obtain ⟨_, hash', obj', f, k, _, _, _, _, _, hd⟩ := he.accepted hu
    exact hr.not_deserved ho hd
  · obtain ⟨fs, f1, f2, f3, f4⟩ := he.findings
    obtain ⟨⟨u, f⟩, hm, hu⟩ := List.mem_map.1 ((f3 uri).2 ⟨hne, hash, hl⟩)
    cases hu
    obtain ⟨hash', k, _, h10⟩ := f4 _ hm
    have hiss : ∃ k, f = .issue k := Classical.byContradiction fun hno =>
      hr.not_deserved ho (h10.deserved fun k hk => hno ⟨k, hk⟩)
    obtain ⟨k', rfl⟩ := hiss
    refine ⟨k', ?_⟩
    rw [f1.issues, List.mem_filterMap]
    exact ⟨_, hm, rfl⟩

/-- Where the issues of a CA come from. -/
theorem Judged.issues {D : Str → List (Str × Bytes) → Prop} {N : Str → Prop} {issuer : ResCert}
    {info : CaInfo} {time : Time} {ca : ValidatedCa} {kids : List (ResCert × CaInfo)}
    (h : Judged env D N issuer info time ca kids) {i : Issue} (hi : i ∈ ca.issues) :
    i.Caused env D N issuer info time := by
  cases h with
  | noRrdp h hr =>
    obtain ⟨j, h1, rfl⟩ := hr.issue
    rw [h1] at hi
    cases List.mem_singleton.1 hi
    exact .noRrdp h rfl
  | noData u h hn hr =>
    obtain ⟨j, h1, rfl⟩ := hr.issue
    rw [h1] at hi
    cases List.mem_singleton.1 hi
    exact .noData u h hn rfl
  | disordered u objs h hd _ hr =>
    obtain ⟨j, h1, h2⟩ := hr.issue
    rw [h1] at hi
    cases List.mem_singleton.1 hi
    exact .disordered u objs h hd h2
  | examined u objs content crlUri crl h hd he =>
    obtain ⟨fs, f1, _, f3, f4⟩ := he.findings
    rw [f1.issues, List.mem_filterMap] at hi
    obtain ⟨⟨x, f⟩, hm, hx⟩ := hi
    cases f with
    | issue k =>
      cases hx
      obtain ⟨hash, t, h1, h2⟩ := f4 _ hm
      obtain ⟨hne, _⟩ := (f3 x).1 (List.mem_map.2 ⟨_, hm, rfl⟩)
      exact .object u objs content crlUri crl x hash t h hd he.order hne h1 rfl h2.2
    | _ => cases hx

/-- What is behind a ROA in a result. -/
theorem Judged.roas {D : Str → List (Str × Bytes) → Prop} {N : Str → Prop} {issuer : ResCert}
    {info : CaInfo} {time : Time} {ca : ValidatedCa} {kids : List (ResCert × CaInfo)}
    (h : Judged env D N issuer info time ca kids) {r : ValidatedRoa} (hr : r ∈ ca.roas) :
    ∃ u objs content crlUri crl hash obj x t ee p, info.siaRrdp = some u ∧ D u objs ∧
      InOrder objs issuer info time content crlUri crl ∧ Listed info content r.uri hash ∧
      mapGet objs r.uri = some obj ∧ Ext.mftHashOk hash obj = true ∧ Ext.decodeRoa obj = some x ∧
      Ext.processRoa x issuer (env.clock t) = some (ee, p) ∧ ee ∉ crl.revoked ∧
      r.States r.uri p := by
  cases h with
  | noRrdp _ h1 => rw [h1.nothing.2.2.1] at hr; cases hr
  | noData _ _ _ h1 => rw [h1.nothing.2.2.1] at hr; cases hr
  | disordered _ _ _ _ _ h1 => rw [h1.nothing.2.2.1] at hr; cases hr
  | examined u objs content crlUri crl h hd he =>
    obtain ⟨fs, f1, _, f3, f4⟩ := he.findings
    rw [f1.roas, List.mem_filterMap] at hr
    obtain ⟨⟨x, f⟩, hm, hx⟩ := hr
    cases f with
    | roa r' =>
      cases hx
      obtain ⟨hash, t, h1, obj, h2, h3, _, y, ee, p, h4, h5, h6, h7⟩ := f4 _ hm
      have hu := h7.uri
      dsimp only at hu h1 h2 h7
      subst hu
      exact ⟨u, objs, content, crlUri, crl, hash, obj, y, t, ee, p, h, hd, he.order, h1, h2, h3,
        h4, h5, h6, h7⟩
    | _ => cases hx

/-- What is behind an ASPA in a result. -/
theorem Judged.aspas {D : Str → List (Str × Bytes) → Prop} {N : Str → Prop} {issuer : ResCert}
    {info : CaInfo} {time : Time} {ca : ValidatedCa} {kids : List (ResCert × CaInfo)}
    (h : Judged env D N issuer info time ca kids) {r : ValidatedAspa} (hr : r ∈ ca.aspas) :
    ∃ u objs content crlUri crl hash obj x t ee p, info.siaRrdp = some u ∧ D u objs ∧
      InOrder objs issuer info time content crlUri crl ∧ Listed info content r.uri hash ∧
      mapGet objs r.uri = some obj ∧ Ext.mftHashOk hash obj = true ∧ Ext.decodeAspa obj = some x ∧
      Ext.processAspa x issuer (env.clock t) = some (ee, p) ∧ ee ∉ crl.revoked ∧
      r.States r.uri p := by
  cases h with
  | noRrdp _ h1 => rw [h1.nothing.2.2.2.1] at hr; cases hr
  | noData _ _ _ h1 => rw [h1.nothing.2.2.2.1] at hr; cases hr
  | disordered _ _ _ _ _ h1 => rw [h1.nothing.2.2.2.1] at hr; cases hr
  | examined u objs content crlUri crl h hd he =>
    obtain ⟨fs, f1, _, f3, f4⟩ := he.findings
    rw [f1.aspas, List.mem_filterMap] at hr
    obtain ⟨⟨x, f⟩, hm, hx⟩ := hr
    cases f with
    | aspa r' =>
      cases hx
      obtain ⟨hash, t, h1, obj, h2, h3, _, y, ee, p, h4, h5, h6, h7⟩ := f4 _ hm
      have hu := h7.uri
      dsimp only at hu h1 h2 h7
      subst hu
      exact ⟨u, objs, content, crlUri, crl, hash, obj, y, t, ee, p, h, hd, he.order, h1, h2, h3,
        h4, h5, h6, h7⟩
    | _ => cases hx

end KSync
