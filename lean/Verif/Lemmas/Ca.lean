import Verif.Lemmas.Walk
import Verif.Lemmas.Sort

/-! # Validation of one CA -/

set_option linter.unusedSectionVars false
set_option linter.unusedVariables false

namespace KSync

variable [Ext]

/-- Nothing happened but clock readings. -/
def OnlyTick (w w' : World) : Prop := w' = { w with tick := w'.tick }

theorem OnlyTick.trans {a b c : World} (h : OnlyTick a b) (h' : OnlyTick b c) : OnlyTick a c := by
  unfold OnlyTick at *
  rw [h', h]

/-- Add a finding to what has been found so far. -/
def CaAcc.add (acc : CaAcc) (uri : Str) : Finding → CaAcc
  | .child rc i => ⟨{ acc.ca with children := acc.ca.children ++ [(uri, i)] }, acc.kids ++ [(rc, i)]⟩
  | .router => { acc with ca := { acc.ca with routers := acc.ca.routers ++ [uri] } }
  | .roa r => { acc with ca := { acc.ca with roas := acc.ca.roas ++ [r] } }
  | .aspa a => { acc with ca := { acc.ca with aspas := acc.ca.aspas ++ [a] } }
  | .ignored => { acc with ca := { acc.ca with ignored := acc.ca.ignored ++ [uri] } }
  | .issue k => { acc with ca := acc.ca.addIssue uri k }

theorem ne_ext {a b : String} {u : Str} (h : HasExtension u a.toList) (hab : a.toList ≠ b.toList) :
    ¬ HasExtension u b.toList := fun h' => hab (h.unique h')

/-- One entry: a right finding is added, and at most the clock is read. -/
theorem checkEntry_spec (objs : List (Str × Bytes)) (issuer : ResCert) (crl : CrlObj) (time : Time)
    (acc : CaAcc) (e : Str × Hash) (env : Env) (w : World) :
    ∃ f w', checkEntry objs issuer crl time acc e env w = (.ok (acc.add e.1 f), w') ∧ OnlyTick w w' ∧
      ∃ k, f.Right objs issuer crl time (env.clock k) e.1 e.2 := by
  obtain ⟨uri, h⟩ := e
  have hsame : OnlyTick w w := rfl
  have htick : OnlyTick w { w with tick := w.tick + 1 } := rfl
  have d1 : "roa".toList ≠ "cer".toList := by decide
  have d2 : "roa".toList ≠ "asa".toList := by decide
  have d3 : "roa".toList ≠ "gbr".toList := by decide
  have d4 : "cer".toList ≠ "asa".toList := by decide
  have d5 : "cer".toList ≠ "gbr".toList := by decide
  have d6 : "asa".toList ≠ "gbr".toList := by decide
  unfold checkEntry
  dsimp only
  match ho : mapGet objs uri with
  | none =>
    refine ⟨.issue .notFound, w, rfl, hsame, w.tick, ?_, .inl ⟨rfl, ho⟩⟩
    rintro f' ⟨obj, h1, _⟩
    rw [ho] at h1; cases h1
  | some obj =>
    dsimp only
    by_cases hh : Ext.mftHashOk h obj = false
    · rw [if_pos hh]
      refine ⟨.issue .hash, w, rfl, hsame, w.tick, ?_, .inr ⟨obj, ho, .inl ⟨rfl, hh⟩⟩⟩
      rintro f' ⟨obj', h1, h2, _⟩
      rw [ho] at h1; cases h1
      rw [hh] at h2; cases h2
    rw [if_neg hh]
    have hh' : Ext.mftHashOk h obj = true := by simpa using hh
    by_cases e1 : HasExtension uri "roa".toList
    · rw [if_pos ((extension_iff (by decide)).2 e1)]
      have n2 := ne_ext e1 d1
      have n3 := ne_ext e1 d2
      have n4 := ne_ext e1 d3
      match hd : Ext.decodeRoa obj with
      | none =>
        refine ⟨.issue .roaParse, w, rfl, hsame, w.tick, ?_,
          .inr ⟨obj, ho, .inr ⟨hh', e1, hd⟩⟩⟩
        rintro f' ⟨obj', h1, h2, h3⟩
        rw [ho] at h1; cases h1
        cases f' <;> simp_all
      | some x =>
        dsimp only
        rw [now_bind]
        match hp : Ext.processRoa x issuer (env.clock w.tick) with
        | none =>
          refine ⟨.issue .roaInvalid, _, rfl, htick, w.tick, ?_,
            .inr ⟨obj, ho, .inr ⟨hh', e1, x, hd, fun _ _ h => by rw [hp] at h; cases h⟩⟩⟩
          rintro f' ⟨obj', h1, h2, h3⟩
          rw [ho] at h1; cases h1
          cases f' <;> simp_all
        | some (ee, p) =>
          dsimp only
          by_cases hr : ee ∈ crl.revoked
          · rw [if_pos hr]
            refine ⟨.issue .roaInvalid, _, rfl, htick, w.tick, ?_,
              .inr ⟨obj, ho, .inr ⟨hh', e1, x, hd, fun _ _ h => by rw [hp] at h; cases h; exact hr⟩⟩⟩
            rintro f' ⟨obj', h1, h2, h3⟩
            rw [ho] at h1; cases h1
            cases f' <;> try (simp_all; done)
            obtain ⟨_, x', ee', p', a1, a2, a3, _⟩ := h3
            rw [hd] at a1; cases a1
            rw [hp] at a2; cases a2
            exact a3 hr
          · rw [if_neg hr]
            exact ⟨.roa (.make uri p), _, rfl, htick, w.tick,
              obj, ho, hh', e1, x, ee, p, hd, hp, hr, make_states uri p⟩
    rw [if_neg (fun h => e1 ((extension_iff (by decide)).1 h))]
    by_cases e2 : HasExtension uri "cer".toList
    · rw [if_pos ((extension_iff (by decide)).2 e2)]
      have n3 := ne_ext e2 d4
      have n4 := ne_ext e2 d5
      match hd : Ext.decodeCert obj with
      | none =>
        refine ⟨.issue .certParse, w, rfl, hsame, w.tick, ?_,
          .inr ⟨obj, ho, .inr ⟨hh', e2, hd⟩⟩⟩
        rintro f' ⟨obj', h1, h2, h3⟩
        rw [ho] at h1; cases h1
        cases f' <;> simp_all
      | some cert =>
        dsimp only
        by_cases hca : cert.isCa = true
        · rw [if_pos hca]
          by_cases hr : cert.serial ∈ crl.revoked
          · rw [if_pos hr]
            refine ⟨.issue .certRevoked, w, rfl, hsame, w.tick, ?_,
          .inr ⟨obj, ho, .inr ⟨hh', e2, cert, hd, hca, hr⟩⟩⟩
            rintro f' ⟨obj', h1, h2, h3⟩
            rw [ho] at h1; cases h1
            cases f' <;> simp_all
          rw [if_neg hr]
          match hv : Ext.validateCa cert issuer time with
          | none =>
            refine ⟨.issue .certInvalid, w, rfl, hsame, w.tick, ?_,
          .inr ⟨obj, ho, .inr ⟨hh', e2, cert, hd, hca, hv⟩⟩⟩
            rintro f' ⟨obj', h1, h2, h3⟩
            rw [ho] at h1; cases h1
            cases f' <;> simp_all
          | some rc =>
            dsimp only
            match hi : CaInfo.ofCert rc with
            | none =>
              have hi' : ∀ i : CaInfo, ¬ i.Of rc := fun i h => by
                rw [caInfo_of.2 h] at hi; cases hi
              refine ⟨.issue .certInfo, w, rfl, hsame, w.tick, ?_,
                .inr ⟨obj, ho, .inr ⟨hh', e2, cert, rc, hd, hca, hv, caInfo_none hi⟩⟩⟩
              rintro f' ⟨obj', h1, h2, h3⟩
              rw [ho] at h1; cases h1
              cases f' <;> simp_all
            | some i =>
              exact ⟨.child rc i, w, rfl, hsame, w.tick,
                obj, ho, hh', e2, cert, hd, hca, hr, hv, caInfo_of.1 hi⟩
        · rw [if_neg hca]
          have hca' : cert.isCa = false := by simpa using hca
          by_cases hv : Ext.validateRouter cert issuer time = true
          · rw [if_pos hv]
            exact ⟨.router, w, rfl, hsame, w.tick, obj, ho, hh', e2, cert, hd, hca', hv⟩
          · rw [if_neg hv]
            refine ⟨.issue .routerInvalid, w, rfl, hsame, w.tick, ?_,
          .inr ⟨obj, ho, .inr ⟨hh', e2, cert, hd, hca', by simpa using hv⟩⟩⟩
            rintro f' ⟨obj', h1, h2, h3⟩
            rw [ho] at h1; cases h1
            cases f' <;> simp_all
    rw [if_neg (fun h => e2 ((extension_iff (by decide)).1 h))]
    by_cases e3 : HasExtension uri "asa".toList
    · rw [if_pos ((extension_iff (by decide)).2 e3)]
      have n4 := ne_ext e3 d6
      match hd : Ext.decodeAspa obj with
      | none =>
        refine ⟨.issue .aspaParse, w, rfl, hsame, w.tick, ?_,
          .inr ⟨obj, ho, .inr ⟨hh', e3, hd⟩⟩⟩
        rintro f' ⟨obj', h1, h2, h3⟩
        rw [ho] at h1; cases h1
        cases f' <;> simp_all
      | some x =>
        dsimp only
        rw [now_bind]
        match hp : Ext.processAspa x issuer (env.clock w.tick) with
        | none =>
          refine ⟨.issue .aspaInvalid, _, rfl, htick, w.tick, ?_,
            .inr ⟨obj, ho, .inr ⟨hh', e3, x, hd, fun _ _ h => by rw [hp] at h; cases h⟩⟩⟩
          rintro f' ⟨obj', h1, h2, h3⟩
          rw [ho] at h1; cases h1
          cases f' <;> simp_all
        | some (ee, p) =>
          dsimp only
          by_cases hr : ee ∈ crl.revoked
          · rw [if_pos hr]
            refine ⟨.issue .aspaInvalid, _, rfl, htick, w.tick, ?_,
              .inr ⟨obj, ho, .inr ⟨hh', e3, x, hd, fun _ _ h => by rw [hp] at h; cases h; exact hr⟩⟩⟩
            rintro f' ⟨obj', h1, h2, h3⟩
            rw [ho] at h1; cases h1
            cases f' <;> try (simp_all; done)
            obtain ⟨_, x', ee', p', a1, a2, a3, _⟩ := h3
            rw [hd] at a1; cases a1
            rw [hp] at a2; cases a2
            exact a3 hr
          · rw [if_neg hr]
            exact ⟨.aspa ⟨uri, p.customer, p.providers⟩, _, rfl, htick, w.tick,
              obj, ho, hh', e3, x, ee, p, hd, hp, hr, rfl, rfl, rfl⟩
    rw [if_neg (fun h => e3 ((extension_iff (by decide)).1 h))]
    by_cases e4 : HasExtension uri "gbr".toList
    · rw [if_pos ((extension_iff (by decide)).2 e4)]
      exact ⟨.ignored, w, rfl, hsame, w.tick, obj, ho, hh', e4⟩
    · rw [if_neg (fun h => e4 ((extension_iff (by decide)).1 h))]
      refine ⟨.issue .unsupported, w, rfl, hsame, w.tick, ?_,
        .inr ⟨obj, ho, .inr ⟨hh', by simpa using ⟨e1, e3, e2, e4⟩⟩⟩⟩
      rintro f' ⟨obj', h1, h2, h3⟩
      rw [ho] at h1; cases h1
      cases f' <;> simp_all

/-- Add findings one after the other. -/
def CaAcc.addAll (acc : CaAcc) : List (Str × Finding) → CaAcc
  | [] => acc
  | x :: xs => (acc.add x.1 x.2).addAll xs

theorem checkEntries_spec (objs : List (Str × Bytes)) (issuer : ResCert) (crl : CrlObj)
    (time : Time) (env : Env) (es : List (Str × Hash)) : ∀ (acc : CaAcc) (w : World),
    ∃ (fs : List (Str × Finding)) (w' : World),
      checkEntries objs issuer crl time acc es env w = (.ok (acc.addAll fs), w') ∧ OnlyTick w w' ∧
      fs.map (·.1) = es.map (·.1) ∧
      ∀ x ∈ fs, ∃ h k, (x.1, h) ∈ es ∧ x.2.Right objs issuer crl time (env.clock k) x.1 h := by
  induction es with
  | nil => exact fun acc w => ⟨[], w, rfl, rfl, rfl, fun x hx => by cases hx⟩
  | cons e es ih =>
    intro acc w
    obtain ⟨f, w1, h1, h2, k, h3⟩ := checkEntry_spec objs issuer crl time acc e env w
    obtain ⟨fs, w2, h4, h5, h6, h7⟩ := ih (acc.add e.1 f) w1
    refine ⟨(e.1, f) :: fs, w2, ?_, h2.trans h5, ?_, fun x hx => ?_⟩
    · unfold checkEntries
      rw [M.bind_of_ok h1]
      exact h4
    · rw [List.map_cons, List.map_cons, h6]
    · rcases List.mem_cons.1 hx with rfl | hx
      · exact ⟨e.2, k, List.mem_cons_self .., h3⟩
      · obtain ⟨h, k', h8, h9⟩ := h7 x hx
        exact ⟨h, k', List.mem_cons_of_mem _ h8, h9⟩

theorem CaAcc.addAll_spec (fs : List (Str × Finding)) : ∀ acc : CaAcc,
    (acc.addAll fs).ca.info = acc.ca.info ∧
    (acc.addAll fs).ca.children = acc.ca.children ++ fs.filterMap (fun x => match x.2 with
      | .child _ i => some (x.1, i) | _ => none) ∧
    (acc.addAll fs).kids = acc.kids ++ fs.filterMap (fun x => match x.2 with
      | .child rc i => some (rc, i) | _ => none) ∧
    (acc.addAll fs).ca.routers = acc.ca.routers ++ fs.filterMap (fun x => match x.2 with
      | .router => some x.1 | _ => none) ∧
    (acc.addAll fs).ca.roas = acc.ca.roas ++ fs.filterMap (fun x => match x.2 with
      | .roa r => some r | _ => none) ∧
    (acc.addAll fs).ca.aspas = acc.ca.aspas ++ fs.filterMap (fun x => match x.2 with
      | .aspa a => some a | _ => none) ∧
    (acc.addAll fs).ca.ignored = acc.ca.ignored ++ fs.filterMap (fun x => match x.2 with
      | .ignored => some x.1 | _ => none) ∧
    (acc.addAll fs).ca.issues = acc.ca.issues ++ fs.filterMap (fun x => match x.2 with
      | .issue k => some ⟨some x.1, k⟩ | _ => none) := by
  induction fs with
  | nil => intro acc; simp [CaAcc.addAll]
  | cons x fs ih =>
    intro acc
    obtain ⟨u, f⟩ := x
    obtain ⟨h1, h2, h3, h4, h5, h6, h7, h8⟩ := ih (acc.add u f)
    unfold CaAcc.addAll
    rw [h1, h2, h3, h4, h5, h6, h7, h8]
    cases f <;> simp [CaAcc.add, ValidatedCa.addIssue]

theorem addAll_consists (info : CaInfo) (fs : List (Str × Finding)) :
    ConsistsOf ((⟨.empty info, []⟩ : CaAcc).addAll fs).ca ((⟨.empty info, []⟩ : CaAcc).addAll fs).kids fs := by
  obtain ⟨h1, h2, h3, h4, h5, h6, h7, h8⟩ := CaAcc.addAll_spec fs ⟨.empty info, []⟩
  exact ⟨h2, h3, h4, h5, h6, h7, h8⟩

theorem mem_mftEntries {info : CaInfo} {content : MftContent} {u : Str} {h : Hash}
    (hm : (u, h) ∈ mftEntries info.siaCa content) : Listed info content u h := by
  obtain ⟨e, h1, h2⟩ := List.mem_map.1 (mem_mapOfList hm)
  cases h2
  exact ⟨e.1, h1, rfl⟩

theorem mapGet_reverse_none {κ ν : Type} [DecidableEq κ] {l : List (κ × ν)} {k : κ} :
    mapGet l.reverse k = none ↔ k ∉ l.map (·.1) := by
  rw [mapGet_none, List.map_reverse, List.mem_reverse]

/-- Every listed file is in the map of entries. -/
theorem mftEntries_keys {info : CaInfo} {content : MftContent} {u : Str} :
    u ∈ (mftEntries info.siaCa content).map (·.1) ↔ ∃ h, Listed info content u h := by
  constructor
  · intro h
    obtain ⟨⟨u', h'⟩, h1, rfl⟩ := List.mem_map.1 h
    exact ⟨h', mem_mftEntries h1⟩
  · rintro ⟨h, name, h1, rfl⟩
    unfold mftEntries
    refine Classical.byContradiction fun hn => ?_
    have := mapGet_none.2 hn
    rw [mapGet_ofList] at this
    exact mapGet_reverse_none.1 this (List.mem_map.2 ⟨_, List.mem_map.2 ⟨_, h1, rfl⟩, rfl⟩)

theorem openCa_ok {objs : List (Str × Bytes)} {issuer : ResCert} {info : CaInfo} {time : Time}
    {crl : CrlObj} {entries : List (Str × Hash)}
    (h : openCa objs issuer info time = .ok (crl, entries)) :
    ∃ content crlUri, InOrder objs issuer info time content crlUri crl ∧
      entries = mapErase (mftEntries info.siaCa content) crlUri.toStr := by
  unfold openCa at h
  dsimp only at h
  split at h
  · cases h
  rename_i mftObj e1
  split at h
  · cases h
  rename_i mft e2
  split at h
  · cases h
  rename_i content e3
  split at h
  · cases h
  rename_i crlUri e4
  split at h
  · cases h
  rename_i crlHash e5
  split at h
  · cases h
  rename_i crlObj e6
  split at h
  · cases h
  rename_i e7
  split at h
  · cases h
  rename_i crl' e8
  split at h
  · cases h
  rename_i e9
  split at h
  · cases h
  rename_i e10
  split at h
  · cases h
  rename_i e11
  cases h
  exact ⟨content, crlUri, ⟨⟨mftObj, mft, e1, e2, e3⟩, e4,
    ⟨crlObj, crlHash, mem_mftEntries (mem_of_mapGet e5), e6, by simpa using e7, e8⟩,
    by simpa using e9, e10, e11⟩, rfl⟩

theorem mftEntries_get {info : CaInfo} {content : MftContent} {u : Str} {h : Hash}
    (hn : (content.entries.map (·.1)).Nodup) (hl : Listed info content u h) :
    mapGet (mftEntries info.siaCa content) u = some h := by
  obtain ⟨name, h1, rfl⟩ := hl
  have hk : Keys (content.entries.map (fun e => (info.siaCa.toStr ++ e.1, e.2))) := by
    unfold Keys
    rw [List.map_map]
    have : ((fun x => x.1) ∘ fun e : Str × Hash => (info.siaCa.toStr ++ e.1, e.2)) =
        (fun s : Str => info.siaCa.toStr ++ s) ∘ (fun e : Str × Hash => e.1) := rfl
    rw [this, ← List.map_map]
    exact List.Pairwise.map _ (fun a b hab h => hab (List.append_cancel_left h)) hn
  unfold mftEntries
  rw [mapGet_ofList]
  have hk' : Keys (content.entries.map (fun e => (info.siaCa.toStr ++ e.1, e.2))).reverse := by
    unfold Keys at hk ⊢
    rw [List.map_reverse]
    exact (List.reverse_perm _).nodup_iff.2 hk
  rw [hk'.mapGet, List.mem_reverse]
  exact List.mem_map.2 ⟨(name, h), h1, rfl⟩

/-- A CA in order is not turned down. -/
theorem openCa_of_inOrder {objs : List (Str × Bytes)} {issuer : ResCert} {info : CaInfo}
    {time : Time} {content : MftContent} {crlUri : RsyncUri} {crl : CrlObj}
    (h : InOrder objs issuer info time content crlUri crl)
    (hn : (content.entries.map (·.1)).Nodup) :
    openCa objs issuer info time = .ok (crl, mapErase (mftEntries info.siaCa content) crlUri.toStr) := by
  obtain ⟨mftObj, mft, e1, e2, e3⟩ := h.manifest
  obtain ⟨crlObj, hash, e5, e6, e7, e8⟩ := h.crlFile
  unfold openCa
  dsimp only
  rw [e1]
  dsimp only
  rw [e2]
  dsimp only
  rw [e3]
  dsimp only
  rw [h.named]
  dsimp only
  rw [mftEntries_get hn e5]
  dsimp only
  rw [e6]
  dsimp only
  rw [e7, if_neg (by decide), e8]
  dsimp only
  rw [h.signed, if_neg (by decide), if_neg h.current, if_neg h.unrevoked]

/-- The CA whose repository data were obtained, or could not be. -/
inductive CaOutcome (env : Env) (v : Visited) (issuer : ResCert) (info : CaInfo) (offline : Bool)
    (time : Time) (w : World) (ca : ValidatedCa) (kids : List (ResCert × CaInfo)) (v' : Visited)
    (w' : World) : Prop
  | noRrdp (h : info.siaRrdp = none) 
      (hr : Rejected info ca kids (· = ⟨some info.siaCa.toStr, .noSiaRrdp⟩)) (hv : v' = v) (hw : w' = w)
  | noData (u : Str) (e : Err) (h : info.siaRrdp = some u)
      (hg : v.getLatest u offline time env w = (.ok (.error e, v'), w'))
      (hr : Rejected info ca kids (· = ⟨some info.siaCa.toStr, .repoData⟩))
  | data (u : Str) (d : RepoData) (w1 : World) (h : info.siaRrdp = some u)
      (hg : v.getLatest u offline time env w = (.ok (.ok d, v'), w1)) (hw : OnlyTick w1 w')
      (hr : (Rejected info ca kids (Issue.Spoils d.objects issuer info time) ∧ ∀ content crlUri crl,
          InOrder d.objects issuer info time content crlUri crl →
            ¬ (content.entries.map (·.1)).Nodup) ∨
        ∃ content crlUri crl, Examined env d.objects issuer info time content crlUri crl ca kids)

theorem rejected_addIssue (info : CaInfo) (u : Str) (k : IssueKind) {P : Issue → Prop}
    (h : P ⟨some u, k⟩) : Rejected info ((ValidatedCa.empty info).addIssue u k) [] P :=
  ⟨rfl, ⟨rfl, rfl, rfl, rfl, rfl, rfl⟩, _, rfl, h⟩

/-- The issue that ends the validation of a CA gives a good reason. -/
theorem openCa_spoils {objs : List (Str × Bytes)} {issuer : ResCert} {info : CaInfo} {time : Time}
    {uri : Str} {k : IssueKind} (h : openCa objs issuer info time = .error (uri, k)) :
    Issue.Spoils objs issuer info time ⟨some uri, k⟩ := by
  unfold openCa at h
  dsimp only at h
  split at h
  · rename_i e1
    cases h; exact ⟨rfl, e1⟩
  rename_i mftObj e1
  split at h
  · rename_i e2
    cases h; exact ⟨rfl, mftObj, e1, e2⟩
  rename_i mft e2
  split at h
  · rename_i e3
    cases h; exact ⟨rfl, mftObj, mft, e1, e2, e3⟩
  rename_i content e3
  have says : ManifestSays objs issuer info time content := ⟨mftObj, mft, e1, e2, e3⟩
  split at h
  · rename_i e4
    cases h; exact ⟨rfl, content, says, e4⟩
  rename_i crlUri e4
  split at h
  · rename_i e5
    cases h
    refine ⟨rfl, content, crlUri, says, e4, fun hh hl => ?_⟩
    exact mapGet_none.1 e5 (mftEntries_keys.2 ⟨hh, hl⟩)
  rename_i crlHash e5
  have listed := mem_mftEntries (mem_of_mapGet e5)
  split at h
  · rename_i e6
    cases h; exact ⟨content, crlUri, says, e4, rfl, e6⟩
  rename_i crlObj e6
  have found : CrlFound objs info content crlUri.toStr crlHash crlObj :=
    ⟨by rw [e4]; rfl, listed, e6⟩
  split at h
  · rename_i e7
    cases h; exact ⟨content, _, crlHash, crlObj, says, found, rfl, e7⟩
  split at h
  · rename_i e8
    cases h; exact ⟨content, _, crlHash, crlObj, says, found, rfl, e8⟩
  rename_i crl' e8
  split at h
  · rename_i e9
    cases h; exact ⟨content, _, crlHash, crlObj, crl', says, found, rfl, e8, e9⟩
  split at h
  · rename_i e10
    cases h; exact ⟨content, _, crlHash, crlObj, crl', says, found, rfl, e8, e10⟩
  split at h
  · rename_i e11
    cases h; exact ⟨content, _, crlHash, crlObj, crl', says, found, rfl, e8, e11⟩
  cases h

theorem Keys.sortBy {κ ν : Type} [DecidableEq κ] {m : List (κ × ν)} (h : Keys m)
    (f : κ × ν → Nat) : ((sortBy f m).map (·.1)).Nodup := by
  refine (List.Perm.nodup_iff ?_).2 h
  exact (sortBy_perm f m).map _

theorem checkCa_ok {v v' : Visited} {issuer : ResCert} {info : CaInfo} {offline : Bool} {time : Time}
    {env : Env} {w w' : World} {ca : ValidatedCa} {kids : List (ResCert × CaInfo)}
    (h : checkCa v issuer info offline time env w = (.ok (ca, kids, v'), w')) :
    CaOutcome env v issuer info offline time w ca kids v' w' := by
  unfold checkCa at h
  dsimp only at h
  match hr : info.siaRrdp with
  | none =>
    rw [hr] at h
    dsimp only at h
    rw [M.pure_ok] at h
    obtain ⟨h1, rfl⟩ := h
    cases h1
    exact .noRrdp hr (rejected_addIssue _ _ _ rfl) rfl rfl
  | some u =>
    rw [hr] at h
    dsimp only at h
    obtain ⟨⟨r, v1⟩, w1, h1, h2⟩ := M.bind_ok.1 h
    match r with
    | .error e =>
      dsimp only at h2
      rw [M.pure_ok] at h2
      obtain ⟨h3, rfl⟩ := h2
      cases h3
      exact .noData u e hr h1 (rejected_addIssue _ _ _ rfl)
    | .ok d =>
      dsimp only at h2
      match ho : openCa d.objects issuer info time with
      | .error (uri, k) =>
        rw [ho] at h2
        dsimp only at h2
        rw [M.pure_ok] at h2
        obtain ⟨h3, rfl⟩ := h2
        cases h3
        exact .data u d _ hr h1 rfl (Or.inl ⟨rejected_addIssue _ _ _ (openCa_spoils ho), fun _ _ _ hi hn => by
          rw [openCa_of_inOrder hi hn] at ho; cases ho⟩)
      | .ok (crl, entries) =>
        rw [ho] at h2
        dsimp only at h2
        obtain ⟨content, crlUri, o1, o2⟩ := openCa_ok ho
        have h3 : (checkEntries d.objects issuer crl time ⟨.empty info, []⟩
          (sortBy (fun e => env.prio w1.tick [e.1]) entries) >>= fun acc =>
            (pure (acc.ca, acc.kids, v1) : M _)) env { w1 with tick := w1.tick + 1 } =
            (.ok (ca, kids, v'), w') := h2
        obtain ⟨fs, w2, c1, c2, c3, c4⟩ := checkEntries_spec d.objects issuer crl time env
          (sortBy (fun e => env.prio w1.tick [e.1]) entries) ⟨.empty info, []⟩
          { w1 with tick := w1.tick + 1 }
        rw [M.bind_of_ok c1, M.pure_ok] at h3
        obtain ⟨h4, rfl⟩ := h3
        cases h4
        have hk : Keys entries := by rw [o2]; exact (keys_ofList _).erase _
        have hmem : ∀ u h, (u, h) ∈ sortBy (fun e => env.prio w1.tick [e.1]) entries →
            Listed info content u h ∧ u ≠ crlUri.toStr := by
          intro u h hm
          rw [mem_sortBy, o2] at hm
          unfold mapErase at hm
          obtain ⟨m1, m2⟩ := List.mem_filter.1 hm
          exact ⟨mem_mftEntries m1, by simpa using m2⟩
        refine .data u d w1 hr h1 (OnlyTick.trans (b := { w1 with tick := w1.tick + 1 }) rfl c2)
          (Or.inr ⟨content, crlUri, crl, ⟨(CaAcc.addAll_spec fs _).1, o1, fs, addAll_consists info fs,
            ?_, fun u' => ?_, fun x hx => ?_⟩⟩)
        · rw [c3]; exact hk.sortBy _
        · rw [c3]
          constructor
          · intro hu
            obtain ⟨⟨u2, h2⟩, m1, rfl⟩ := List.mem_map.1 hu
            obtain ⟨m2, m3⟩ := hmem _ _ m1
            exact ⟨m3, h2, m2⟩
          · rintro ⟨m1, m2⟩
            obtain ⟨⟨u2, h2⟩, m3, rfl⟩ := List.mem_map.1 (mftEntries_keys.2 m2)
            refine List.mem_map.2 ⟨(u2, h2), ?_, rfl⟩
            rw [mem_sortBy, o2]
            exact List.mem_filter.2 ⟨m3, by simpa using m1⟩
        · obtain ⟨h, k, m1, m2⟩ := c4 x hx
          exact ⟨h, k, (hmem _ _ m1).1, m2⟩

end KSync
