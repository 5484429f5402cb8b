import Verif.Lemmas.Withhold
import Verif.Props.Gates

/-!
# Nothing is withheld without a reason (property C72)

`Refusable` is defined in `Verif/Spec/Withhold.lean`.
-/

set_option linter.unusedVariables false

namespace KSync

/-- **C72.** When no system call fails and a new version has been staged, the pre-validation refuses it
only if a TAL file cannot be read, the snapshot is none, the certificate of a trust anchor is not to be
had, the certificates go deeper than the stack permits or, with `--tal-reject-invalid`, no CA names the
repository or one that does has an issue. -/
theorem C72_refused_with_cause [Ext] (depth : Nat) (c : Config) (env : Env) (fs : FS) (base name : Str)
    (s0 : RrdpState) (st : StagedChanges) (w1 w2 w3 : World) (e : Err)
    (hc : RunConds c base name env fs)
    (ho : ∀ etag n, Offers c env fs etag n → OneHashPerPath base n) (h0 : No304 env)
    (hl : NoLinks fs c.stagingDir) (hf : NoFaults env)
    (hk : ∀ s v, Recorded c fs s → s.validator = some v → v.repos.Keyed)
    (h1 : loadState c env (World.start fs) = (.ok s0, w1))
    (h2 : s0.updateStaged c env w1 = (.ok (some st), w2))
    (h3 : s0.preValidate depth c env w2 = (.error e, w3)) :
    Refusable depth c base env fs w2.cur :=
  (preValidate_refused hc ho h0 hl hf hk h1 h2 h3).2

/-- **C72, whole runs.** If there is no such reason, and the scripts agree, or can be started if their
verdict does not count, the publication of the new version begins. -/
theorem C72_goes_on [Ext] (depth : Nat) (c : Config) (env : Env) (fs : FS) (base name : Str)
    (s0 : RrdpState) (st : StagedChanges) (w1 w2 : World)
    (hc : RunConds c base name env fs)
    (ho : ∀ etag n, Offers c env fs etag n → OneHashPerPath base n) (h0 : No304 env)
    (hl : NoLinks fs c.stagingDir) (hf : NoFaults env)
    (hk : ∀ s v, Recorded c fs s → s.validator = some v → v.repos.Keyed)
    (h1 : loadState c env (World.start fs) = (.ok s0, w1))
    (h2 : s0.updateStaged c env w1 = (.ok (some st), w2))
    (h3 : ¬ Refusable depth c base env fs w2.cur)
    (hs : ∀ tick, ∀ q ∈ c.scripts, env.script tick q = some true ∨
      (c.talRejectInvalid = false ∧ env.script tick q ≠ none)) :
    ∃ s' w3, process depth c env (World.start fs) = publish c s' st env w3 ∧ w3.cur = w2.cur := by
  match h4 : s0.preValidate depth c env w2 with
  | (.error e, w3) => exact absurd (preValidate_refused hc ho h0 hl hf hk h1 h2 h4).2 h3
  | (.ok s', w3) =>
    match h5 : scriptGate c env w3 with
    | (r, w4) =>
      have hr : r = .ok () ∧ w4.cur = w3.cur := by
        rcases scriptGate_cases h5 with ⟨k1, k2, ⟨k3, _⟩ | ⟨_, k3, i, p, k4, k5⟩⟩ | ⟨e, i, p, k1, k2, k3, _⟩
        · exact ⟨k3, by rw [k1]⟩
        · rcases hs _ p (List.mem_of_getElem? k4) with k6 | ⟨k6, _⟩
          · rw [k5] at k6; cases k6
          · rw [k3] at k6; cases k6
        · rcases hs _ p (List.mem_of_getElem? k2) with k6 | ⟨_, k6⟩
          · rw [k3] at k6; cases k6
          · exact absurd k3 k6
      obtain ⟨rfl, hw4⟩ := hr
      refine ⟨s', w4, ?_, ?_⟩
      · unfold process
        rw [M.bind_of_ok h1, M.bind_of_ok h2]
        dsimp only
        rw [M.bind_of_ok h4, M.bind_of_ok h5]
      · have := preValidate_same depth s0 c env w2
        rw [h4] at this
        exact hw4.trans this.cur

/-- **C72, without `--tal-reject-invalid`.** Then nothing that the validation finds keeps a version from
being published: it is enough that the TAL files can be read, the trust anchors answer, the snapshot is
one, and the stack is deep enough. -/
theorem C72_without_reject [Ext] (depth : Nat) (c : Config) (env : Env) (fs : FS) (base name : Str)
    (s0 : RrdpState) (st : StagedChanges) (w1 w2 : World) (tals : List Tal)
    (hc : RunConds c base name env fs)
    (ho : ∀ etag n, Offers c env fs etag n → OneHashPerPath base n) (h0 : No304 env)
    (hl : NoLinks fs c.stagingDir) (hf : NoFaults env)
    (hk : ∀ s v, Recorded c fs s → s.validator = some v → v.repos.Keyed)
    (h1 : loadState c env (World.start fs) = (.ok s0, w1))
    (h2 : s0.updateStaged c env w1 = (.ok (some st), w2))
    (hr : c.talRejectInvalid = false)
    (htals : TalsOf w2.cur c.talFiles tals)
    (hta : ∀ t ∈ tals, ∀ k, t.Served env w2.cur (env.clock k))
    (hsnap : ∀ etag n b, Offers c env fs etag n → Ext.sha b = n.snapHash → Ext.parseSnapshot b ≠ none)
    (hdeep : ∀ v k, RunValidator c base env fs w2.cur v → ∃ rank,
      RanksDescend env w2.cur (env.clock k) v rank ∧
      ∀ t ∈ v.tals, ∀ ta, TrustAnchor env w2.cur (env.clock k) t ta → rank ta < depth)
    (hs : ∀ tick, ∀ q ∈ c.scripts, env.script tick q ≠ none) :
    ∃ s' w3, process depth c env (World.start fs) = publish c s' st env w3 ∧ w3.cur = w2.cur :=
  C72_goes_on depth c env fs base name s0 st w1 w2 hc ho h0 hl hf hk h1 h2
    (not_refusable_without_reject hr htals hta hsnap hdeep) (fun k q hq => Or.inr ⟨hr, hs k q hq⟩)

/-! ## The hypotheses can be met -/

section
open Demo
set_option maxRecDepth 100000

/-- A repository that lacks a ROA on its manifest. -/
def Demo.lackObjects : List (RsyncUri × Bytes) :=
  [(rs "t/t.mft", Inst.toBytes goodContent), (rs "t/t.crl", taCrl)]
def Demo.lackSnap : Bytes := Inst.toBytes lackObjects
def Demo.lackNotif : Notif := ⟨5, 1, uri "qs", lackSnap, []⟩
def Demo.lackEnv : Env := serving 50 lackNotif lackSnap
/-- As `confT`, but issues do not make the run fail. -/
def Demo.confU : Config := { confT with talRejectInvalid := false }
/-- What is there after staging. -/
def Demo.lackW (c : Config) : World :=
  ((freshState c base nameT).updateStaged c lackEnv (loadState c lackEnv (World.start fsT)).2).2

/-- With `--tal-reject-invalid` nothing is published, otherwise it is. -/
example : (process 5 confT lackEnv (World.start fsT)).1 = .error .invalid ∧
    (process 5 confU lackEnv (World.start fsT)).1 = .ok () ∧
    (process 5 confU lackEnv (World.start fsT)).2.cur.file? (confU.notifPath nameT) =
      some (Ext.writeNotif lackNotif) := by decide +kernel

theorem Demo.lackOffers {c : Config} {fs : FS} {etag : Option Str} {n : Notif} (hm : c.fetchMap = none)
    (hu : c.notificationUri = uri "q") (h : Offers c lackEnv fs etag n) : n = lackNotif :=
  offersT hm hu h

theorem Demo.lackOneHash : OneHashPerPath base lackNotif := by
  rintro ⟨a, b⟩ ha ⟨a', b'⟩ ha' rel rel' h1 h2 h3
  have e1 := List.mem_singleton.1 ha
  have e2 := List.mem_singleton.1 ha'
  cases e1
  cases e2
  rfl

theorem Demo.lack304 : No304 lackEnv := by
  intro tick r _
  show (if r.uri = uri "q" then _ else if r.uri = lackNotif.snapUri then _ else if r.uri = uri "ta" then _
    else _) ≠ _
  split
  · simp
  · split
    · simp
    · split <;> simp

theorem Demo.confU_state {s : RrdpState} : ¬ Recorded confU fsT s := by
  rintro ⟨b, h, _⟩
  have : fsT.read confU.rrdpStatePath = none := by decide
  rw [this] at h; cases h

theorem Demo.runCondsU : RunConds confU base nameT lackEnv fsT where
  uri := ⟨by decide, by decide, by decide, by decide, by decide, by decide, by decide⟩
  wf := FS.wf_of_check (by decide +kernel)
  state := fun s hs => absurd hs confU_state
  source := fun etag n' hn => by
    rw [lackOffers rfl rfl hn]
    exact goodNotif_of_check (by decide)
  objects := fun _ => cleanObjects _

/-- The version lacking a ROA is refused with `--tal-reject-invalid`: there is a reason. -/
example : Refusable 5 confT base lackEnv fsT (lackW confT).cur := by
  have h1 : loadState confT lackEnv (World.start fsT) =
      (.ok (freshState confT base nameT), (loadState confT lackEnv (World.start fsT)).2) :=
    Prod.ext (by decide +kernel) rfl
  have h2 : ∃ st, (freshState confT base nameT).updateStaged confT lackEnv
      (loadState confT lackEnv (World.start fsT)).2 = (.ok (some st), lackW confT) := by
    match h : (freshState confT base nameT).updateStaged confT lackEnv
      (loadState confT lackEnv (World.start fsT)).2 with
    | (.ok (some st), w) => exact ⟨st, by unfold lackW; rw [h]⟩
    | (.ok none, w) =>
      have : ((freshState confT base nameT).updateStaged confT lackEnv
        (loadState confT lackEnv (World.start fsT)).2).1 ≠ .ok none := by decide +kernel
      rw [h] at this; exact absurd rfl this
    | (.error e, w) =>
      have : ((freshState confT base nameT).updateStaged confT lackEnv
        (loadState confT lackEnv (World.start fsT)).2).1.toOption.isSome = true := by decide +kernel
      rw [h] at this; cases this
  obtain ⟨st, h2⟩ := h2
  have h3 : (freshState confT base nameT).preValidate 5 confT lackEnv (lackW confT) =
      (.error .invalid, ((freshState confT base nameT).preValidate 5 confT lackEnv (lackW confT)).2) :=
    Prod.ext (by decide +kernel) rfl
  refine C72_refused_with_cause 5 confT lackEnv fsT base nameT _ st _ _ _ _
    (runCondsT 50 (by decide)) (fun etag n hn => by rw [lackOffers rfl rfl hn]; exact lackOneHash) lack304
    (FS.noLinks_of_check (by decide +kernel)) (fun _ => rfl) ?_ h1 h2 h3
  rintro s v ⟨b, h, _⟩
  have : fsT.read confT.rrdpStatePath = none := by decide
  rw [this] at h; cases h

/-- All contents that are on the disk after staging or can be had from the server. -/
def Demo.lackBodies : List Bytes := [talBytes, Inst.toBytes lackNotif, lackSnap, Inst.toBytes taCert]

theorem Demo.lackRead {p : Path} {b : Bytes} (h : (lackW confU).cur.read p = some b) : b ∈ lackBodies := by
  have hall : (lackW confU).cur.ents.all (fun e => match e.2 with
      | .file b _ => decide (b ∈ lackBodies)
      | .dir => true
      | .link _ => false) = true := by decide +kernel
  have hlk : ∀ q, (lackW confU).cur.link? q = none := fun q => by
    unfold FS.link?
    split
    · rename_i t hg
      have hq : q ≠ [] := by rintro rfl; cases hg
      have := List.all_eq_true.1 hall _ (FS.mem_of_get hq hg)
      cases this
    · rfl
  have hf := FS.file_of_read h (hlk p)
  unfold FS.file? at hf
  split at hf
  · rename_i b' t hg
    cases hf
    have hq : p ≠ [] := by rintro rfl; cases hg
    exact of_decide_eq_true (List.all_eq_true.1 hall _ (FS.mem_of_get hq hg))
  · cases hf

theorem Demo.lackBody {src : FetchSource} {etag e : Option Str} {b : Bytes}
    (h : src.Body lackEnv (lackW confU).cur etag b e) : b ∈ lackBodies := by
  cases src with
  | file p => exact lackRead h.1
  | uri u m =>
    obtain ⟨tick, hdr, h1, _⟩ := h
    change (if u = uri "q" then _ else if u = uri "qs" then _ else if u = uri "ta" then _ else _) = _ at h1
    by_cases h2 : u = uri "q"
    · rw [if_pos h2] at h1; cases h1; decide
    · rw [if_neg h2] at h1
      by_cases h3 : u = uri "qs"
      · rw [if_pos h3] at h1; cases h1; decide
      · rw [if_neg h3] at h1
        by_cases h4 : u = uri "ta"
        · rw [if_pos h4] at h1; cases h1; decide
        · rw [if_neg h4] at h1; cases h1

theorem Demo.lackSnapshots {b : Bytes} (h : b ∈ lackBodies) {els : List (RsyncUri × Bytes)}
    (hp : Ext.parseSnapshot b = some els) : els = lackObjects := by
  have hall : ∀ b ∈ lackBodies, (Ext.parseSnapshot b : Option (List (RsyncUri × Bytes))).all
    (fun els => decide (els = lackObjects)) = true := by decide +kernel
  have := hall b h
  rw [hp] at this
  exact of_decide_eq_true this

theorem Demo.lackDeltas {b : Bytes} (h : b ∈ lackBodies) : Ext.parseDelta b = none := by
  have hall : ∀ b ∈ lackBodies, (Ext.parseDelta b : Option (List DeltaElement)).isNone = true := by
    decide +kernel
  exact Option.isNone_iff_eq_none.1 (hall b h)

theorem Demo.lackCerts {y : RsyncUri} {obj : Bytes} (h : (y, obj) ∈ lackObjects) :
    Ext.decodeCert obj = none := by
  have hall : ∀ e ∈ lackObjects, (Ext.decodeCert e.2 : Option CertObj).isNone = true := by decide +kernel
  exact Option.isNone_iff_eq_none.1 (hall _ h)

theorem Demo.lackStages : ∃ st, (freshState confU base nameT).updateStaged confU lackEnv
    (loadState confU lackEnv (World.start fsT)).2 = (.ok (some st), lackW confU) := by
  match h : (freshState confU base nameT).updateStaged confU lackEnv
    (loadState confU lackEnv (World.start fsT)).2 with
  | (.ok (some st), w) => exact ⟨st, by unfold lackW; rw [h]⟩
  | (.ok none, w) =>
    have : ((freshState confU base nameT).updateStaged confU lackEnv
      (loadState confU lackEnv (World.start fsT)).2).1 ≠ .ok none := by decide +kernel
    rw [h] at this; exact absurd rfl this
  | (.error e, w) =>
    have : ((freshState confU base nameT).updateStaged confU lackEnv
      (loadState confU lackEnv (World.start fsT)).2).1.toOption.isSome = true := by decide +kernel
    rw [h] at this; cases this

def Demo.lackTals : List Tal := [⟨"tal".toList, .uri (uri "ta") true, [7]⟩]

theorem Demo.lackTalsOf : TalsOf (lackW confU).cur confU.talFiles lackTals :=
  .cons _ talBytes _ _ _ (by decide +kernel) (talParse_ok (by decide +kernel)) .nil

theorem Demo.lackServed : ∀ t ∈ lackTals, ∀ k, t.Served lackEnv (lackW confU).cur (lackEnv.clock k) := by
  have hvals : Ext.validateTa (Inst.toBytes taCert) 50 = some taCert := by decide +kernel
  intro t ht k
  rw [List.mem_singleton.1 ht]
  intro tick
  exact ⟨.absent, Inst.toBytes taCert, rfl, by simp, taCert, hvals, by decide, by decide, by decide⟩

theorem Demo.lackIsSnapshot : ∀ etag n b, Offers confU lackEnv fsT etag n → Ext.sha b = n.snapHash →
    Ext.parseSnapshot b ≠ none := by
  intro etag n b hn hb
  rw [lackOffers rfl rfl hn] at hb
  have : b = lackSnap := hb
  subst this
  decide +kernel

theorem Demo.lackRanks : ∀ v k, RunValidator confU base lackEnv fsT (lackW confU).cur v → ∃ rank,
    RanksDescend lackEnv (lackW confU).cur (lackEnv.clock k) v rank ∧
    ∀ t ∈ v.tals, ∀ ta, TrustAnchor lackEnv (lackW confU).cur (lackEnv.clock k) t ta → rank ta < 5 := by
  intro v k hv
  refine ⟨fun _ => 0, ?_, fun _ _ _ _ => Nat.zero_lt_succ 4⟩
  intro issuer i u x obj cert rc _ _ _ ha hdec _ _
  exfalso
  cases ha with
  | cached d hd hobj =>
    obtain ⟨old, _, hold, hoth, d', i', j', hd', hlat⟩ := hv.data
    rcases hold with rfl | ⟨s, _, hs, _⟩
    · by_cases hu : u = confU.notificationUri
      · rw [hu, hd'] at hd
        cases hd
        cases hlat with
        | cached d0 h0 => cases h0
        | current d0 h0 => cases h0
        | deltas n hn hoff d0 h0 => cases h0
        | snapshot n hn hoff from' =>
          obtain ⟨src, b, e, els, _, hb, _, hp, ho⟩ := from'.body
          have := lackSnapshots (lackBody hb) hp
          subst this
          rw [ho x, Option.map_eq_some_iff] at hobj
          obtain ⟨⟨y, o⟩, hy, rfl⟩ := hobj
          have hm := List.mem_of_find?_eq_some hy
          rw [lackCerts (List.mem_reverse.1 hm)] at hdec
          cases hdec
      · rw [hoth u hu] at hd; cases hd
    · exact absurd hs confU_state
  | snapshot a src b e els y hs hb hp ho hx =>
    rw [lackSnapshots (lackBody hb) hp] at ho
    rw [lackCerts ho] at hdec
    cases hdec
  | delta a src b e els y hs hb hp ho hx =>
    rw [lackDeltas (lackBody hb)] at hp
    cases hp

/-- The version lacking a ROA is published without `--tal-reject-invalid`. -/
example : ∃ s' st w3, process 5 confU lackEnv (World.start fsT) = publish confU s' st lackEnv w3 ∧
    w3.cur = (lackW confU).cur := by
  have h1 : loadState confU lackEnv (World.start fsT) =
      (.ok (freshState confU base nameT), (loadState confU lackEnv (World.start fsT)).2) :=
    Prod.ext (by decide +kernel) rfl
  obtain ⟨st, h2⟩ := lackStages
  obtain ⟨s', w3, h3⟩ := C72_without_reject 5 confU lackEnv fsT base nameT _ st _ _ lackTals
    runCondsU (fun etag n hn => by rw [lackOffers rfl rfl hn]; exact lackOneHash) lack304
    (FS.noLinks_of_check (by decide +kernel)) (fun _ => rfl) (fun s v hs => absurd hs confU_state) h1 h2 rfl
    lackTalsOf lackServed lackIsSnapshot lackRanks (fun _ _ h => by cases h)
  exact ⟨s', st, w3, h3⟩

end

end KSync
