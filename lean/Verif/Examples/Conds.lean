import Verif.Props.Decision
import Verif.Lemmas.Staged

/-!
# The concrete world meets the conditions on whole runs

Decision procedures for the conditions of `Verif/Spec/Run.lean`, used by `example`s and
counterexamples.
-/

set_option maxRecDepth 100000

namespace KSync

theorem mem_of_lookup {l : List (Path × Node)} {p : Path} {x : Node}
    (h : l.lookup p = some x) : (p, x) ∈ l := by
  induction l with
  | nil => simp at h
  | cons a l ih =>
    rw [List.lookup_cons] at h
    split at h
    · rename_i heq
      have h1 : p = a.1 := by simpa using heq
      have h2 : a.2 = x := by simpa using h
      rw [h1, ← h2]
      simp
    · exact List.mem_cons_of_mem _ (ih h)

def FS.wfCheck (fs : FS) : Bool :=
  fs.ents.all (fun e => decide (fs.get e.1.dropLast = some .dir))

theorem FS.wf_of_check {fs : FS} (h : fs.wfCheck = true) : fs.WF := by
  intro p n hne
  unfold FS.get at hne
  rw [if_neg (by simp)] at hne
  match hl : fs.ents.lookup (p ++ [n]) with
  | none => exact absurd hl hne
  | some x =>
    have := List.all_eq_true.1 h _ (mem_of_lookup hl)
    simpa using this

def goodRelB (name rel : Str) : Bool :=
  !decide (rel.head? = some '/') && !decide (['.', '.'] ∈ comps rel) && !decide (comps rel = []) &&
  !decide ((comps rel).head? = some name) && !decide ((comps rel).head? = some (name ++ ".tmp".toList))

theorem goodRel_of_check {name rel : Str} (h : goodRelB name rel = true) : GoodRel name rel := by
  unfold goodRelB at h
  simp only [Bool.and_eq_true, Bool.not_eq_true', decide_eq_false_iff_not] at h
  obtain ⟨⟨⟨⟨h1, h2⟩, h3⟩, h4⟩, h5⟩ := h
  exact ⟨⟨h1, h2, h3⟩, h4, h5⟩

def goodNotifB (base name : Str) (n : Notif) : Bool :=
  n.refs.all (fun r => match stripPrefix base r.1 with
    | none => true
    | some rel => goodRelB name rel)

theorem goodNotif_of_check {base name : Str} {n : Notif} (h : goodNotifB base name n = true) :
    GoodNotif base name n := by
  intro r hr rel hrel
  unfold goodNotifB at h
  rw [List.all_eq_true] at h
  have := h r hr
  rw [stripPrefix_some.2 hrel] at this
  exact goodRel_of_check this

/-- For one state: all paths are good (the scheduled ones being given by relative paths). -/
structure SaneCheck (c : Config) (base name : Str) (s : RrdpState) (dep : List Str) : Prop where
  source : s.source.uri = c.notificationUri
  fileName : s.source.name = name
  mappings : s.mappings = ⟨base, c.rrdpDir⟩
  snapshot : s.snapshot.all (fun x => goodRelB name x.relPath) = true
  deltas : s.deltas.all (fun x => goodRelB name x.relPath) = true
  deprecated : s.deprecated.map (·.path) = dep.map c.pubPath
  dep : dep.all (goodRelB name) = true

theorem SaneCheck.sane {c : Config} {base name : Str} {s : RrdpState} {dep : List Str}
    (h : SaneCheck c base name s dep) : Sane c base name s := by
  refine ⟨h.source, h.fileName, h.mappings, fun x hx => ?_, fun d hd => ?_, fun d hd => ?_⟩
  · have := h.snapshot
    rw [hx] at this
    exact goodRel_of_check this
  · exact goodRel_of_check (List.all_eq_true.1 h.deltas d hd)
  · have hm : d.path ∈ s.deprecated.map (·.path) := List.mem_map.2 ⟨d, hd, rfl⟩
    rw [h.deprecated] at hm
    obtain ⟨rel, h1, h2⟩ := List.mem_map.1 hm
    exact ⟨rel, goodRel_of_check (List.all_eq_true.1 h.dep rel h1), h2.symm⟩

theorem saneState_of [Ext] {c : Config} {base name : Str} {fs : FS} {s : RrdpState}
    {dep : List Str} (h : Recorded c fs s) (hc : SaneCheck c base name s dep) :
    SaneState c base name fs := by
  intro s' hs'
  rw [← h.unique hs']
  exact hc.sane

/-- No files or links at or below a directory. -/
def FS.noFilesB (fs : FS) (d : Path) : Bool := fs.ents.all (fun e => match e.2 with
  | .dir => true
  | _ => !decide (d <+: e.1))

theorem FS.noFiles_of_check {fs : FS} {d : Path} (h : fs.noFilesB d = true) :
    ∀ q, d <+: q → fs.leaf q = none := by
  intro q hq
  have key : ∀ nd, nd ≠ Node.dir → fs.get q = some nd → False := by
    intro nd h1 hg
    unfold FS.get at hg
    split at hg
    · cases hg; exact h1 rfl
    · have := List.all_eq_true.1 h _ (mem_of_lookup hg)
      cases nd with
      | dir => exact h1 rfl
      | file b t => simp [hq] at this
      | link t => simp [hq] at this
  unfold FS.leaf
  match hg : fs.get q with
  | none => rfl
  | some .dir => rfl
  | some (.file b t) => exact (key _ (by simp) hg).elim
  | some (.link t) => exact (key _ (by simp) hg).elim

/-- No links at or below a directory. -/
def FS.noLinksB (fs : FS) (d : Path) : Bool := fs.ents.all (fun e => match e.2 with
  | .link _ => !decide (d <+: e.1)
  | _ => true)

theorem FS.noLinks_of_check {fs : FS} {d : Path} (h : fs.noLinksB d = true) : NoLinks fs d := by
  intro q hq
  match hg : fs.get q with
  | some (.link t) =>
    exfalso
    unfold FS.get at hg
    split at hg
    · cases hg
    · have := List.all_eq_true.1 h _ (mem_of_lookup hg)
      simp [hq] at this
  | some .dir => unfold FS.link?; rw [hg]
  | some (.file _ _) => unfold FS.link?; rw [hg]
  | none => unfold FS.link?; rw [hg]

namespace Demo

open KSync.Inst

theorem mem_takeWhile {α : Type} {P : α → Bool} {l : List α} {x : α} (h : x ∈ l.takeWhile P) :
    P x = true := by
  induction l with
  | nil => simp at h
  | cons a l ih =>
    rw [List.takeWhile_cons] at h
    split at h
    · rcases List.mem_cons.1 h with rfl | h
      · assumption
      · exact ih h
    · simp at h

theorem cleanObjects (b : Bool) : CleanObjects b := by
  intro bs e he
  have he' : cleanUri e.1 = true := by
    change e ∈ (match (ofBytes bs : Option (List (RsyncUri × Bytes))) with
      | some l => (l.takeWhile (fun (e : RsyncUri × Bytes) => cleanUri e.1),
          l.all (fun (e : RsyncUri × Bytes) => cleanUri e.1))
      | none => (([] : List (RsyncUri × Bytes)), false)).1 at he
    match h : (ofBytes bs : Option (List (RsyncUri × Bytes))) with
    | none => rw [h] at he; simp at he
    | some l => rw [h] at he; exact mem_takeWhile (P := fun e : RsyncUri × Bytes => cleanUri e.1) he
  unfold cleanUri at he'
  simp only [Bool.and_eq_true, Bool.not_eq_true', decide_eq_false_iff_not] at he'
  obtain ⟨⟨⟨h1, h2⟩, h3⟩, h4⟩ := he'
  unfold objectRel
  cases b with
  | true => exact ⟨h3, h4⟩
  | false => exact ⟨h1, h2⟩

def base : Str := "https://h/".toList
def name : Str := "n".toList

theorem notifUri : NotifUri conf base name :=
  ⟨by decide, by decide, by decide, by decide, by decide, by decide, by decide⟩

theorem apart_of {p q : Path} (h : decide (p <+: q) = false ∧ decide (q <+: p) = false) : Apart p q :=
  ⟨by simpa using h.1, by simpa using h.2⟩

theorem layout : Layout conf base name :=
  ⟨notifUri, apart_of (by decide), apart_of (by decide), apart_of (by decide),
    apart_of (by decide), apart_of (by decide), apart_of (by decide), apart_of (by decide)⟩

/-- The state after the first run. -/
theorem saneState1 : SaneState conf base name fs1 :=
  saneState_of (dep := []) recorded1 ⟨by decide, by decide, by decide, by decide, by decide, by decide,
    by decide⟩

theorem saneState0 : SaneState conf base name fs0 := by
  rintro s ⟨b, h, _⟩
  have : fs0.read conf.rrdpStatePath = none := by decide
  rw [this] at h; cases h

theorem goodSource {t : Time} {n : Notif} {fs : FS} (h : goodNotifB base name n = true) :
    GoodSource conf base name (envAt t n) fs := by
  intro etag n' hn
  rw [offers hn]
  exact goodNotif_of_check h

/-- All that is offered by a server that always has the same notification. -/
theorem offers_only {c : Config} {env : Env} {fs : FS} {etag : Option Str} {n n' : Notif}
    (hm : c.fetcher.fetchMap = none)
    (hh : ∀ k r, r.uri = c.notificationUri → env.http k r = .ok .absent (some (toBytes n)))
    (h : Offers c env fs etag n') : n' = n := by
  obtain ⟨src, b, e, h1, h2, h3⟩ := h
  have h4 := resolve_locates.2 h1
  unfold Fetcher.resolve at h4
  rw [hm] at h4
  cases h4
  obtain ⟨tick, hdr, h4, _⟩ := h2
  rw [hh tick _ rfl] at h4
  cases h4
  have h6 := Ext.parse_write n
  rw [show Ext.writeNotif n = Inst.toBytes n from rfl, h3] at h6
  cases h6; rfl

/-- The conditions for a second run. -/
theorem runConds1 (t : Time) : RunConds conf base name (envAt t notif2) fs1 :=
  ⟨notifUri, FS.wf_of_check (by decide +kernel), saneState1, goodSource (by decide),
    fun _ => cleanObjects _⟩

/-- The conditions for a first run. -/
theorem runConds0 (t : Time) : RunConds conf base name (envAt t notif1) fs0 :=
  ⟨notifUri, FS.wf_of_check (by decide +kernel), saneState0, goodSource (by decide),
    fun _ => cleanObjects _⟩

end Demo
end KSync
