import Verif.Lemmas.RemoveUp
import Verif.Lemmas.RsyncParts
import Verif.Props.Names
import Verif.Examples.Conds

/-!
# Single files: removal and modification times (properties C30, C48)
-/

set_option linter.unusedVariables false

namespace KSync

/-! ## Removal of a file -/

/-- **C48.** While a file is being removed together with the directories that become empty, every
file, link and directory stays as it is, except that the file itself may be gone, and directories
above it that contained nothing but (directories on the way to) that file. -/
theorem C48_only_empty_directories (p : Path) (b : Bytes) (env : Env) (fs : FS) (hw : fs.WF)
    (hp : fs.file? p = some b) :
    ∀ f ∈ (removeFileAndEmptyParents p env (World.start fs)).2.crashPoints, ∀ r,
      f.get r = fs.get r ∨
      (f.get r = none ∧ (r = p ∨ (fs.get r = some .dir ∧ r <+: p ∧
        ∀ q, r <+: q → fs.leaf q ≠ none → q = p) ∧
        ∀ q, r <+: q → fs.get q ≠ none → q <+: p)) := by
  intro f hf r
  rcases (removeUp_pruned hw f hf).2 r with h | ⟨h1, h2, h3⟩
  · exact Or.inl h
  · refine Or.inr ⟨h1, ?_⟩
    by_cases hr : r = p
    · exact Or.inl hr
    · have hpn : fs.get p ≠ none := by
        intro h; unfold FS.file? at hp; rw [h] at hp; cases hp
      refine Or.inr ⟨⟨hw.above h2 hr hpn, h2, fun q hq hl => ?_⟩, h3⟩
      have hgq : fs.get q ≠ none := by
        intro h; unfold FS.leaf at hl; rw [h] at hl; exact hl rfl
      by_cases hqp : q = p
      · exact hqp
      · exfalso
        have := hw.above (h3 q hq hgq) hqp hpn
        unfold FS.leaf at hl
        rw [this] at hl
        exact hl rfl

/-- **C48, what is removed.** When the call succeeds the file is gone; if nothing fails it
does succeed, and no empty directory is left on the way to where the file was. -/
theorem C48_file_and_empty_directories_gone (p : Path) (b : Bytes) (env : Env) (fs : FS)
    (hw : fs.WF) (hp : fs.file? p = some b) :
    ((removeFileAndEmptyParents p env (World.start fs)).1 = .ok () →
      (removeFileAndEmptyParents p env (World.start fs)).2.cur.get p = none) ∧
    (NoFaults env → (removeFileAndEmptyParents p env (World.start fs)).1 = .ok () ∧
      ∀ r, r <+: p → r ≠ [] →
        (removeFileAndEmptyParents p env (World.start fs)).2.cur.get r = some .dir →
        ∃ n, (removeFileAndEmptyParents p env (World.start fs)).2.cur.get (r ++ [n]) ≠ none) := by
  refine ⟨fun h => ?_, fun hf => ⟨?_, fun r h1 h2 h3 => ?_⟩⟩
  · exact removeUp_gone (w := World.start fs) hw hp (Prod.ext h rfl)
  · have hg : ∃ t, fs.get p = some (.file b t) := by
      unfold FS.file? at hp
      split at hp
      · rename_i t hg; cases hp; exact ⟨t, hg⟩
      · cases hp
    obtain ⟨t, hg⟩ := hg
    unfold removeFileAndEmptyParents
    match hn : p.length with
    | 0 =>
      have : p = [] := List.length_eq_zero_iff.1 hn
      subst this
      rw [FS.get_root] at hg
      cases hg
    | n + 1 =>
      unfold removeUp
      rw [getFs_bind]
      have hi : (World.start fs).cur.isFile p = true := by
        show fs.isFile p = true
        unfold FS.isFile FS.resolve
        rw [hg]
      rw [if_pos hi]
      have hr : (removeFile p env (World.start fs)).1 = .ok () := by
        unfold removeFile
        rw [io_bind, if_neg (by rw [hf]; simp), getFs_bind]
        show ((match fs.get p with
          | some (.file _ _) => push (fs.del p)
          | some (.link _) => push (fs.del p)
          | _ => M.throw .io) env _).1 = _
        rw [hg]
        rfl
      rw [M.bind_of_ok (Prod.ext hr rfl)]
      rfl
  · have h4 := removeUp_empties (w := World.start fs) (n := p.length) hw hf (Nat.le_refl _) r h1 h2 h3
    have hw' := (removeUp_pruned (n := p.length) (p := p) (env := env) hw _ List.mem_cons_self).1
    rw [FS.hasChild_iff] at h4
    obtain ⟨q, ⟨t, rfl⟩, g2, g3⟩ := h4
    cases t with
    | nil => rw [List.append_nil] at g2; exact absurd rfl g2
    | cons a t =>
      refine ⟨a, ?_⟩
      by_cases ht : t = []
      · subst ht; exact g3
      · have := hw'.above (p := r ++ [a]) (q := r ++ a :: t) ⟨t, by simp⟩
          (fun h => ht (by simpa using h)) g3
        show (removeUp p.length p env (World.start fs)).2.cur.get (r ++ [a]) ≠ none
        rw [this]
        simp

/-! ## Modification times -/

/-- Where an object with the components `segs` in the path of its URI is written. -/
def objectAt (out : Path) (includeHost : Bool) (u : RsyncUri) (segs : List Str) : Path :=
  out ++ (if includeHost then [u.authority, u.module] else []) ++ segs

/-- **C30, without the case of objects that cannot be decoded** (for which it is false, see
`C30_refuted_for_undecodable_object`). An object that is written without I/O failure gets the time
that belongs to it; the file system, the clock, the directory and the revision have no influence. -/
theorem C30_own_time_partial [Ext] (e : RsyncUri × Bytes) (segs : List Str) (nm : Name) (t : Time)
    (out : Path) (includeHost : Bool) (env : Env) (fs : FS) (w' : World)
    (hu : CleanUri e.1) (hs : ∀ s ∈ segs ++ [nm], PlainName s)
    (hp : e.1.path = withSlashes (segs ++ [nm])) (ht : ownTime nm e.2 = some t)
    (hf : NoFaults env) (h : publishObject out includeHost e env (World.start fs) = (.ok (), w')) :
    w'.cur.get (objectAt out includeHost e.1 (segs ++ [nm])) = some (.file e.2 t) := by
  have hpath : objectPath out includeHost e.1 = objectAt out includeHost e.1 (segs ++ [nm]) := by
    unfold objectAt
    cases includeHost with
    | true => rw [objectPath_host hu hs hp]; simp
    | false => rw [objectPath_noHost (by simp) hs hp]; simp
  obtain ⟨_, t', h1, h2⟩ := publishObject_ok h
  rw [hpath] at h1 h2
  have : objectAt out includeHost e.1 (segs ++ [nm]) =
      (out ++ (if includeHost then [e.1.authority, e.1.module] else []) ++ segs) ++ [nm] := by
    unfold objectAt; simp
  rw [this] at h1 h2 ⊢
  rw [objectTime_eq] at h2
  rw [h1, h2 hf t ht]

/-- **C30, across revisions and servers.** Two servers, or one server at different times, give
the same object the same time. -/
theorem C30_same_time_partial [Ext] (e : RsyncUri × Bytes) (segs : List Str) (nm : Name) (t : Time)
    (out out' : Path) (ih ih' : Bool) (env env' : Env) (fs fs' : FS) (w w' : World)
    (hu : CleanUri e.1) (hs : ∀ s ∈ segs ++ [nm], PlainName s)
    (hp : e.1.path = withSlashes (segs ++ [nm])) (ht : ownTime nm e.2 = some t)
    (hf : NoFaults env) (h : publishObject out ih e env (World.start fs) = (.ok (), w))
    (hf' : NoFaults env') (h' : publishObject out' ih' e env' (World.start fs') = (.ok (), w')) :
    w.cur.get (objectAt out ih e.1 (segs ++ [nm])) =
      w'.cur.get (objectAt out' ih' e.1 (segs ++ [nm])) := by
  rw [C30_own_time_partial e segs nm t out ih env fs w hu hs hp ht hf h,
    C30_own_time_partial e segs nm t out' ih' env' fs' w' hu hs hp ht hf' h']

/-! ## The hypotheses can be met -/

section
open Demo
set_option maxRecDepth 100000

/-- A directory with two files, one of them alone in a subdirectory. -/
def Demo.fsFiles : FS := ⟨[(["d".toList], .dir), (["d".toList, "e".toList], .dir),
  (["d".toList, "e".toList, "f".toList], .file [1] 0), (["d".toList, "g".toList], .file [2] 0)]⟩

def Demo.pFile : Path := ["d".toList, "e".toList, "f".toList]

example : ∀ f ∈ (removeFileAndEmptyParents pFile (envAt 0 notif1) (World.start fsFiles)).2.crashPoints,
    f.leaf ["d".toList, "g".toList] = some (.file [2] 0) := by
  intro f hf
  have := C48_only_empty_directories pFile [1] (envAt 0 notif1) fsFiles
    (FS.wf_of_check (by decide +kernel)) (by decide +kernel) f hf ["d".toList, "g".toList]
  rcases this with h | ⟨h1, h2⟩
  · unfold FS.leaf; rw [h]; decide +kernel
  · exfalso
    rcases h2 with h2 | ⟨⟨h2, _⟩, _⟩
    · exact absurd h2 (by decide)
    · exact absurd h2 (by decide +kernel)

/-- The file and its directory are removed, the directory above is not. -/
example : (removeFileAndEmptyParents pFile (envAt 0 notif1) (World.start fsFiles)).2.cur =
    ⟨[(["d".toList], .dir), (["d".toList, "g".toList], .file [2] 0)]⟩ := by decide +kernel

example : (removeFileAndEmptyParents pFile (envAt 0 notif1) (World.start fsFiles)).1 = .ok () :=
  ((C48_file_and_empty_directories_gone pFile [1] (envAt 0 notif1) fsFiles
    (FS.wf_of_check (by decide +kernel)) (by decide +kernel)).2 (fun _ => rfl)).1

/-- An object. -/
def Demo.objCer : RsyncUri × Bytes := (⟨"h".toList, "m".toList, "p/a.cer".toList⟩, [1, 2, 3])

theorem Demo.plainP : PlainName "p".toList := ⟨by decide, by decide, by decide, by decide⟩
theorem Demo.plainA : PlainName "a.cer".toList := ⟨by decide, by decide, by decide, by decide⟩

theorem Demo.objCer_segs : ∀ s ∈ ["p".toList] ++ ["a.cer".toList], PlainName s := by
  intro s hs
  have : s = "p".toList ∨ s = "a.cer".toList := by simpa using hs
  rcases this with rfl | rfl
  · exact plainP
  · exact plainA

theorem Demo.objCer_clean : CleanUri objCer.1 :=
  ⟨⟨by decide, by decide, by decide, by decide⟩, ⟨by decide, by decide, by decide, by decide⟩,
    ["p".toList] ++ ["a.cer".toList], by decide, objCer_segs, by decide⟩

example : (publishObject ["y".toList] true objCer (envAt 77 notif1) (World.start fs0)).2.cur.get
    ["y".toList, "h".toList, "m".toList, "p".toList, "a.cer".toList] = some (.file [1, 2, 3] 3) :=
  C30_own_time_partial objCer ["p".toList] "a.cer".toList 3 ["y".toList] true (envAt 77 notif1) fs0 _
    objCer_clean objCer_segs (by decide) (by decide) (fun _ => rfl)
    (Prod.ext (by decide +kernel) rfl)

example : (publishObject ["y".toList] true objCer (envAt 77 notif1) (World.start fs0)).2.cur.get
      (objectAt ["y".toList] true objCer.1 ["p".toList, "a.cer".toList]) =
    (publishObject ["z".toList] false objCer (envAt 5 notif2) (World.start fs1)).2.cur.get
      (objectAt ["z".toList] false objCer.1 ["p".toList, "a.cer".toList]) :=
  C30_same_time_partial objCer ["p".toList] "a.cer".toList 3 ["y".toList] ["z".toList] true false
    (envAt 77 notif1) (envAt 5 notif2) fs0 fs1 _ _
    objCer_clean objCer_segs (by decide) (by decide) (fun _ => rfl)
    (Prod.ext (by decide +kernel) rfl) (fun _ => rfl) (Prod.ext (by decide +kernel) rfl)

/-- An object that is no certificate, no CRL and no signed object. -/
def Demo.objRaw : RsyncUri × Bytes := (⟨"h".toList, "m".toList, "x".toList⟩, [])

end

open Demo in
set_option maxRecDepth 100000 in
/-- **C30 is false for objects that cannot be decoded:** their time is the time of writing, so it
differs between servers and revisions. -/
theorem C30_refuted_for_undecodable_object :
    ∃ (e : RsyncUri × Bytes) (out p : Path) (env env' : Env) (fs : FS) (b : Bytes) (t t' : Time),
      NoFaults env ∧ NoFaults env' ∧
      (publishObject out false e env (World.start fs)).1 = .ok () ∧
      (publishObject out false e env' (World.start fs)).1 = .ok () ∧
      (publishObject out false e env (World.start fs)).2.cur.get p = some (.file b t) ∧
      (publishObject out false e env' (World.start fs)).2.cur.get p = some (.file b t') ∧
      t ≠ t' :=
  ⟨objRaw, ["y".toList], ["y".toList, "x".toList], envAt 1 notif1, envAt 2 notif1, fs0, [], 1, 2,
    fun _ => rfl, fun _ => rfl, by decide +kernel, by decide +kernel, by decide +kernel,
    by decide +kernel, by decide⟩

end KSync
