import Verif.Spec.Configure
import Verif.Lemmas.Names
import Verif.Examples.Setup

/-!
# Names, directories and text encodings (properties C29, C31, C44, C50)
-/

namespace KSync

/-! ## Where objects go -/

/-- Components separated by single slashes. -/
def withSlashes : List Str → Str
  | [] => []
  | [a] => a
  | a :: rest => a ++ '/' :: withSlashes rest

/-- Authority, module and all components of the path are plain. -/
structure CleanUri (u : RsyncUri) : Prop where
  authority : PlainName u.authority
  module : PlainName u.module
  path : ∃ segs, segs ≠ [] ∧ (∀ s ∈ segs, PlainName s) ∧ u.path = withSlashes segs

theorem PlainName.comps {s : Str} (h : PlainName s) : comps s = [s] :=
  comps_plain h.noSlash h.nonempty h.notDot

theorem comps_withSlashes {segs : List Str} (h : ∀ s ∈ segs, PlainName s) :
    comps (withSlashes segs) = segs := by
  match segs, h with
  | [], _ => rfl
  | [a], h => exact (h a (by simp)).comps
  | a :: b :: l, h =>
    show comps (a ++ '/' :: withSlashes (b :: l)) = _
    rw [comps_append, (h a (by simp)).comps,
      comps_withSlashes (fun s hs => h s (List.mem_cons_of_mem _ hs))]
    rfl

theorem withSlashes_head {segs : List Str} (hne : segs ≠ []) (h : ∀ s ∈ segs, PlainName s) :
    (withSlashes segs).head? ≠ some '/' := by
  have aux : ∀ a t : Str, PlainName a → (a ++ t).head? ≠ some '/' := by
    intro a t ha
    cases a with
    | nil => exact absurd rfl ha.nonempty
    | cons x a =>
      simp only [List.cons_append, List.head?_cons, ne_eq, Option.some.injEq]
      rintro rfl
      exact ha.noSlash (by simp)
  match segs, hne, h with
  | [a], _, h =>
    have := aux a [] (h a (by simp))
    rw [List.append_nil] at this
    exact this
  | a :: b :: l, _, h => exact aux a _ (h a (by simp))

theorem objectPath_host {u : RsyncUri} {out : Path} {segs : List Str} (h : CleanUri u)
    (h1 : ∀ s ∈ segs, PlainName s) (h2 : u.path = withSlashes segs) :
    objectPath out true u = out ++ u.authority :: u.module :: segs := by
  have hc : comps (u.authority ++ '/' :: u.module ++ '/' :: u.path) = u.authority :: u.module :: segs := by
    rw [List.append_assoc]
    show comps (u.authority ++ '/' :: (u.module ++ '/' :: u.path)) = _
    rw [comps_append, h.authority.comps, comps_append, h.module.comps, h2, comps_withSlashes h1]
    rfl
  unfold objectPath
  rw [if_pos rfl, joinPath_clean ⟨?_, ?_, ?_⟩, hc]
  · cases ha : u.authority with
    | nil => exact absurd ha h.authority.nonempty
    | cons x a =>
      simp only [List.cons_append, List.head?_cons, ne_eq, Option.some.injEq]
      rintro rfl
      exact h.authority.noSlash (by rw [ha]; simp)
  · rw [hc]
    intro hm
    rcases List.mem_cons.1 hm with hm | hm
    · exact h.authority.notDotDot hm.symm
    · rcases List.mem_cons.1 hm with hm | hm
      · exact h.module.notDotDot hm.symm
      · exact (h1 _ hm).notDotDot rfl
  · rw [hc]; simp

theorem objectPath_noHost {u : RsyncUri} {out : Path} {segs : List Str} (hne : segs ≠ [])
    (h1 : ∀ s ∈ segs, PlainName s) (h2 : u.path = withSlashes segs) :
    objectPath out false u = out ++ segs := by
  have hc : comps u.path = segs := by rw [h2, comps_withSlashes h1]
  unfold objectPath
  rw [if_neg (by simp), joinPath_clean ⟨?_, ?_, ?_⟩, hc]
  · rw [h2]; exact withSlashes_head hne h1
  · rw [hc]; exact fun hm => (h1 _ hm).notDotDot rfl
  · rw [hc]; exact hne

/-- **C29.** With `--rsync-include-host` objects with different URIs are written to different files, at
the place below the directory that the URI says. -/
theorem C29_with_host (out : Path) (u v : RsyncUri) (hu : CleanUri u) (hv : CleanUri v) :
    (objectPath out true u = objectPath out true v ↔ u = v) ∧
    ∃ segs, u.path = withSlashes segs ∧
      objectPath out true u = out ++ u.authority :: u.module :: segs := by
  obtain ⟨s, h1, h2, h3⟩ := hu.path
  obtain ⟨t, g1, g2, g3⟩ := hv.path
  refine ⟨⟨fun h => ?_, fun h => by rw [h]⟩, s, h3, objectPath_host hu h2 h3⟩
  rw [objectPath_host hu h2 h3, objectPath_host hv g2 g3] at h
  have h := List.append_cancel_left h
  injection h with e1 e2
  injection e2 with e2 e3
  rw [e3, ← g3] at h3
  cases u; cases v
  simp only at e1 e2 h3
  rw [e1, e2, h3]

/-- **C29, without `--rsync-include-host`.** Objects of the same host and module with different URIs are
written to different files. -/
theorem C29_without_host (out : Path) (u v : RsyncUri) (hu : CleanUri u) (hv : CleanUri v)
    (ha : u.authority = v.authority) (hm : u.module = v.module) :
    (objectPath out false u = objectPath out false v ↔ u = v) ∧
    ∃ segs, u.path = withSlashes segs ∧ objectPath out false u = out ++ segs := by
  obtain ⟨s, h1, h2, h3⟩ := hu.path
  obtain ⟨t, g1, g2, g3⟩ := hv.path
  refine ⟨⟨fun h => ?_, fun h => by rw [h]⟩, s, h3, objectPath_noHost h1 h2 h3⟩
  rw [objectPath_noHost h1 h2 h3, objectPath_noHost g1 g2 g3] at h
  have h := List.append_cancel_left h
  rw [h, ← g3] at h3
  cases u; cases v
  simp only at ha hm h3
  rw [ha, hm, h3]

/-- **C29, without `--rsync-include-host`.** In general, two objects are written to the same file just if
their URIs have the same path below the module, whatever host and module. -/
theorem C29_same_file_iff_same_path (out : Path) (u v : RsyncUri) (hu : CleanUri u) (hv : CleanUri v) :
    objectPath out false u = objectPath out false v ↔ u.path = v.path := by
  obtain ⟨s, h1, h2, h3⟩ := hu.path
  obtain ⟨t, g1, g2, g3⟩ := hv.path
  constructor
  · intro h
    rw [objectPath_noHost h1 h2 h3, objectPath_noHost g1 g2 g3] at h
    rw [h3, g3, List.append_cancel_left h]
  · intro h
    unfold objectPath
    rw [if_neg (by simp), if_neg (by simp), h]

/-- So objects of different modules can get in each other's way. -/
theorem C29_refuted_across_modules : ∃ u v : RsyncUri, CleanUri u ∧ CleanUri v ∧ u ≠ v ∧
    ∀ out, objectPath out false u = objectPath out false v := by
  have p : ∀ ch : Char, ch ≠ '/' → ch ≠ '.' → PlainName [ch] := fun ch h1 h2 =>
    ⟨by simp, by simpa using Ne.symm h1, by simpa using h2, by simp⟩
  have h : ∀ ch : Char, ch ≠ '/' → ch ≠ '.' → CleanUri ⟨['h'], [ch], ['a']⟩ := fun ch h1 h2 =>
    ⟨p _ (by decide) (by decide), p _ h1 h2, [['a']], by simp, fun s hs => by
      rw [List.mem_singleton.1 hs]; exact p _ (by decide) (by decide), rfl⟩
  refine ⟨⟨['h'], ['m'], ['a']⟩, ⟨['h'], ['n'], ['a']⟩, h _ (by decide) (by decide),
    h _ (by decide) (by decide), by decide, fun out => ?_⟩
  rw [C29_same_file_iff_same_path out _ _ (h _ (by decide) (by decide)) (h _ (by decide) (by decide))]

/-! ## Revision directories -/

/-- **C31.** Different versions have different directories, none of which is called `current` or
`current.tmp`, contains another one, or is anything but a direct subdirectory of the rsync
directory. -/
theorem C31_revision_directories (c : Config) (r r' : RsyncRevision) :
    (∃ n, r.path c = c.rsyncDir ++ [n] ∧ PlainName n ∧ n ≠ "current".toList ∧ n ≠ "current.tmp".toList) ∧
    (r.path c <+: r'.path c ↔ r = r') := by
  have hd := r.dirName_head
  refine ⟨⟨r.dirName, rfl, ⟨?_, r.slash_dirName, ?_, ?_⟩, ?_, ?_⟩, ?_⟩
  · intro h; rw [h] at hd; cases hd
  · intro h; rw [h] at hd; revert hd; decide
  · intro h; rw [h] at hd; revert hd; decide
  · intro h; rw [h] at hd; revert hd; decide
  · intro h; rw [h] at hd; revert hd; decide
  · constructor
    · intro h
      refine RsyncRevision.path_inj (c := c) (h.eq_of_length ?_)
      simp [RsyncRevision.path]
    · rintro rfl
      exact List.prefix_refl _

/-! ## Default directories -/

/-- Two texts name the same path. -/
def SamePath (a b : Str) : Prop := (a.head? = some '/' ↔ b.head? = some '/') ∧ comps a = comps b

theorem samePath_iff {a b : Str} : samePath a b = true ↔ SamePath a b := by
  unfold samePath SamePath
  simp

theorem joinPath_sub (s : Str) (n : Str) (h : PlainName n) :
    joinPath [] (s ++ '/' :: n) = joinPath [] s ++ [n] := by
  unfold joinPath
  rw [comps_append, h.comps, List.foldl_append]
  have e : ∀ (b : Prop) [Decidable b], (if b then ([] : Path) else []) = [] := by
    intro b _; split <;> rfl
  rw [e, e]
  simp [pushComp, h.notDotDot]

theorem replaceRrdp (s : Str) : strReplace defaultStateDir s defaultRrdpDir = s ++ "/rrdp".toList := by
  have h : ∀ s : Str, strReplace defaultStateDir s defaultRrdpDir =
      s ++ strReplaceAux 23 defaultStateDir s "/rrdp".toList := fun s => rfl
  rw [h]
  rfl

theorem replaceRsync (s : Str) : strReplace defaultStateDir s defaultRsyncDir = s ++ "/rsync".toList := by
  have h : ∀ s : Str, strReplace defaultStateDir s defaultRsyncDir =
      s ++ strReplaceAux 24 defaultStateDir s "/rsync".toList := fun s => rfl
  rw [h]
  rfl

theorem postConfigure_dirs {r : RawConfig} {env : Env} {w w' : World} {c : Config}
    (h : postConfigure r env w = (.ok c, w')) : c.stateDir = joinPath [] r.stateDir ∧
      c.rrdpDir = joinPath [] (followDirs r).1 ∧ c.rsyncDir = joinPath [] (followDirs r).2 := by
  unfold postConfigure at h
  obtain ⟨base, w1, h1, h2⟩ := M.bind_ok.1 h
  obtain ⟨fs, w2, h3, h4⟩ := M.bind_ok.1 h2
  obtain ⟨fmap, w3, h5, h6⟩ := M.bind_ok.1 h4
  obtain ⟨h7, _⟩ := M.pure_ok.1 h6
  rw [← h7]
  exact ⟨rfl, rfl, rfl⟩

/-- **C44.** If a state directory other than the default is given, then the RRDP and rsync directories
that were left at their default are the subdirectories `rrdp` and `rsync` of the state directory. -/
theorem C44_defaults_follow (r : RawConfig) (env : Env) (w w' : World) (c : Config)
    (h : postConfigure r env w = (.ok c, w')) (hs : ¬ SamePath r.stateDir "/var/lib/krill-sync".toList) :
    (r.rrdpDir = "/var/lib/krill-sync/rrdp".toList → c.rrdpDir = c.stateDir ++ ["rrdp".toList]) ∧
    (r.rsyncDir = "/var/lib/krill-sync/rsync".toList → c.rsyncDir = c.stateDir ++ ["rsync".toList]) := by
  obtain ⟨h1, h2, h3⟩ := postConfigure_dirs h
  have hs' : samePath r.stateDir defaultStateDir = false := by
    rw [Bool.eq_false_iff]
    exact fun h => hs (samePath_iff.1 h)
  unfold followDirs at h2 h3
  rw [hs'] at h2 h3
  constructor
  · intro hd
    rw [h2, h1, hd]
    have e : samePath defaultRrdpDir defaultRrdpDir = true := by decide
    show joinPath [] (if samePath defaultRrdpDir defaultRrdpDir = true then
      strReplace defaultStateDir r.stateDir defaultRrdpDir else defaultRrdpDir) = _
    rw [if_pos e, replaceRrdp]
    exact joinPath_sub _ "rrdp".toList ⟨by decide, by decide, by decide, by decide⟩
  · intro hd
    rw [h3, h1, hd]
    have e : samePath defaultRsyncDir defaultRsyncDir = true := by decide
    show joinPath [] (if samePath defaultRsyncDir defaultRsyncDir = true then
      strReplace defaultStateDir r.stateDir defaultRsyncDir else defaultRsyncDir) = _
    rw [if_pos e, replaceRsync]
    exact joinPath_sub _ "rsync".toList ⟨by decide, by decide, by decide, by decide⟩

/-- **C44, directories given explicitly** (or with the default state directory) are used as they are. -/
theorem C44_explicit_unchanged (r : RawConfig) (env : Env) (w w' : World) (c : Config)
    (h : postConfigure r env w = (.ok c, w')) :
    c.stateDir = joinPath [] r.stateDir ∧
    (SamePath r.stateDir "/var/lib/krill-sync".toList ∨
      ¬ SamePath r.rrdpDir "/var/lib/krill-sync/rrdp".toList → c.rrdpDir = joinPath [] r.rrdpDir) ∧
    (SamePath r.stateDir "/var/lib/krill-sync".toList ∨
      ¬ SamePath r.rsyncDir "/var/lib/krill-sync/rsync".toList → c.rsyncDir = joinPath [] r.rsyncDir) := by
  obtain ⟨h1, h2, h3⟩ := postConfigure_dirs h
  unfold followDirs at h2 h3
  refine ⟨h1, fun hd => ?_, fun hd => ?_⟩
  · rw [h2]
    by_cases hs : samePath r.stateDir defaultStateDir = true
    · rw [if_pos hs]
    · rw [if_neg hs]
      rcases hd with hd | hd
      · exact absurd (samePath_iff.2 hd) hs
      · dsimp only
        rw [if_neg (show ¬ samePath r.rrdpDir defaultRrdpDir = true from fun h => hd (samePath_iff.1 h))]
  · rw [h3]
    by_cases hs : samePath r.stateDir defaultStateDir = true
    · rw [if_pos hs]
    · rw [if_neg hs]
      rcases hd with hd | hd
      · exact absurd (samePath_iff.2 hd) hs
      · dsimp only
        rw [if_neg (show ¬ samePath r.rsyncDir defaultRsyncDir = true from fun h => hd (samePath_iff.1 h))]

/-! ## Text -/

/-- **C50, bytes.** Base64 text decodes to the bytes it was made from, and so different bytes have
different texts. -/
theorem C50_base64 (b b' : Bytes) :
    b64Decode (b64Encode b) = some b ∧ (b64Encode b = b64Encode b' ↔ b = b') := by
  refine ⟨b64Decode_encode b, fun h => ?_, fun h => by rw [h]⟩
  have := b64Decode_encode b
  rw [h, b64Decode_encode] at this
  exact (Option.some.inj this).symm

/-- **C50, session ids.** -/
theorem C50_uuid (u v : Uuid) :
    Uuid.parse u.toStr = some u ∧ (u.toStr = v.toStr ↔ u = v) :=
  ⟨u.parse_toStr, Uuid.toStr_inj, fun h => by rw [h]⟩

/-! ## The hypotheses can be met -/

section
open Demo
set_option maxRecDepth 10000

def Demo.obj1 : RsyncUri := ⟨"h".toList, "m".toList, "a/b.cer".toList⟩
/-- another module -/
def Demo.obj2 : RsyncUri := ⟨"h".toList, "n".toList, "a/b.cer".toList⟩

theorem Demo.cleanObj1 : CleanUri obj1 :=
  ⟨⟨by decide, by decide, by decide, by decide⟩, ⟨by decide, by decide, by decide, by decide⟩,
    ["a".toList, "b.cer".toList], by decide, (by
      intro s hs
      rcases List.mem_cons.1 hs with rfl | hs
      · exact ⟨by decide, by decide, by decide, by decide⟩
      · rcases List.mem_cons.1 hs with rfl | hs
        · exact ⟨by decide, by decide, by decide, by decide⟩
        · cases hs), by decide⟩

/-- Without the host the two objects, which are of different modules, collide. -/
example : objectPath [] true obj1 ≠ objectPath [] true obj2 ∧
    objectPath [] false obj1 = objectPath [] false obj2 := by decide

/-- Without the condition that components are plain, different objects can collide. -/
example : objectPath [] true obj1 = objectPath [] true { obj1 with path := "a//./b.cer".toList } := by decide

def Demo.raw (dir : String) : RawConfig :=
  ⟨"/x/y/".toList, dir.toList, "/var/lib/krill-sync/rsync".toList, conf⟩

example : ¬ SamePath (raw "").stateDir "/var/lib/krill-sync".toList := by
  unfold SamePath
  decide

example : ((postConfigure (raw "/var/lib/krill-sync/rrdp") (envAt 0 notif1) (World.start fs0)).1.map
      (fun c => (c.rrdpDir, c.rsyncDir)))
    = .ok (["x".toList, "y".toList, "rrdp".toList], ["x".toList, "y".toList, "rsync".toList]) ∧
    ((postConfigure (raw "/p") (envAt 0 notif1) (World.start fs0)).1.map (fun c => c.rrdpDir))
    = .ok ["p".toList] := by decide

example : ((postConfigure { raw "/p" with stateDir := "/var/lib//krill-sync".toList } (envAt 0 notif1)
      (World.start fs0)).1.map (fun c => c.rsyncDir))
    = .ok ["var".toList, "lib".toList, "krill-sync".toList, "rsync".toList] := by decide

example : b64Encode [77, 97] = "TWE=".toList ∧ b64Decode "TWF=".toList = none := by decide

example : (Uuid.toStr (0x550e8400e29b41d4a716446655440000#128 : Uuid)) =
    "550e8400-e29b-41d4-a716-446655440000".toList := by decide +kernel

end

end KSync
