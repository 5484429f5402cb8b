import Verif.Lemmas.Shared
import Verif.Props.Options

/-!
# Several installations on one disk (property C81)

`Separate`, `Shared` are in Verif/Spec/Shared.lean.
-/

set_option linter.unusedVariables false

namespace KSync

/-- **C81, left alone.** At every instant of a run, whatever fails, all that another installation owns is
what it was: its RRDP directory, rsync directory, staging area and state files, with all that is in them
and with their modification times. -/
theorem C81_left_alone [Ext] (depth : Nat) (a b : Config) (env : Env) (f f' : FS) (base name : Str)
    (hl : Layout a base name) (hc : RunConds a base name env f) (hsep : Separate a b)
    (hf : f' ∈ (process depth a env (World.start f)).2.crashPoints) (r q : Path) (hr : r ∈ b.roots)
    (hq : r <+: q) : f'.get q = f.get q :=
  run_leaves hl hc hsep hf ⟨r, hr, hq⟩

/-- **C81, each on its own.** Whatever order the runs of several installations come in, wherever they were
interrupted: for each of the installations the disk is one it could have come to with its own runs alone.
So all that is claimed of one installation holds of each of them. -/
theorem C81_each_on_its_own [Ext] {κ ι : Type} [DecidableEq κ] (cs : κ → Config) (bases names : κ → Str)
    (start : κ → ι → FS → Prop) (ok : κ → Config → ι → ι → Nat → Env → FS → Prop) (i : κ → ι) (f : FS)
    (hl : ∀ k, Layout (cs k) (bases k) (names k)) (hsep : ∀ k l, k ≠ l → Separate (cs k) (cs l))
    (ho : ∀ host, CleanObjects host) (hs : ∀ k i f, start k i f → Pristine (cs k) (names k) f)
    (hok : ∀ k c i j d e f, ok k c i j d e f → GoodSource c (bases k) (names k) e f)
    (h : Shared cs start ok i f) (k : κ) : Reconfigured (cs k) (start k) (ok k) (i k) f :=
  h.each hl hsep ho hs hok k

/-- **C81**, RRDP: at any time each of the installations has no notification yet, or it is a complete
notification all of whose files are in place and have the hashes it gives.

Conditions on the sources and the runs as in `C80_files_in_place`.  A source may be the RRDP directory of
one of the others. -/
theorem C81_files_in_place [Ext] {κ : Type} [DecidableEq κ] (lives : κ → SourceLife) (cs : κ → Config)
    (bases names : κ → Str) (p : κ → Progress) (f : FS) (hl : ∀ k, Layout (cs k) (bases k) (names k))
    (hsep : ∀ k l, k ≠ l → Separate (cs k) (cs l)) (ho : ∀ host, CleanObjects host)
    (h : Shared cs (fun k _ => Pristine (cs k) (names k))
      (fun k c' => GoodRun (lives k) c' (bases k) (names k)) p f) (k : κ) :
    f.leaf ((cs k).notifPath (names k)) = none ∨
    ∃ n t, f.leaf ((cs k).notifPath (names k)) = some (.file (Ext.writeNotif n) t) ∧
      ∀ r ∈ n.refs, ∃ rel, r.1 = bases k ++ rel ∧ FileHas f ((cs k).pubPath rel) r.2 :=
  C80_files_in_place (lives k) (cs k) (bases k) (names k) (p k) f (hl k) ho
    (h.each hl hsep ho (fun _ _ _ h => h) (fun _ _ _ _ _ _ _ h => h.source) k)

section
open Demo
set_option maxRecDepth 100000

namespace Demo

/-- A second installation, which gets its files from the RRDP directory of the first. -/
def confDown : Config := { conf with
  stateDir := ["t".toList], rrdpDir := ["q".toList], rsyncDir := ["z".toList], rrdpMaxDeltas := some 1,
  sourceUriBase := some (.file ["r".toList]), fetchMap := some ⟨base, .file ["r".toList]⟩ }

/-- The first and the second. -/
def two : Bool → Config
  | false => conf
  | true => confDown

theorem layoutDown : Layout confDown base name := by
  constructor
  · constructor <;> decide
  all_goals (unfold Apart; decide)

theorem layoutTwo : ∀ k, Layout (two k) base name
  | false => layout
  | true => layoutDown

theorem separateTwo : ∀ k l, k ≠ l → Separate (two k) (two l)
  | false, false, h => absurd rfl h
  | true, true, h => absurd rfl h
  | false, true, _ => (by unfold Apart; decide :
      ∀ x ∈ conf.roots, ∀ y ∈ confDown.roots, Apart x y)
  | true, false, _ => (by unfold Apart; decide :
      ∀ x ∈ confDown.roots, ∀ y ∈ conf.roots, Apart x y)

theorem pristineDown : Pristine confDown name fs0 :=
  ⟨pristine0.wf, by decide, by decide, FS.noLinks_of_check (by decide)⟩

theorem pristineTwo : ∀ k, Pristine (two k) name fs0
  | false => pristine0
  | true => pristineDown

/-- The disk after a run of the second installation. -/
def fsDown : FS := after confDown (envAt 0 notif1) fs1

theorem offersDown {f : FS} {env : Env} {etag : Option Str} {n m : Notif} {t : Time}
    (hm : f.file? (conf.notifPath name) = some (Ext.writeNotif m)) (h : Offers confDown env f etag n) : n = m := by
  obtain ⟨src, b, e, h1, h2, h3⟩ := h
  cases h1 with
  | direct h1 => cases h1
  | mappedUri _ _ _ _ h1 => cases h1
  | mappedDir base' q rel h1 he =>
    cases h1
    have he : base ++ name = base ++ rel := he
    obtain rfl := List.append_cancel_left he
    have h2 : f.read (conf.notifPath name) = some b := h2.1
    rw [FS.read_of_file hm] at h2
    cases h2
    rw [Ext.parse_write] at h3
    exact (Option.some.inj h3).symm

theorem offersDown1 {etag : Option Str} {n : Notif} (h : Offers confDown (envAt 0 notif1) fs1 etag n) :
    Offers conf (envAt 0 notif1) fs0 none n := by
  rw [offersDown (t := 0) (m := notif1) (by decide +kernel) h]
  exact ⟨.uri (uri "n") false, _, none, resolve_locates.1 rfl, ⟨0, .absent, rfl, Or.inl ⟨rfl, rfl⟩⟩,
    Ext.parse_write notif1⟩

theorem goodRunDown : GoodRun life confDown base name p0 p1 5 (envAt 0 notif1) fs1 :=
  { source := fun _ n h => goodRun0.source none n (offersDown1 h)
    later := goodRun0.later
    lists := fun _ n h => goodRun0.lists none n (offersDown1 h)
    notBefore := fun _ n h => goodRun0.notBefore none n (offersDown1 h)
    notAfter := fun _ n h => goodRun0.notAfter none n (offersDown1 h)
    no304 := no304 _ _
    limit := nofun
    brisk := fun _ _ => (by decide : (0 : Int) < 0 + 10)
    moves := Or.inl (by decide +kernel) }

/-- A run of the first. -/
theorem sharedOne : Shared two (fun k _ => Pristine (two k) name)
    (fun k c' => GoodRun life c' base name) (fun l => if l = false then p1 else p0) fs1 :=
  Shared.run (k := false) (c' := conf) (j := p1) (depth := 5) (env := envAt 0 notif1)
    (Shared.start (i := fun _ => p0) pristineTwo) sameConf goodRun0 fs1_crash

/-- And one of the second. -/
theorem sharedTwo : Shared two (fun k _ => Pristine (two k) name)
    (fun k c' => GoodRun life c' base name) (fun _ => p1) fsDown := by
  have h2 := Shared.run (k := true) (c' := confDown) (j := p1) (depth := 5) (env := envAt 0 notif1)
    (f' := fsDown) sharedOne ⟨rfl, rfl, rfl, rfl⟩ goodRunDown List.mem_cons_self
  have e : (fun l => if l = true then p1 else if l = false then p1 else p0 : Bool → Progress) = fun _ => p1 := by
    funext l
    cases l <;> rfl
  rw [← e]
  exact h2

theorem condsDown : RunConds confDown base name (envAt 0 notif1) fs1 := by
  have h : Reconfigured confDown (fun _ => Pristine confDown name) (fun c' => GoodRun life c' base name) p0 fs1 :=
    sharedOne.each (bases := fun _ => base) (names := fun _ => name) layoutTwo separateTwo cleanObjects
      (fun _ _ _ h => h) (fun _ _ _ _ _ _ _ h => h.source) true
  have h' : Reconfigured (ι := Unit) confDown (fun _ => Pristine confDown name)
      (fun c' _ _ _ env fs => GoodSource c' base name env fs) () fs1 :=
    Reconfigured.map (κ := Unit) (ok := fun c' => GoodRun life c' base name) (fun _ => ()) (fun _ _ h => h)
      (fun _ _ _ _ _ _ h => GoodRun.source h) h
  exact (h'.sane layoutDown cleanObjects).conds layoutDown (fun _ => cleanObjects _) goodRunDown.source

end Demo

example := C81_left_alone 5 confDown conf (envAt 0 notif1) fs1 fsDown base name layoutDown condsDown
  (separateTwo true false (by decide)) List.mem_cons_self ["r".toList] (conf.notifPath name)
  (by decide) (by decide)

example := C81_each_on_its_own two (fun _ => base) (fun _ => name) _ _ (fun _ => p1) fsDown layoutTwo
  separateTwo cleanObjects (fun _ _ _ h => h) (fun _ _ _ _ _ _ _ h => h.source) sharedTwo true

example := C81_files_in_place (fun _ => life) two (fun _ => base) (fun _ => name) (fun _ => p1) fsDown layoutTwo
  separateTwo cleanObjects sharedTwo

/-- Both have published. -/
example : fsDown.file? (conf.notifPath name) = some (Ext.writeNotif notif1) ∧
    fsDown.file? (confDown.notifPath name) = some (Ext.writeNotif notif1) := by decide +kernel

end

end KSync
