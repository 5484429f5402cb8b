import Verif.Lemmas.Lock
import Verif.Examples.Life

/-!
# Several processes (property C33)

`Exec` (Verif/Model/Main.lean) is what any number of processes with the same state directory can bring
about in any interleaving, with failures and crashes at any time.
-/

set_option linter.unusedVariables false

namespace KSync

/-- **C33, mutual exclusion.** At most one process at a time is past the lock. -/
theorem C33_mutual_exclusion (c : Config) (prog : Nat → Work) (f0 : FS) (s : Sys)
    (h : Exec c prog f0 s) (i j : Nat) (w w' : Work) (hi : s.phase i = .working w)
    (hj : s.phase j = .working w') : i = j := by
  have h1 := (h.exclusive i).1 ⟨w, hi⟩
  have h2 := (h.exclusive j).1 ⟨w', hj⟩
  rw [h1] at h2
  injection h2

/-- **C33, without the lock.** A step of a process that is not past the lock changes nothing, except that
it may create the state directory (and its parents) or the lock file when they are missing. -/
theorem C33_harmless_without_lock (c : Config) (prog : Nat → Work) (s s' : Sys) (i : Nat)
    (h : Step c prog i s s') (hn : ∀ w, s.phase i ≠ .working w) : SetUp c s.fs s'.fs :=
  h.setUp hn

/-- **C33, serialisation.** Whatever the processes do when they have the lock, as long as it keeps the
state directory and the lock file: every interleaving has the effect of setting up the state directory and
then running, one after the other and each alone, the programs of those that got the lock.  Each of them
ran once; those that finished ran to their end; those that were refused did not run. -/
theorem C33_serial (c : Config) (prog : Nat → Work) (f0 : FS) (s : Sys)
    (hkeep : ∀ i f w f', LockThere c f → Alone (prog i) f w f' → LockThere c f')
    (h : Exec c prog f0 s) :
    ∃ f1 l, SetUp c f0 f1 ∧ Serial prog f1 l s.fs ∧ (l.map (·.1)).Nodup ∧
      (∀ i w, s.phase i = .working w → l.head? = some (i, w)) ∧
      (∀ i, s.phase i = .finished → (i, Work.done) ∈ l) ∧
      (∀ i, s.phase i = .refused → i ∉ l.map (·.1)) := by
  obtain ⟨f1, l, h1⟩ := h.serialTo (fun _ => True) (fun _ _ => trivial)
    (fun i f w f' _ h2 h3 => ⟨trivial, hkeep i f w f' h2 h3⟩)
  refine ⟨f1, l, h1.setUp, h1.serial.serial, h1.once, h1.working, h1.finished, fun i hi hm => ?_⟩
  obtain ⟨e, he, rfl⟩ := List.mem_map.1 hm
  rcases h1.began e he with ⟨w, h2⟩ | h2 | h2
  · rw [hi] at h2; cases h2
  · rw [hi] at h2; cases h2
  · rw [hi] at h2; cases h2

/-- **C33, the lock file stays.** A run never changes the lock file or removes the state directory, so
that the lock remains what it is. -/
theorem C33_lock_file_stays [Ext] (depth : Nat) (c : Config) (env : Env) (fs : FS) (base name : Str)
    (hc : RunConds c base name env fs) (h1 : ¬ c.rrdpDir <+: c.lockFile)
    (h2 : ¬ c.rsyncDir <+: c.lockFile) :
    ∀ f ∈ (process depth c env (World.start fs)).2.crashPoints,
      f.leaf c.lockFile = fs.leaf c.lockFile ∧ (LockThere c fs → LockThere c f) :=
  fun f hf => run_lockThere hc h1 h2 hf

/-- **C33, runs.** Any number of processes, each doing what the model of a run does when it has the lock:
in every interleaving the file system is, at every instant, one that a sequence of runs of these processes
can leave behind (each of them completed, failed or interrupted).  So everything that is proved about
histories of runs holds with concurrent processes. -/
theorem C33_runs_one_after_another [Ext] (c : Config) (base name : Str) (depth : Nat → Nat)
    (env : Nat → Env) (prog : Nat → Work) (f0 : FS) (s : Sys) (hl : Layout c base name)
    (ho : c.rsyncEnabled = true → CleanObjects c.rsyncIncludeHost)
    (h1 : ¬ c.rrdpDir <+: c.lockFile) (h2 : ¬ c.rsyncDir <+: c.lockFile)
    (h0 : Pristine c name f0) (himp : ∀ i, Implements (depth i) c (env i) (prog i))
    (hsrc : ∀ i f, GoodSource c base name (env i) f) (h : Exec c prog f0 s) :
    (∃ f1, SetUp c f0 f1 ∧ History (ι := Unit) c (fun _ f => f = f1)
      (fun _ _ d e _ => ∃ i, d = depth i ∧ e = env i) () s.fs) ∧
    Updates c base name s.fs := by
  have hJ : ∀ i f w f', Updates c base name f → LockThere c f → Alone (prog i) f w f' →
      Updates c base name f' ∧ LockThere c f' := by
    intro i f w f' g1 g2 g3
    rcases himp i f w f' g3 with rfl | hcp
    · exact ⟨g1, g2⟩
    exact ⟨History.run (i := ()) g1 (hsrc i f) hcp,
      (run_lockThere (g1.conds hl ho (hsrc i f)) h1 h2 hcp).2 g2⟩
  obtain ⟨f1, l, g⟩ := h.serialTo (Updates c base name)
    (fun f hf => History.start (i := ()) (hf.pristine h1 h0)) hJ
  have hist : History (ι := Unit) c (fun _ f => f = f1)
      (fun _ _ d e _ => ∃ i, d = depth i ∧ e = env i) () s.fs := by
    have hser := g.serial.serial
    generalize s.fs = f at hser
    clear g
    induction hser with
    | nil => exact .start rfl
    | cons _ ha ih =>
      rcases himp _ _ _ _ ha with rfl | hcp
      · exact ih
      · exact .run (i := ()) ih ⟨_, rfl, rfl⟩ hcp
  refine ⟨⟨f1, g.setUp, hist⟩, ?_⟩
  refine hist.mono (fun _ => ()) (fun _ f hf => ?_) ?_
  · rw [hf]; exact g.setUp.pristine h1 h0
  · rintro _ _ d e f ⟨i, rfl, rfl⟩
    exact hsrc i f

/-! ## The hypotheses can be met -/

section

open Demo

set_option maxRecDepth 100000

/-- A run as a program in small steps: looks at the file system, then makes the changes of the run. -/
def replay : List FS → Work
  | [] => .done
  | f :: fs => .act (fun _ => f) (fun _ => replay fs)

def runOf [Ext] (depth : Nat) (c : Config) (env : Env) : Work :=
  .act id (fun f => replay (process depth c env (World.start f)).2.crashPoints.reverse)

theorem implements_runOf [Ext] (depth : Nat) (c : Config) (env : Env) :
    Implements depth c env (runOf depth c env) := by
  intro f w' f' h
  have key : (w' = runOf depth c env ∧ f' = f) ∨ ∃ l, w' = replay l ∧
      (∀ x ∈ l, x ∈ (process depth c env (World.start f)).2.crashPoints) ∧
      (f' = f ∨ f' ∈ (process depth c env (World.start f)).2.crashPoints) := by
    induction h with
    | refl => exact Or.inl ⟨rfl, rfl⟩
    | @step next cont g _ ih =>
      rcases ih with ⟨h1, h2⟩ | ⟨l, h1, h2, h3⟩
      · subst h2
        injection h1 with h1 h4
        refine Or.inr ⟨_, by rw [h4], fun x hx => List.mem_reverse.1 hx, Or.inl ?_⟩
        rw [h1]; rfl
      · match l, h1, h2 with
        | [], h1, _ => cases h1
        | x :: l, h1, h2 =>
          injection h1 with h1 h4
          refine Or.inr ⟨l, by rw [h4], fun y hy => h2 y (List.mem_cons_of_mem _ hy), Or.inr ?_⟩
          rw [h1]; exact h2 x List.mem_cons_self
  rcases key with ⟨_, h1⟩ | ⟨_, _, _, h1⟩
  · exact Or.inl h1
  · exact h1

namespace Demo

/-- Two processes: 0 finds version 1, all others version 2. -/
def envOf : Nat → Env
  | 0 => envAt 0 notif1
  | _ => envAt 1 notif2

def progOf (i : Nat) : Work := runOf 5 conf (envOf i)

theorem goodSourceOf (i : Nat) (f : FS) : GoodSource conf base name (envOf i) f := by
  match i with
  | 0 => exact goodSource (by decide)
  | _ + 1 => exact goodSource (by decide)

def fsS : FS := fs0.set conf.stateDir .dir
def fsL : FS := fsS.set conf.lockFile (.file [] 0)

/-- Process 0 creates the state directory and the lock file and gets the lock; process 1 is refused. -/
theorem exec01 : ∃ s, Exec conf progOf fs0 s ∧ s.phase 0 = .working (progOf 0) ∧
    s.phase 1 = .refused ∧ s.fs = fsL := by
  have h1 := (Exec.init (c := conf) (prog := progOf) (f0 := fs0)).step
    (Step.mkdir (i := 0) (p := conf.stateDir) rfl (by decide) (by decide) (by decide) (by decide))
  have h2 := h1.step (Step.made (i := 0) rfl (by decide))
  have h3 := h2.step (Step.made (i := 1) rfl (by decide))
  have h4 := h3.step (Step.create (i := 0) (t := 0) rfl (by decide) (by decide))
  have h5 := h4.step (Step.open (i := 1) (b := []) (t := 0) rfl (by decide) (by decide))
  have h6 := h5.step (Step.lock (i := 0) rfl rfl)
  have h7 := h6.step (Step.refuse (i := 1) (j := 0) rfl rfl)
  exact ⟨_, h7, rfl, rfl, rfl⟩

end Demo

example := fun s h => C33_runs_one_after_another conf base name (fun _ => 5) envOf progOf fs0 s layout
  (fun _ => cleanObjects _) (by decide) (by decide) pristine0 (fun i => implements_runOf 5 conf (envOf i))
  goodSourceOf h

example (s : Sys) (h : Exec conf progOf fs0 s) (h0 : s.phase 0 = .working (progOf 0)) (w : Work)
    (h1 : s.phase 7 = .working w) : (0 : Nat) = 7 :=
  C33_mutual_exclusion conf progOf fs0 s h 0 7 _ _ h0 h1

example := C33_lock_file_stays 5 conf (envAt 1 notif2) fs1 base name (runConds1 1) (by decide) (by decide)

/-- A program that keeps the state directory and the lock file: it removes another file. -/
def Demo.eraser : Work := .act (fun f => f.del ["x".toList]) (fun _ => .done)

theorem Demo.eraser_keeps (f : FS) (w : Work) (f' : FS) (h : LockThere conf f)
    (ha : Alone eraser f w f') : LockThere conf f' := by
  have key : (w = eraser ∧ f' = f) ∨ (w = .done ∧ f' = f.del ["x".toList]) := by
    induction ha with
    | refl => exact Or.inl ⟨rfl, rfl⟩
    | step _ ih =>
      rcases ih with ⟨h1, h2⟩ | ⟨h1, _⟩
      · subst h2
        injection h1 with h1 h3
        subst h1 h3
        exact Or.inr ⟨rfl, rfl⟩
      · cases h1
  rcases key with ⟨_, rfl⟩ | ⟨_, rfl⟩
  · exact h
  · obtain ⟨h1, b, t, h2⟩ := h
    refine ⟨?_, b, t, ?_⟩
    · rw [FS.get_del_ne _ (by decide)]; exact h1
    · rw [FS.get_del_ne _ (by decide)]; exact h2

example := fun s h => C33_serial conf (fun _ => eraser) fs0 s (fun _ f w f' h1 h2 => eraser_keeps f w f' h1 h2) h

example : SetUp conf fs0 fsS :=
  C33_harmless_without_lock conf progOf ⟨fs0, none, fun _ => .start⟩ ⟨fsS, none, fun _ => .start⟩ 0
    (Step.mkdir (p := conf.stateDir) rfl (by decide) (by decide) (by decide) (by decide))
    (fun w h => by cases h)

end

end KSync
