import Verif.Spec.Upstream

/-!
# Vocabulary for lines of installations, each of which gets its files from the one before

Used to state C92.
-/

namespace KSync

variable [Ext]

/-- The installation `cp` is as it should be when its disk is `x`: it follows some source that keeps to the RFC. -/
structure GoodParent (σ : Nat → Notif) (life : SourceLife) (cp : Config) (base name : Str) (i : Progress × Nat)
    (x : FS) : Prop where
  layout : Layout cp base name
  objects : cp.rsyncEnabled = true → CleanObjects cp.rsyncIncludeHost
  rfc : FollowsRfc σ
  names : ∀ m, GoodNotif base name (σ m)
  whole : ∀ m b, Ext.sha b = (σ m).snapHash → (Ext.streamSnapshot b).2 = true
  mirroring : Mirroring σ life cp base name i x

/-- The installation `c`, whose disk is `f`, is as it should be for a run in the surroundings `env`. -/
structure GoodChild (life : SourceLife) (T : SourceTree) (c : Config) (base name : Str) (q q' : Progress)
    (depth : Nat) (env : Env) (f : FS) : Prop where
  layout : Layout c base name
  tidy : T.Tidy name
  objects : c.rsyncEnabled = true → CleanObjects c.rsyncIncludeHost
  symlinks : c.rsyncEnabled = true → c.rsyncUseSymlinks = true
  limit : c.rrdpMaxDeltas ≠ some 0
  before : TidyLifetime life T c base name q f
  states : StatesWhole c f
  run : TidyRun life T c base name q q' depth env f
  noFaults : NoFaults env
  childrenFirst : ChildrenFirst env
  passes : Passes depth c env f

/-- From the disk `x` of the installation `a` to the disk `y` of the installation `b`: each of the installations in
between, and `b`, has had one run, in which it got its files from the one before it, whose own run had ended then.
Those before may have gone on running while the files were fetched. -/
inductive Line (base name : Str) (a : Config) (x : FS) : Nat → Config → FS → Prop
  | here : Line base name a x 0 a x
  | down {k : Nat} {cp c : Config} {y f : FS} {σ : Nat → Notif} {life life' : SourceLife} {T : SourceTree}
      {t0 : Time} {i : Progress × Nat} {q q' : Progress} {depth : Nat} {env : Env} :
      Line base name a x k cp y → GoodParent σ life cp base name i y →
      ServedBy life cp base name t0 i.1 y c env → GoodChild life' T c base name q q' depth env f →
      Line base name a x (k + 1) c (process depth c env (World.start f)).2.cur

end KSync
