import Verif.Lemmas.RemoveUp
import Verif.Lemmas.Publish

/-! # Nothing in the way

A plan says where files, directories and links are meant to be.  As long as a file system fits the
plan, operations that follow the plan neither break it nor fail. -/

set_option linter.unusedSectionVars false
set_option linter.unusedVariables false

namespace KSync

/-- Where files, directories and links are meant to be.  If there is a link at `tmp`, it leads to a
directory in `hold`. -/
structure Plan where
  file : Path → Prop
  dir : Path → Prop
  link : Path → Prop
  tmp : Path
  hold : Path

/-- The plan makes sense. -/
structure Plan.Sound (P : Plan) : Prop where
  nonempty : ∀ p, P.file p → p ≠ []
  parent : ∀ p, P.file p → P.dir p.dropLast
  up : ∀ p q, P.dir p → q <+: p → P.dir q
  fileDir : ∀ p, P.file p → ¬ P.dir p
  fileLink : ∀ p, P.file p → ¬ P.link p
  dirLink : ∀ p, P.dir p → ¬ P.link p
  linkRoot : ∀ p, P.link p → p ≠ []
  tmp : P.link P.tmp
  hold : ∀ t, ¬ P.file (P.hold ++ [t])

/-- `n` may be at `q`. -/
def Plan.Fits (P : Plan) (q : Path) (n : Node) : Prop :=
  (P.file q → ∃ b t, n = .file b t) ∧ (P.dir q → n = .dir) ∧ (P.link q → ∃ t, n = .link t)

/-- The file system follows the plan. -/
structure Plan.Good (P : Plan) (f : FS) : Prop where
  fits : ∀ q n, f.get q = some n → P.Fits q n
  anchored : ∀ t, f.get P.tmp = some (.link t) → f.get (P.hold ++ [t]) = some .dir

/-- Directories in `hold` stay. -/
def Plan.Holds (P : Plan) (f f' : FS) : Prop :=
  ∀ t, f.get (P.hold ++ [t]) = some .dir → f'.get (P.hold ++ [t]) = some .dir

/-- A change that follows the plan. -/
def Plan.Step (P : Plan) (f f' : FS) : Prop := P.Good f → P.Good f' ∧ P.Holds f f'

section
variable {P : Plan}

theorem Plan.Step.refl (f : FS) : P.Step f f := fun h => ⟨h, fun _ h => h⟩

theorem Plan.Step.trans {a b c : FS} (h1 : P.Step a b) (h2 : P.Step b c) : P.Step a c := by
  intro h
  obtain ⟨g1, g2⟩ := h1 h
  obtain ⟨g3, g4⟩ := h2 g1
  exact ⟨g3, fun t ht => g4 t (g2 t ht)⟩

theorem Steps.plan {w w' : World} (h : Steps P.Step w w') : P.Step w.cur w'.cur :=
  h.ends (fun f => Plan.Step.refl f) (fun _ _ _ => Plan.Step.trans)

namespace Plan

theorem Sound.fitsFile (hP : P.Sound) {q : Path} (h : P.file q) (b : Bytes) (t : Time) :
    P.Fits q (.file b t) :=
  ⟨fun _ => ⟨b, t, rfl⟩, fun hd => (hP.fileDir q h hd).elim, fun hl => (hP.fileLink q h hl).elim⟩

theorem Sound.fitsDir (hP : P.Sound) {q : Path} (h : P.dir q) : P.Fits q .dir :=
  ⟨fun hf => (hP.fileDir q hf h).elim, fun _ => rfl, fun hl => (hP.dirLink q h hl).elim⟩

theorem Sound.fitsLink (hP : P.Sound) {q : Path} (h : P.link q) (t : Name) : P.Fits q (.link t) :=
  ⟨fun hf => (hP.fileLink q hf h).elim, fun hd => (hP.dirLink q hd h).elim, fun _ => ⟨t, rfl⟩⟩

/-- One entry is set to something that fits. -/
theorem Good.set {f : FS} (h : P.Good f) {q : Path} {n : Node} (hq : q ≠ []) (hn : P.Fits q n)
    (h1 : q ≠ P.tmp) (h2 : ∀ t, q = P.hold ++ [t] → f.get q = some .dir → n = .dir) :
    P.Good (f.set q n) ∧ P.Holds f (f.set q n) := by
  have hh : P.Holds f (f.set q n) := by
    intro t ht
    by_cases he : P.hold ++ [t] = q
    · rw [he, FS.get_set_self _ hq, h2 t he.symm (he ▸ ht)]
    · rw [FS.get_set_ne _ _ he]; exact ht
  refine ⟨⟨fun r m hr => ?_, fun t ht => ?_⟩, hh⟩
  · by_cases he : r = q
    · subst he
      rw [FS.get_set_self _ hq] at hr
      cases hr; exact hn
    · rw [FS.get_set_ne _ _ he] at hr
      exact h.fits r m hr
  · rw [FS.get_set_ne _ _ (Ne.symm h1)] at ht
    exact hh t (h.anchored t ht)

theorem Good.setFile (hP : P.Sound) {f : FS} (h : P.Good f) {p : Path} (hp : P.file p) (b : Bytes)
    (t : Time) : P.Good (f.set p (.file b t)) ∧ P.Holds f (f.set p (.file b t)) :=
  h.set (hP.nonempty p hp) (hP.fitsFile hp b t) (fun he => hP.fileLink p hp (he ▸ hP.tmp))
    (fun t he => (hP.hold t (he ▸ hp)).elim)

theorem Good.mkdir (hP : P.Sound) {f : FS} (h : P.Good f) {p : Path} (hp : P.dir p)
    (hn : f.get p = none) : P.Good (f.set p .dir) ∧ P.Holds f (f.set p .dir) := by
  refine h.set ?_ (hP.fitsDir hp) (fun he => hP.dirLink p hp (he ▸ hP.tmp)) (fun _ _ _ => rfl)
  rintro rfl
  simp [FS.get] at hn

/-- Removing an entry that is not in `hold`. -/
theorem Good.del {f : FS} (h : P.Good f) {q : Path} (hq : ∀ t, q ≠ P.hold ++ [t]) :
    P.Good (f.del q) ∧ P.Holds f (f.del q) := by
  have hh : P.Holds f (f.del q) := fun t ht => by
    rw [FS.get_del_ne _ (Ne.symm (hq t))]; exact ht
  refine ⟨⟨fun r m hr => ?_, fun t ht => ?_⟩, hh⟩
  · by_cases he : r = q
    · subst he
      by_cases h0 : r = []
      · subst h0
        simp [FS.get] at hr
        subst hr
        exact h.fits [] .dir (by simp)
      · rw [FS.get_del_self _ h0] at hr; cases hr
    · rw [FS.get_del_ne _ he] at hr
      exact h.fits r m hr
  · by_cases he : P.tmp = q
    · by_cases h0 : q = []
      · rw [he, h0] at ht; simp [FS.get] at ht
      · rw [he, FS.get_del_self _ h0] at ht; cases ht
    · rw [FS.get_del_ne _ he] at ht
      exact hh t (h.anchored t ht)

theorem Good.congr {f f' : FS} (h : P.Good f) (he : ∀ r, f'.get r = f.get r) : P.Good f' :=
  ⟨fun q n hq => h.fits q n (he q ▸ hq), fun t ht => by rw [he] at *; exact h.anchored t ht⟩

theorem Good.parentDir {f : FS} (h : P.Good f) {p : Path} (hp : P.dir p) (hn : f.get p ≠ none) :
    f.get p = some .dir := by
  match hg : f.get p with
  | none => exact (hn hg).elim
  | some n => rw [(h.fits p n hg).2.1 hp]

theorem Good.file_of {f : FS} (h : P.Good f) {p : Path} (hp : P.file p) (hn : f.get p ≠ none) :
    ∃ b t, f.get p = some (.file b t) := by
  match hg : f.get p with
  | none => exact (hn hg).elim
  | some n =>
    obtain ⟨b, t, rfl⟩ := (h.fits p n hg).1 hp
    exact ⟨b, t, rfl⟩

theorem Good.not_dir {f : FS} (h : P.Good f) {p : Path} (hp : P.file p) : f.get p ≠ some .dir := by
  intro hg
  obtain ⟨b, t, he⟩ := (h.fits p _ hg).1 hp
  cases he

end Plan

/-! ## Operations that follow the plan -/

theorem mkdir1_tidy (hP : P.Sound) {q : Path} (hq : P.dir q) : Does P.Step (mkdir1 q) := by
  intro env w
  unfold mkdir1
  rw [getFs_bind]
  split
  · exact Steps.refl
  · exact Steps.refl
  · rename_i hg
    rw [io_bind]
    by_cases hf : env.fault w.tick
    · rw [if_pos hf]; exact .same rfl rfl
    · rw [if_neg hf]
      split
      · exact Steps.trans (w1 := { w with tick := w.tick + 1 }) (.same rfl rfl)
          (Steps.of_push (env := env) (fun h => h.mkdir hP hq hg))
      · exact .same rfl rfl

theorem createDirAll_tidy (hP : P.Sound) {p : Path} (hp : P.dir p) : Does P.Step (createDirAll p) :=
  Rel.forEach (fun q hq => mkdir1_tidy hP (hP.up p q hp (prefix_of_mem_prefixes hq)))

theorem createPathForFile_tidy (hP : P.Sound) {p : Path} (hp : P.file p) :
    Does P.Step (createPathForFile p) := by
  unfold createPathForFile
  split
  · exact Rel.throw _
  · exact createDirAll_tidy hP (hP.parent p hp)

theorem fileCreate_tidy (hP : P.Sound) {p : Path} (hp : P.file p) : Does P.Step (fileCreate p) := by
  unfold fileCreate
  refine io_getFs_does (fun n env w => ?_)
  by_cases h : p = [] ∨ w.cur.get p.dropLast ≠ some .dir
  · rw [if_pos h]; exact Steps.refl
  · rw [if_neg h]
    split
    · exact Steps.refl
    · exact Steps.refl
    · exact Steps.of_push (env := env) (fun hg => hg.setFile hP hp _ _)

theorem writeAll_tidy (hP : P.Sound) {p : Path} (hp : P.file p) (b : Bytes) :
    Does P.Step (writeAll p b) := by
  intro env w
  refine writeAll_steps p b env w (fun f i t hf hg => ?_)
  have h0 := hP.nonempty p hp
  rcases hf with rfl | ⟨j, t', rfl⟩
  · exact hg.setFile hP hp _ _
  · have key : ∀ r, (w.cur.set p (.file (b.take i) t)).get r =
        ((w.cur.set p (.file (b.take j) t')).set p (.file (b.take i) t)).get r := by
      intro r
      by_cases hr : r = p
      · subst hr; rw [FS.get_set_self _ h0, FS.get_set_self _ h0]
      · rw [FS.get_set_ne _ _ hr, FS.get_set_ne _ _ hr, FS.get_set_ne _ _ hr]
    have := hg.setFile hP hp (b.take i) t
    exact ⟨this.1.congr key, fun r hr => by rw [key]; exact this.2 r hr⟩

theorem writeBuf_tidy (hP : P.Sound) {p : Path} (hp : P.file p) (b : Bytes) :
    Does P.Step (writeBuf p b) := by
  unfold writeBuf createFile
  have h1 := createPathForFile_tidy hP hp
  have h2 := fileCreate_tidy hP hp
  have h3 := writeAll_tidy hP hp b
  rel_auto

theorem setMtime_tidy (hP : P.Sound) {p : Path} (hp : P.file p) (t : Time) :
    Does P.Step (setMtime p t) := by
  unfold setMtime
  refine io_getFs_does (fun n env w => ?_)
  split
  · exact Steps.of_push (env := env) (fun hg => hg.setFile hP hp _ _)
  · exact Steps.refl

theorem removeFile_tidy {p : Path} (hp : ∀ t, p ≠ P.hold ++ [t]) : Does P.Step (removeFile p) := by
  unfold removeFile
  refine io_getFs_does (fun n env w => ?_)
  split
  · exact Steps.of_push (env := env) (fun hg => hg.del hp)
  · exact Steps.of_push (env := env) (fun hg => hg.del hp)
  · exact Steps.refl

theorem removeDir_tidy {p : Path} (hp : ∀ t, p ≠ P.hold ++ [t]) : Does P.Step (removeDir p) := by
  unfold removeDir
  refine io_getFs_does (fun n env w => ?_)
  by_cases h : p ≠ [] ∧ w.cur.get p = some .dir ∧ w.cur.hasChild p = false
  · rw [if_pos h]
    exact Steps.of_push (env := env) (fun hg => hg.del hp)
  · rw [if_neg h]
    exact Steps.refl

theorem removeUp_tidy {n : Nat} {p : Path} (hp : ∀ t, ¬ P.hold ++ [t] <+: p) :
    Does P.Step (removeUp n p) := by
  induction n generalizing p with
  | zero =>
    have h : ∀ t, p ≠ P.hold ++ [t] := fun t he => hp t (he ▸ List.prefix_refl _)
    unfold removeUp
    refine Rel.bind Rel.getFs (fun fs => ?_)
    split
    · exact removeFile_tidy h
    · split
      · exact removeDir_tidy h
      · exact Rel.pure _
  | succ n ih =>
    have h : ∀ t, p ≠ P.hold ++ [t] := fun t he => hp t (he ▸ List.prefix_refl _)
    unfold removeUp
    refine Rel.bind Rel.getFs (fun fs => Rel.bind ?_ (fun _ => Rel.bind (Rel.attempt ?_) (fun _ => Rel.pure _)))
    · split
      · exact removeFile_tidy h
      · split
        · exact removeDir_tidy h
        · exact Rel.pure _
    · exact ih (fun t ht => hp t (ht.trans (List.dropLast_prefix p)))

theorem Plan.Sound.file_ne_hold (hP : P.Sound) {p : Path} (hp : P.file p) :
    ∀ t, p ≠ P.hold ++ [t] := fun t he => hP.hold t (he ▸ hp)

/-- Renaming a file. -/
theorem rename_tidy (hP : P.Sound) {a b : Path} (ha : P.file a) (hb : P.file b) :
    Does P.Step (rename a b) := by
  intro env w
  have h := rename_end a b env w
  generalize rename a b env w = r at h
  cases h with
  | failed e => exact .same rfl rfl
  | noop => exact .same rfl rfl
  | movedDir _ _ _ h4 => exact .push .refl (fun hg => (hg.not_dir ha h4).elim) rfl
  | movedFile n h1 h2 h3 h4 h5 h6 h7 =>
    refine .push .refl (fun hg => ?_) rfl
    obtain ⟨b', t, hn⟩ := hg.file_of ha (by rw [h4]; exact fun h => by cases h)
    rw [h4] at hn
    cases hn
    obtain ⟨g1, g2⟩ := hg.del (hP.file_ne_hold ha)
    obtain ⟨g3, g4⟩ := g1.setFile hP hb b' t
    exact ⟨g3, fun t ht => g4 t (g2 t ht)⟩

theorem copyFile_tidy (hP : P.Sound) {a b : Path} (hb : P.file b) : Does P.Step (copyFile a b) := by
  unfold copyFile
  have h0 : Does P.Step (logCopy b) := Rel.quiet (logCopy_same b)
  have h1 : Does P.Step (readFile a) := Rel.quiet (readFile_same a)
  have h2 := fileCreate_tidy hP hb
  have h3 := writeAll_tidy hP hb
  rel_auto

theorem moveFile_tidy (hP : P.Sound) {a b : Path} {rel : Str} (ha : P.file (joinPath a rel))
    (hb : P.file (joinPath b rel)) : Does P.Step (moveFile a b rel) := by
  unfold moveFile
  have h1 := createPathForFile_tidy hP hb
  have h2 := rename_tidy hP ha hb
  have h3 := copyFile_tidy (a := joinPath a rel) hP hb
  have h4 := removeFile_tidy (hP.file_ne_hold ha)
  dsimp only
  rel_auto

/-! ## Operations that follow the plan do not fail -/

/-- The program ends normally. -/
def Goes {α : Type} (m : M α) (env : Env) (w : World) : Prop := ∃ a w', m env w = (.ok a, w')

theorem Goes.pure {α : Type} {a : α} {env : Env} {w : World} : Goes (Pure.pure a : M α) env w :=
  ⟨a, w, rfl⟩

theorem Goes.bind {α β : Type} {m : M α} {f : α → M β} {env : Env} {w : World} (h : Goes m env w)
    (hf : ∀ a w1, m env w = (.ok a, w1) → Goes (f a) env w1) : Goes (m >>= f) env w := by
  obtain ⟨a, w1, h1⟩ := h
  obtain ⟨b, w2, h2⟩ := hf a w1 h1
  exact ⟨b, w2, by rw [M.bind_of_ok h1, h2]⟩

/-- Every step of a loop goes, given what holds before and after every step. -/
theorem Goes.forEach {α : Type} {l : List α} {f : α → M Unit} {env : Env} {I : World → Prop}
    (hf : ∀ a ∈ l, ∀ w, I w → Goes (f a) env w) (hI : ∀ a ∈ l, ∀ w, I w → I (f a env w).2)
    {w : World} (hw : I w) : Goes (M.forEach l f) env w := by
  induction l generalizing w with
  | nil => exact ⟨(), _, rfl⟩
  | cons a l ih =>
    refine Goes.bind (m := f a) (f := fun _ => M.forEach l f) (hf a (by simp) _ hw) (fun _ w1 h1 => ?_)
    refine ih (fun b hb => hf b (by simp [hb])) (fun b hb => hI b (by simp [hb])) ?_
    have := hI a (by simp) _ hw
    rw [h1] at this
    exact this

theorem Goes.forEach_concat {α : Type} {l : List α} {a : α} {f : α → M Unit} {env : Env} {w w1 : World}
    (h : M.forEach l f env w = (.ok (), w1)) : M.forEach (l ++ [a]) f env w = f a env w1 := by
  induction l generalizing w with
  | nil =>
    cases h
    show (f a >>= fun _ => M.pure ()) env _ = _
    rw [M.bind_run]
    split
    · rename_i h; rw [h]; rfl
    · rename_i h; rw [h]
  | cons b l ih =>
    obtain ⟨_, w2, h1, h2⟩ := M.bind_ok'.1 h
    show (f b >>= fun _ => M.forEach (l ++ [a]) f) env w = _
    rw [M.bind_of_ok h1]
    exact ih h2

theorem io_goes {env : Env} (hf : NoFaults env) (w : World) :
    io env w = (.ok w.tick, { w with tick := w.tick + 1 }) := by
  unfold io
  simp only
  rw [if_neg (by rw [hf]; exact Bool.false_ne_true)]

theorem mkdir1_goes (hP : P.Sound) {q : Path} (hq : P.dir q) {env : Env} (hf : NoFaults env) {w : World}
    (hg : P.Good w.cur) (hd : q = [] ∨ w.cur.get q.dropLast = some .dir) :
    ∃ w', mkdir1 q env w = (.ok (), w') ∧ w'.cur.get q = some .dir := by
  unfold mkdir1
  rw [getFs_bind]
  match h : w.cur.get q with
  | some .dir => exact ⟨w, rfl, h⟩
  | some (.file b t) => have := (hg.fits q _ h).2.1 hq; cases this
  | some (.link t) => have := (hg.fits q _ h).2.1 hq; cases this
  | none =>
    have hne : q ≠ [] := by rintro rfl; simp [FS.get] at h
    dsimp only
    rw [M.bind_of_ok (io_goes hf w), if_pos (hd.resolve_left hne)]
    exact ⟨_, rfl, FS.get_set_self _ hne _⟩

theorem createDirAll_goes (hP : P.Sound) {p : Path} (hp : P.dir p) {env : Env} (hf : NoFaults env)
    {w : World} (hg : P.Good w.cur) : Goes (createDirAll p) env w := by
  have key : ∀ k, k ≤ p.length + 1 → ∃ w', M.forEach ((List.range k).map p.take) mkdir1 env w = (.ok (), w') ∧
      P.Good w'.cur ∧ (k = 0 ∨ w'.cur.get (p.take (k - 1)) = some .dir) := by
    intro k
    induction k with
    | zero => exact fun _ => ⟨w, rfl, hg, Or.inl rfl⟩
    | succ k ih =>
      intro hk
      obtain ⟨w1, h1, h2, h3⟩ := ih (by omega)
      have hd : P.dir (p.take k) := hP.up p _ hp (List.take_prefix _ _)
      obtain ⟨w2, h4, h5⟩ := mkdir1_goes hP hd hf h2 (by
        rcases h3 with rfl | h3
        · exact Or.inl rfl
        · by_cases h0 : k = 0
          · subst h0; exact Or.inl rfl
          · right
            have hk' : k ≤ p.length := by omega
            rw [List.dropLast_eq_take, List.length_take, List.take_take,
              show min (min k p.length - 1) k = k - 1 by omega]
            exact h3)
      refine ⟨w2, ?_, ?_, Or.inr h5⟩
      · rw [List.range_succ, List.map_append]
        exact (Goes.forEach_concat h1).trans h4
      · have := (mkdir1_tidy hP hd env w1).plan h2
        rw [h4] at this
        exact this.1
  obtain ⟨w', h, _⟩ := key (p.length + 1) (Nat.le_refl _)
  exact ⟨(), w', h⟩

theorem createPathForFile_goes (hP : P.Sound) {p : Path} (hp : P.file p) {env : Env} (hf : NoFaults env)
    {w : World} (hg : P.Good w.cur) : Goes (createPathForFile p) env w := by
  unfold createPathForFile
  rw [if_neg (hP.nonempty p hp)]
  exact createDirAll_goes hP (hP.parent p hp) hf hg

theorem createPathForFile_parent {p : Path} (hp : p ≠ []) {env : Env} {w w' : World}
    (h : createPathForFile p env w = (.ok (), w')) : w'.cur.get p.dropLast = some .dir := by
  unfold createPathForFile at h
  rw [if_neg hp] at h
  exact (createDirAll_ok h).1

theorem fileCreate_goes (hP : P.Sound) {p : Path} (hp : P.file p) {env : Env} (hf : NoFaults env)
    {w : World} (hg : P.Good w.cur) (hd : w.cur.get p.dropLast = some .dir) :
    Goes (fileCreate p) env w := by
  unfold fileCreate
  refine Goes.bind ⟨_, _, io_goes hf w⟩ (fun n w1 h1 => ?_)
  rw [io_goes hf w] at h1
  cases h1
  refine Goes.bind (m := getFs) ⟨_, _, rfl⟩ (fun fs w1 h1 => ?_)
  cases h1
  rw [if_neg (by
    rintro (h | h)
    · exact hP.nonempty p hp h
    · exact h hd)]
  match h : w.cur.get p with
  | some .dir => exact (hg.not_dir hp h).elim
  | some (.link t) => obtain ⟨_, _, he⟩ := (hg.fits p _ h).1 hp; cases he
  | none => exact ⟨_, _, rfl⟩
  | some (.file b t) => exact ⟨_, _, rfl⟩

theorem writeAll_goes {p : Path} (b : Bytes) {env : Env} (hf : NoFaults env) (w : World) :
    Goes (writeAll p b) env w := by
  unfold writeAll
  rw [Goes]
  simp only [tick_bind, askEnv_bind, getFs_bind]
  rw [if_neg (by rw [hf]; exact Bool.false_ne_true)]
  exact ⟨_, _, pushAll_run ..⟩

theorem writeBuf_goes (hP : P.Sound) {p : Path} (hp : P.file p) (b : Bytes) {env : Env}
    (hf : NoFaults env) {w : World} (hg : P.Good w.cur) : Goes (writeBuf p b) env w := by
  unfold writeBuf createFile
  refine Goes.bind (Goes.bind (createPathForFile_goes hP hp hf hg) (fun _ w1 h1 => ?_))
    (fun _ w2 h2 => writeAll_goes b hf w2)
  have := (createPathForFile_tidy hP hp env w).plan hg
  rw [h1] at this
  exact fileCreate_goes hP hp hf this.1 (createPathForFile_parent (hP.nonempty p hp) h1)

theorem rename_goes {a b : Path} {env : Env} (hf : NoFaults env) {w : World} {n : Node}
    (ha : w.cur.get a = some n) (hn : n ≠ .dir) (ha0 : a ≠ []) (hb0 : b ≠ [])
    (hd : w.cur.get b.dropLast = some .dir) (hb : w.cur.get b ≠ some .dir) :
    Goes (rename a b) env w := by
  unfold rename
  refine Goes.bind ⟨_, _, io_goes hf w⟩ (fun k w1 h1 => ?_)
  rw [io_goes hf w] at h1
  cases h1
  refine Goes.bind (m := getFs) ⟨_, _, rfl⟩ (fun fs w1 h1 => ?_)
  cases h1
  rw [if_neg (by
    rintro (h | h | h)
    · exact ha0 h
    · exact hb0 h
    · exact h hd)]
  have fin : Goes (match w.cur.get b with
      | some .dir => M.throw .io
      | _ => if a = b then Pure.pure () else push ((w.cur.del a).set b n)) env
      { w with tick := w.tick + 1 } := by
    match h : w.cur.get b with
    | some .dir => exact (hb h).elim
    | none => dsimp only; split <;> exact ⟨_, _, rfl⟩
    | some (.file _ _) => dsimp only; split <;> exact ⟨_, _, rfl⟩
    | some (.link _) => dsimp only; split <;> exact ⟨_, _, rfl⟩
  dsimp only
  rw [ha]
  match n, hn with
  | .file _ _, _ => exact fin
  | .link _, _ => exact fin

theorem removeFile_goes {p : Path} {env : Env} (hf : NoFaults env) {w : World} {n : Node}
    (hp : w.cur.get p = some n) (hn : n ≠ .dir) : Goes (removeFile p) env w := by
  unfold removeFile
  refine Goes.bind ⟨_, _, io_goes hf w⟩ (fun k w1 h1 => ?_)
  rw [io_goes hf w] at h1
  cases h1
  refine Goes.bind (m := getFs) ⟨_, _, rfl⟩ (fun fs w1 h1 => ?_)
  cases h1
  dsimp only
  rw [hp]
  match n, hn with
  | .file _ _, _ => exact ⟨_, _, rfl⟩
  | .link _, _ => exact ⟨_, _, rfl⟩

theorem removeUp_goes {n : Nat} {p : Path} {env : Env} (hf : NoFaults env) {w : World} {b : Bytes} {t : Time}
    (hp : w.cur.get p = some (.file b t)) : Goes (removeUp n p) env w := by
  have hfile : w.cur.isFile p = true := by
    unfold FS.isFile FS.resolve
    rw [hp]
  cases n with
  | zero =>
    unfold removeUp
    refine Goes.bind (m := getFs) ⟨_, _, rfl⟩ (fun fs w1 h1 => ?_)
    cases h1
    rw [if_pos hfile]
    exact removeFile_goes hf hp (by simp)
  | succ n =>
    unfold removeUp
    refine Goes.bind (m := getFs) ⟨_, _, rfl⟩ (fun fs w1 h1 => ?_)
    cases h1
    rw [if_pos hfile]
    exact Goes.bind (removeFile_goes hf hp (by simp)) (fun _ _ _ => ⟨_, _, rfl⟩)

theorem moveFile_goes (hP : P.Sound) {a b : Path} {rel : Str} (ha : P.file (joinPath a rel))
    (hb : P.file (joinPath b rel)) {env : Env} (hf : NoFaults env) {w : World} (hg : P.Good w.cur)
    (hx : w.cur.get (joinPath a rel) ≠ none) : Goes (moveFile a b rel) env w := by
  rw [moveFile_eq]
  refine Goes.bind (createPathForFile_goes hP hb hf hg) (fun _ w1 h1 => ?_)
  have h2 := (createPathForFile_tidy hP hb env w).plan hg
  rw [h1] at h2
  obtain ⟨x, t, hx'⟩ := hg.file_of ha hx
  have h3 : w1.cur.get (joinPath a rel) = some (.file x t) := by
    have := (createPathForFile_mkdirs (joinPath b rel) env w).mkdirs (joinPath a rel)
    rw [h1] at this
    rcases this with h | ⟨_, h, _⟩
    · rw [← hx']; exact h
    · exact (hx h).elim
  unfold moveTail
  refine Goes.bind (m := getFs) ⟨_, _, rfl⟩ (fun fs w2 h4 => ?_)
  cases h4
  have he : w1.cur.exists? (joinPath a rel) = true := by
    unfold FS.exists? FS.resolve
    rw [h3]; rfl
  rw [if_neg (by rw [he]; exact fun h => by cases h)]
  obtain ⟨u, w3, h5⟩ := rename_goes hf h3 (by simp) (hP.nonempty _ ha) (hP.nonempty _ hb)
    (createPathForFile_parent (hP.nonempty _ hb) h1) (h2.1.not_dir hb)
  refine ⟨(), w3, ?_⟩
  rw [attempt_bind, h5]
  rfl

end

end KSync
