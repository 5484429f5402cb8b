import Verif.Spec.Basic
import Verif.Lemmas.Sort

/-!
# Reasoning about runs

Inversion of successful runs, and relations between the world before and after a run
that compose (`Rel`).
-/

set_option linter.unusedSectionVars false

namespace KSync

/-! ## Results of runs -/

section Inversion

variable {α β : Type} {env : Env} {w w' : World}

@[simp] theorem M.pure_run (a : α) : (Pure.pure a : M α) env w = (.ok a, w) := rfl
@[simp] theorem M.pure_run' (a : α) : (M.pure a : M α) env w = (.ok a, w) := rfl
@[simp] theorem M.throw_run (e : Err) : (M.throw e : M α) env w = (.error e, w) := rfl
@[simp] theorem M.lift_ok (a : α) : (M.lift (.ok a) : M α) = M.pure a := rfl
@[simp] theorem M.lift_error (e : Err) : (M.lift (.error e) : M α) = M.throw e := rfl
@[simp] theorem M.orThrow_some (e : Err) (a : α) : M.orThrow e (some a) = M.pure a := rfl
@[simp] theorem M.orThrow_none (e : Err) : (M.orThrow e none : M α) = M.throw e := rfl
@[simp] theorem getFs_run : getFs env w = (.ok w.cur, w) := rfl

theorem M.bind_run (m : M α) (f : α → M β) :
    (m >>= f) env w = match m env w with
      | (.ok a, w') => f a env w'
      | (.error e, w') => (.error e, w') := rfl

theorem M.bind_eq (m : M α) (f : α → M β) : M.bind m f = m >>= f := rfl

/-- A sequence succeeds iff both parts do. -/
theorem M.bind_ok {m : M α} {f : α → M β} {b : β} :
    (m >>= f) env w = (.ok b, w') ↔
      ∃ a w1, m env w = (.ok a, w1) ∧ f a env w1 = (.ok b, w') := by
  rw [M.bind_run]
  constructor
  · intro h
    split at h
    · exact ⟨_, _, by assumption, h⟩
    · simp at h
  · rintro ⟨a, w1, h1, h2⟩
    rw [h1]; exact h2

theorem M.bind_ok' {m : M α} {f : α → M β} {b : β} :
    (M.bind m f) env w = (.ok b, w') ↔
      ∃ a w1, m env w = (.ok a, w1) ∧ f a env w1 = (.ok b, w') := M.bind_ok

theorem M.bind_of_ok {m : M α} {f : α → M β} {a : α} {w1 : World} (h : m env w = (.ok a, w1)) :
    (m >>= f) env w = f a env w1 := by rw [M.bind_run, h]

theorem M.bind_of_error {m : M α} {f : α → M β} {e : Err} {w1 : World}
    (h : m env w = (.error e, w1)) : (m >>= f) env w = (.error e, w1) := by rw [M.bind_run, h]

/-- A sequence either stops in its first part or goes on. -/
theorem M.bind_cases (m : M α) (f : α → M β) (env : Env) (w : World) :
    (∃ e w1, m env w = (.error e, w1) ∧ (m >>= f) env w = (.error e, w1)) ∨
    (∃ a w1, m env w = (.ok a, w1) ∧ (m >>= f) env w = f a env w1) := by
  cases h : m env w with
  | mk r w1 =>
    cases r with
    | ok a => exact Or.inr ⟨a, w1, rfl, M.bind_of_ok h⟩
    | error e => exact Or.inl ⟨e, w1, rfl, M.bind_of_error h⟩

theorem M.pure_ok {a b : α} : (Pure.pure a : M α) env w = (.ok b, w') ↔ a = b ∧ w = w' := by
  simp

theorem M.pure_ok' {a b : α} : (M.pure a : M α) env w = (.ok b, w') ↔ a = b ∧ w = w' := by
  simp

theorem M.throw_ok {e : Err} {b : α} : ¬ (M.throw e : M α) env w = (.ok b, w') := by
  simp

theorem M.lift_ok_iff {r : Except Err α} {b : α} :
    (M.lift r) env w = (.ok b, w') ↔ r = .ok b ∧ w = w' := by
  cases r <;> simp

theorem M.orThrow_ok_iff {r : Option α} {e : Err} {b : α} :
    (M.orThrow e r) env w = (.ok b, w') ↔ r = some b ∧ w = w' := by
  cases r <;> simp

theorem M.attempt_run (m : M α) : M.attempt m env w = (.ok (m env w).1, (m env w).2) := rfl

@[simp] theorem getFs_bind (f : FS → M β) : (getFs >>= f) env w = f w.cur env w := rfl
@[simp] theorem askEnv_bind (f : Env → M β) : (askEnv >>= f) env w = f env env w := rfl
@[simp] theorem pure_bind_run (a : α) (f : α → M β) : ((Pure.pure a : M α) >>= f) env w = f a env w := rfl
@[simp] theorem tick_bind (f : Nat → M β) :
    (tick >>= f) env w = f w.tick env { w with tick := w.tick + 1 } := rfl
@[simp] theorem now_bind (f : Time → M β) :
    (now >>= f) env w = f (env.clock w.tick) env { w with tick := w.tick + 1 } := rfl
@[simp] theorem now_run :
    now env w = (.ok (env.clock w.tick), { w with tick := w.tick + 1 }) := rfl
@[simp] theorem secondsAgo_run (s : Int) :
    secondsAgo s env w = (.ok (env.clock w.tick - s), { w with tick := w.tick + 1 }) := rfl
@[simp] theorem push_run (fs : FS) :
    push fs env w = (.ok (), { w with cur := fs, past := w.cur :: w.past }) := rfl
@[simp] theorem attempt_bind (m : M α) (f : Except Err α → M β) :
    (M.attempt m >>= f) env w = f (m env w).1 env (m env w).2 := rfl

theorem io_bind (f : Nat → M β) :
    (io >>= f) env w = if env.fault w.tick then (.error .io, { w with tick := w.tick + 1 })
      else f w.tick env { w with tick := w.tick + 1 } := by
  rw [M.bind_run]
  unfold io
  by_cases h : env.fault w.tick <;> simp [h]

theorem getFs_ok {fs : FS} : getFs env w = (.ok fs, w') ↔ fs = w.cur ∧ w' = w := by
  rw [getFs_run]
  constructor
  · intro h; cases h; exact ⟨rfl, rfl⟩
  · rintro ⟨rfl, rfl⟩; rfl

end Inversion

/-! ## Relations that compose -/

/-- Reflexive and transitive relations on worlds. -/
class Tr (T : World → World → Prop) : Prop where
  refl : ∀ w, T w w
  trans : ∀ {a b c}, T a b → T b c → T a c

/-- `m` relates the world before to the world after, however it ends. -/
def Rel (T : World → World → Prop) (m : M α) : Prop := ∀ env w, T w (m env w).2

section Rel

variable {α β : Type} {T : World → World → Prop} [Tr T]

theorem Rel.pure (a : α) : Rel T (Pure.pure a : M α) := fun _ w => Tr.refl w
theorem Rel.pure' (a : α) : Rel T (M.pure a : M α) := fun _ w => Tr.refl w
theorem Rel.throw (e : Err) : Rel T (M.throw e : M α) := fun _ w => Tr.refl w
theorem Rel.getFs : Rel T getFs := fun _ w => Tr.refl w
theorem Rel.askEnv : Rel T askEnv := fun _ w => Tr.refl w

theorem Rel.bind {m : M α} {f : α → M β} (hm : Rel T m) (hf : ∀ a, Rel T (f a)) :
    Rel T (m >>= f) := by
  intro env w
  rcases M.bind_cases m f env w with ⟨e, w1, h1, h2⟩ | ⟨a, w1, h1, h2⟩
  · rw [h2]; have := hm env w; rw [h1] at this; exact this
  · rw [h2]
    have := hm env w
    rw [h1] at this
    exact Tr.trans this (hf a env w1)

theorem Rel.bind' {m : M α} {f : α → M β} (hm : Rel T m) (hf : ∀ a, Rel T (f a)) :
    Rel T (M.bind m f) := Rel.bind hm hf

/-- Like `bind`, the second part knowing the value comes from the first. -/
theorem Rel.bindOk {m : M α} {f : α → M β} (hm : Rel T m)
    (hf : ∀ env w a w1, m env w = (.ok a, w1) → T w1 (f a env w1).2) :
    Rel T (m >>= f) := by
  intro env w
  rcases M.bind_cases m f env w with ⟨e, w1, h1, h2⟩ | ⟨a, w1, h1, h2⟩
  · rw [h2]; have := hm env w; rw [h1] at this; exact this
  · rw [h2]
    have := hm env w
    rw [h1] at this
    exact Tr.trans this (hf env w a w1 h1)

theorem Rel.getFs_bind {f : FS → M β} (hf : ∀ env w, T w (f w.cur env w).2) :
    Rel T (KSync.getFs >>= f) := fun env w => hf env w

theorem Rel.attempt {m : M α} (hm : Rel T m) : Rel T (M.attempt m) := fun env w => hm env w

theorem Rel.lift (r : Except Err α) : Rel T (M.lift r) := by
  cases r
  · exact Rel.throw _
  · exact Rel.pure' _

theorem Rel.orThrow (e : Err) (r : Option α) : Rel T (M.orThrow e r) := by
  cases r
  · exact Rel.throw _
  · exact Rel.pure' _

theorem Rel.forEach {l : List α} {f : α → M Unit} (hf : ∀ a ∈ l, Rel T (f a)) :
    Rel T (M.forEach l f) := by
  induction l with
  | nil => exact Rel.pure' _
  | cons a l ih =>
    exact Rel.bind' (hf a (by simp)) (fun _ => ih (fun b hb => hf b (by simp [hb])))

theorem Rel.mono {T' : World → World → Prop} {m : M α} (h : Rel T m)
    (hT : ∀ w w', T w w' → T' w w') : Rel T' m := fun env w => hT _ _ (h env w)

end Rel

/-- Both relations hold. -/
theorem Rel.and {T U : World → World → Prop} {m : M α} (h1 : Rel T m) (h2 : Rel U m) :
    Rel (fun w w' => T w w' ∧ U w w') m := fun env w => ⟨h1 env w, h2 env w⟩

/-! ## File system changes -/

/-- `w'` is reached from `w` by changes of the file system, each within `R`. -/
inductive Steps (R : FS → FS → Prop) : World → World → Prop
  | same {w w'} : w'.cur = w.cur → w'.past = w.past → Steps R w w'
  | push {w w1 w'} : Steps R w w1 → R w1.cur w'.cur → w'.past = w1.cur :: w1.past →
      Steps R w w'

namespace Steps

variable {R R' : FS → FS → Prop} {w w1 w2 w' : World}

theorem trans (h1 : Steps R w w1) (h2 : Steps R w1 w2) : Steps R w w2 := by
  induction h2 with
  | same h h' =>
    cases h1 with
    | same g g' => exact .same (h.trans g) (h'.trans g')
    | push g g' g'' => exact .push g (h ▸ g') (h'.trans g'')
  | push _ h h' ih => exact .push ih h h'

instance : Tr (Steps R) := ⟨fun _ => .same rfl rfl, trans⟩

theorem mono (h : ∀ f f', R f f' → R' f f') (hs : Steps R w w') : Steps R' w w' := by
  induction hs with
  | same a b => exact .same a b
  | push _ h1 h2 ih => exact .push ih (h _ _ h1) h2

theorem and (h1 : Steps R w w') (h2 : Steps R' w w') :
    Steps (fun f f' => R f f' ∧ R' f f') w w' := by
  induction h1 with
  | same a b => exact .same a b
  | @push w1 w' g1 g2 g3 ih =>
    cases h2 with
    | same a b =>
      -- the list of past states cannot be both longer and equal
      exfalso
      have hlen : ∀ {R : FS → FS → Prop} {w w' : World}, Steps R w w' →
          w.past.length ≤ w'.past.length := by
        intro R w w' h
        induction h with
        | same _ b => rw [b]; exact Nat.le_refl _
        | push _ _ c ih => rw [c]; simp; omega
      have := hlen g1
      rw [g3] at b
      have := congrArg List.length b
      simp at this
      omega
    | @push w2 _ k1 k2 k3 =>
      have heq : w1.cur :: w1.past = w2.cur :: w2.past := g3.symm.trans k3
      have hc : w1.cur = w2.cur := (List.cons.inj heq).1
      have hp : w1.past = w2.past := (List.cons.inj heq).2
      refine .push (ih (k1.trans (.same hc hp))) ⟨g2, hc ▸ k2⟩ g3

/-- A property kept by every change holds at every new crash point. -/
theorem crash {I : FS → Prop} (h : Steps R w w') (hI : ∀ f f', I f → R f f' → I f')
    (h0 : I w.cur) : I w'.cur ∧ ∀ f ∈ w'.past, f ∈ w.past ∨ I f := by
  induction h with
  | same a b => exact ⟨a ▸ h0, fun f hf => Or.inl (b ▸ hf)⟩
  | push _ h1 h2 ih =>
    obtain ⟨i1, i2⟩ := ih
    refine ⟨hI _ _ i1 h1, fun f hf => ?_⟩
    rw [h2] at hf
    rcases List.mem_cons.1 hf with rfl | hf
    · exact Or.inr i1
    · exact i2 f hf

theorem keep {I : FS → Prop} (h : Steps (fun f f' => I f → I f') w w') (h0 : I w.cur) :
    I w'.cur ∧ ∀ f ∈ w'.past, f ∈ w.past ∨ I f :=
  h.crash (fun _ _ hi hr => hr hi) h0

/-- A reflexive transitive relation holds between the file systems at the ends. -/
theorem ends (h : Steps R w w') (hr : ∀ f, R f f)
    (ht : ∀ a b c, R a b → R b c → R a c) : R w.cur w'.cur := by
  induction h with
  | same a _ => rw [a]; exact hr _
  | push _ h1 _ ih => exact ht _ _ _ ih h1

theorem refl : Steps R w w := .same rfl rfl

end Steps

/-- All changes made by `m` are within `R`. -/
abbrev Does (R : FS → FS → Prop) (m : M α) : Prop := Rel (Steps R) m

theorem Does.mono {R R' : FS → FS → Prop} {m : M α} (h : Does R m)
    (hR : ∀ f f', R f f' → R' f f') : Does R' m :=
  Rel.mono (T := Steps R) h (fun _ _ => Steps.mono hR)

theorem Steps.of_push {R : FS → FS → Prop} {w : World} {fs : FS} {env : Env}
    (h : R w.cur fs) : Steps R w (KSync.push fs env w).2 := .push .refl h rfl

/-- The file systems a run started on `fs` passes through. -/
theorem crashPoints_start {R : FS → FS → Prop} {fs : FS} {w' : World} {I : FS → Prop}
    (h : Steps R (World.start fs) w') (hI : ∀ f f', I f → R f f' → I f') (h0 : I fs) :
    ∀ f ∈ w'.crashPoints, I f := by
  obtain ⟨h1, h2⟩ := h.crash hI h0
  intro f hf
  rcases List.mem_cons.1 hf with rfl | hf
  · exact h1
  · rcases h2 f hf with h | h
    · simp [World.start] at h
    · exact h

end KSync
