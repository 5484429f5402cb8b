import Verif.Spec.Lock
import Verif.Lemmas.Versions
import Verif.Props.Atomic

/-! # Concurrent processes and the lock -/

set_option linter.unusedSectionVars false
set_option linter.unusedVariables false

namespace KSync

theorem SetUp.refl {c : Config} {f : FS} : SetUp c f f := ⟨id, fun _ => Or.inl rfl⟩

theorem lockFile_ne {c : Config} : c.lockFile ≠ [] := by
  unfold Config.lockFile; simp

theorem lockFile_dropLast {c : Config} : c.lockFile.dropLast = c.stateDir := by
  unfold Config.lockFile; simp

/-- A phase in which the process holds the lock. -/
def Phase.Works : Phase → Prop
  | .working _ => True
  | _ => False

theorem goes_self {s : Sys} {i : Nat} {p : Phase} : (s.goes i p).phase i = p := by
  unfold Sys.goes; simp

theorem goes_ne {s : Sys} {i j : Nat} {p : Phase} (h : j ≠ i) : (s.goes i p).phase j = s.phase j := by
  unfold Sys.goes; simp [h]

theorem goes_fs {s : Sys} {i : Nat} {p : Phase} : (s.goes i p).fs = s.fs := rfl
theorem goes_holder {s : Sys} {i : Nat} {p : Phase} : (s.goes i p).holder = s.holder := rfl

/-- Who works holds the lock, and conversely. -/
def Exclusive (s : Sys) : Prop := ∀ i, (∃ w, s.phase i = .working w) ↔ s.holder = some i

theorem Exclusive.step {c : Config} {prog : Nat → Work} {i : Nat} {s s' : Sys} (h : Exclusive s)
    (hs : Step c prog i s s') : Exclusive s' := by
  have same : ∀ {s0 : Sys} {p : Phase}, s0.phase = s.phase → s0.holder = s.holder →
      (∀ w, s.phase i ≠ .working w) → (∀ w, p ≠ .working w) → Exclusive (s0.goes i p) := by
    intro s0 p h1 h2 h3 h4 j
    rw [goes_holder, h2]
    by_cases hj : j = i
    · subst hj
      rw [goes_self]
      constructor
      · rintro ⟨w, hw⟩; exact absurd hw (h4 w)
      · intro hh; obtain ⟨w, hw⟩ := (h j).2 hh; exact absurd hw (h3 w)
    · rw [goes_ne hj, h1]; exact h j
  have ends : ∀ {p : Phase}, (∀ w, p ≠ .working w) →
      Exclusive ({ s with holder := s.released i }.goes i p) := by
    intro p h4 j
    rw [goes_holder]
    show _ ↔ s.released i = some j
    unfold Sys.released
    by_cases hj : j = i
    · subst hj
      rw [goes_self]
      constructor
      · rintro ⟨w, hw⟩; exact absurd hw (h4 w)
      · intro hh
        split at hh
        · cases hh
        · exact absurd hh (by assumption)
    · rw [goes_ne hj]
      refine (h j).trans ?_
      split
      · rename_i hi
        rw [hi]
        constructor
        · intro hh; cases hh; exact absurd rfl hj
        · intro hh; cases hh
      · exact Iff.rfl
  cases hs with
  | mkdir => exact h
  | made h1 _ => exact same rfl rfl (fun w => by rw [h1]; simp) (fun w => by simp)
  | create h1 _ _ => exact same rfl rfl (fun w => by rw [h1]; simp) (fun w => by simp)
  | «open» h1 _ _ => exact same rfl rfl (fun w => by rw [h1]; simp) (fun w => by simp)
  | lock h1 h2 =>
    intro j
    rw [goes_holder]
    show _ ↔ some i = some j
    by_cases hj : j = i
    · subst hj
      rw [goes_self]
      exact ⟨fun _ => rfl, fun _ => ⟨_, rfl⟩⟩
    · rw [goes_ne hj]
      refine (h j).trans ?_
      rw [h2]
      constructor
      · intro hh; cases hh
      · intro hh; cases hh; exact absurd rfl hj
  | refuse h1 _ => exact same rfl rfl (fun w => by rw [h1]; simp) (fun w => by simp)
  | @work next cont h1 =>
    intro j
    rw [goes_holder]
    show _ ↔ s.holder = some j
    by_cases hj : j = i
    · subst hj
      rw [goes_self]
      exact ⟨fun _ => (h j).1 ⟨_, h1⟩, fun _ => ⟨_, rfl⟩⟩
    · rw [goes_ne hj]; exact h j
  | finish h1 => exact ends (fun w => by simp)
  | stop => exact ends (fun w => by simp)

theorem Exec.exclusive {c : Config} {prog : Nat → Work} {f0 : FS} {s : Sys} (h : Exec c prog f0 s) :
    Exclusive s := by
  induction h with
  | init =>
    intro i
    constructor
    · rintro ⟨w, hw⟩; cases hw
    · intro hh; cases hh
  | step _ hs ih => exact ih.step hs

/-- Only setting up, when not working. -/
theorem Step.setUp {c : Config} {prog : Nat → Work} {i : Nat} {s s' : Sys} (h : Step c prog i s s')
    (hn : ∀ w, s.phase i ≠ .working w) : SetUp c s.fs s'.fs := by
  cases h with
  | @mkdir p h1 h2 h3 h4 h5 =>
    have hne : p ≠ [] := by
      rintro rfl
      exact absurd h4 (by unfold FS.get; simp)
    refine ⟨fun hw => FS.WF.set hw hne h5 (Or.inl rfl), fun q => ?_⟩
    by_cases hq : q = p
    · subst hq
      exact Or.inr ⟨h4, Or.inl ⟨h3, FS.get_set_self _ hne _⟩⟩
    · exact Or.inl (FS.get_set_ne _ _ hq)
  | made => exact SetUp.refl
  | @create t h1 h2 h3 =>
    refine ⟨fun hw => FS.WF.set hw lockFile_ne (lockFile_dropLast ▸ h2)
      (Or.inr (hw.hasChild_of_leaf (by rw [h3]; simp))), fun q => ?_⟩
    by_cases hq : q = c.lockFile
    · subst hq
      exact Or.inr ⟨h3, Or.inr ⟨rfl, t, FS.get_set_self _ lockFile_ne _⟩⟩
    · exact Or.inl (FS.get_set_ne _ _ hq)
  | «open» => exact SetUp.refl
  | lock => exact SetUp.refl
  | refuse => exact SetUp.refl
  | work h1 => exact absurd h1 (hn _)
  | finish h1 => exact absurd h1 (hn _)
  | stop => exact SetUp.refl

theorem SetUp.trans {c : Config} {f g h : FS} (h1 : SetUp c f g) (h2 : SetUp c g h) : SetUp c f h := by
  refine ⟨fun hw => h2.wf (h1.wf hw), fun q => ?_⟩
  rcases h2.only q with a | ⟨a, b⟩
  · rw [a]; exact h1.only q
  · rcases h1.only q with e | ⟨_, e⟩
    · exact Or.inr ⟨e ▸ a, b⟩
    · rcases e with ⟨_, e⟩ | ⟨_, t, e⟩
      · rw [a] at e; cases e
      · rw [a] at e; cases e

theorem SetUp.keeps {c : Config} {f g : FS} (h : SetUp c f g) {q : Path} {n : Node}
    (hq : f.get q = some n) : g.get q = some n := by
  rcases h.only q with a | ⟨a, _⟩
  · rw [a]; exact hq
  · rw [hq] at a; cases a

theorem SetUp.lockThere {c : Config} {f g : FS} (h : SetUp c f g) (hf : LockThere c f) :
    LockThere c g := by
  obtain ⟨h1, b, t, h2⟩ := hf
  exact ⟨h.keeps h1, b, t, h.keeps h2⟩

/-- Once all is there, setting up changes nothing. -/
theorem Step.idle {c : Config} {prog : Nat → Work} {i : Nat} {s s' : Sys} (h : Step c prog i s s')
    (hn : ∀ w, s.phase i ≠ .working w) (hl : LockThere c s.fs) : s'.fs = s.fs := by
  obtain ⟨h1, b, t, h2⟩ := hl
  cases h with
  | mkdir _ h3 _ _ _ =>
    exfalso
    have : s.fs.exists? c.stateDir = true := by
      unfold FS.exists? FS.resolve; rw [h1]; rfl
    rw [this] at h3; cases h3
  | made => rfl
  | create _ _ h3 => rw [h2] at h3; cases h3
  | «open» => rfl
  | lock => rfl
  | refuse => rfl
  | work h1 => exact absurd h1 (hn _)
  | finish h1 => exact absurd h1 (hn _)
  | stop => rfl

/-- As `Serial`, with `J` and the lock where a program starts. -/
inductive SerialFrom (c : Config) (J : FS → Prop) (prog : Nat → Work) (f : FS) :
    List (Nat × Work) → FS → Prop
  | nil : SerialFrom c J prog f [] f
  | cons {l : List (Nat × Work)} {i : Nat} {w : Work} {g g' : FS} : SerialFrom c J prog f l g → J g →
      LockThere c g → Alone (prog i) g w g' → SerialFrom c J prog f ((i, w) :: l) g'

theorem SerialFrom.serial {c : Config} {J : FS → Prop} {prog : Nat → Work} {f f' : FS}
    {l : List (Nat × Work)} (h : SerialFrom c J prog f l f') : Serial prog f l f' := by
  induction h with
  | nil => exact .nil
  | cons _ _ _ h1 ih => exact ih.cons h1

/-- An execution is as good as a serial one. -/
structure SerialTo (c : Config) (J : FS → Prop) (prog : Nat → Work) (f0 f1 : FS)
    (l : List (Nat × Work)) (s : Sys) : Prop where
  setUp : SetUp c f0 f1
  serial : SerialFrom c J prog f1 l s.fs
  once : (l.map (·.1)).Nodup
  working : ∀ i w, s.phase i = .working w → l.head? = some (i, w)
  finished : ∀ i, s.phase i = .finished → (i, Work.done) ∈ l
  began : ∀ e ∈ l, (∃ w, s.phase e.1 = .working w) ∨ s.phase e.1 = .finished ∨ s.phase e.1 = .stopped
  opened : ∀ i, s.phase i = .opened → LockThere c s.fs

theorem Exec.serialTo {c : Config} {prog : Nat → Work} {f0 : FS} {s : Sys} (h : Exec c prog f0 s)
    (J : FS → Prop) (hj : ∀ f, SetUp c f0 f → J f)
    (hJ : ∀ i f w f', J f → LockThere c f → Alone (prog i) f w f' → J f' ∧ LockThere c f') :
    ∃ f1 l, SerialTo c J prog f0 f1 l s := by
  induction h with
  | init =>
    refine ⟨f0, [], SetUp.refl, .nil, List.nodup_nil, ?_, ?_, ?_, ?_⟩
    · intro i w hw; cases hw
    · intro i hw; cases hw
    · intro e he; cases he
    · intro i hw; cases hw
  | @step s s' i he hs ih =>
    obtain ⟨f1, l, ih⟩ := ih
    have hx := he.exclusive
    have now : J s.fs ∧ (l ≠ [] → LockThere c s.fs) := by
      have hser := ih.serial
      have hsu := ih.setUp
      clear ih
      generalize s.fs = g at hser
      cases hser with
      | nil => exact ⟨hj _ hsu, fun h => absurd rfl h⟩
      | cons _ h1 h2 h3 =>
        obtain ⟨a, b⟩ := hJ _ _ _ _ h1 h2 h3
        exact ⟨a, fun _ => b⟩
    by_cases hw : ∃ w, s.phase i = .working w
    · -- a step of the one who holds the lock
      obtain ⟨w, hw⟩ := hw
      have hhead := ih.working i w hw
      have uniq : ∀ j w, j ≠ i → s.phase j ≠ .working w := by
        intro j w hj hjw
        have h1 := (hx j).1 ⟨_, hjw⟩
        rw [(hx i).1 ⟨_, hw⟩] at h1
        cases h1; exact hj rfl
      have hmem : (i, w) ∈ l := by
        match l, hhead with
        | e :: l', hh =>
          simp only [List.head?_cons, Option.some.injEq] at hh
          rw [hh]; exact List.mem_cons_self
      have ends : ∀ {p : Phase}, p = .stopped ∨ (p = .finished ∧ w = .done) →
          SerialTo c J prog f0 f1 l ({ s with holder := s.released i }.goes i p) := by
        intro p hp
        refine ⟨ih.setUp, ih.serial, ih.once, fun j w' hj => ?_, fun j hj => ?_, fun e hel => ?_,
          fun j hj => ?_⟩
        · by_cases hji : j = i
          · subst hji
            rw [goes_self] at hj
            rcases hp with rfl | ⟨rfl, _⟩ <;> cases hj
          · rw [goes_ne hji] at hj
            exact absurd hj (uniq j w' hji)
        · by_cases hji : j = i
          · subst hji
            rw [goes_self] at hj
            rcases hp with rfl | ⟨rfl, rfl⟩
            · cases hj
            · exact hmem
          · rw [goes_ne hji] at hj
            exact ih.finished j hj
        · by_cases hji : e.1 = i
          · rw [hji, goes_self]
            rcases hp with rfl | ⟨rfl, _⟩
            · exact Or.inr (Or.inr rfl)
            · exact Or.inr (Or.inl rfl)
          · rw [goes_ne hji]; exact ih.began e hel
        · by_cases hji : j = i
          · subst hji
            rw [goes_self] at hj
            rcases hp with rfl | ⟨rfl, _⟩ <;> cases hj
          · rw [goes_ne hji] at hj
            exact ih.opened j hj
      cases hs with
      | mkdir h1 => rw [hw] at h1; cases h1
      | made h1 => rw [hw] at h1; cases h1
      | create h1 => rw [hw] at h1; cases h1
      | «open» h1 => rw [hw] at h1; cases h1
      | lock h1 => rw [hw] at h1; cases h1
      | refuse h1 => rw [hw] at h1; cases h1
      | finish h1 =>
        rw [hw] at h1
        injection h1 with h1
        exact ⟨f1, l, ends (Or.inr ⟨rfl, h1⟩)⟩
      | stop => exact ⟨f1, l, ends (Or.inl rfl)⟩
      | @work next cont h1 =>
        rw [hw] at h1
        injection h1 with h1
        subst h1
        match l, hhead, ih with
        | (i', w') :: l', hh, ih =>
          simp only [List.head?_cons, Option.some.injEq, Prod.mk.injEq] at hh
          obtain ⟨rfl, rfl⟩ := hh
          have hser := ih.serial
          cases hser with
          | @cons _ _ _ g _ hs1 h1 h2 ha =>
            have ha' : Alone (prog i') g (cont s.fs) (next s.fs) := ha.step
            have hlk := (hJ _ _ _ _ h1 h2 ha').2
            refine ⟨f1, (i', cont s.fs) :: l', ih.setUp, hs1.cons h1 h2 ha', ih.once,
              fun j w' hj => ?_, fun j hj => ?_, fun e hel => ?_, fun j hj => hlk⟩
            · by_cases hji : j = i'
              · subst hji
                rw [goes_self] at hj
                cases hj
                rfl
              · rw [goes_ne hji] at hj
                exact absurd hj (uniq j w' hji)
            · by_cases hji : j = i'
              · subst hji
                rw [goes_self] at hj; cases hj
              · rw [goes_ne hji] at hj
                rcases List.mem_cons.1 (ih.finished j hj) with h3 | h3
                · cases h3
                · exact List.mem_cons_of_mem _ h3
            · by_cases hji : e.1 = i'
              · rw [hji, goes_self]; exact Or.inl ⟨_, rfl⟩
              · rw [goes_ne hji]
                refine ih.began (e.1, e.2) (List.mem_cons_of_mem _ ?_)
                rcases List.mem_cons.1 hel with h3 | h3
                · rw [h3] at hji; exact absurd rfl hji
                · exact h3
    · have hn : ∀ w, s.phase i ≠ .working w := fun w h => hw ⟨w, h⟩
      have hsu := hs.setUp hn
      -- where the serial run starts, and that it leads to the new file system
      have start : ∃ f2, SetUp c f0 f2 ∧ SerialFrom c J prog f2 l s'.fs := by
        match l, ih, now with
        | [], ih, now =>
          refine ⟨s'.fs, ?_, .nil⟩
          have hser := ih.serial
          generalize hg : s.fs = g at hser
          cases hser
          exact ih.setUp.trans (hg ▸ hsu)
        | e :: l', ih, now =>
          exact ⟨f1, ih.setUp, (hs.idle hn (now.2 (by simp))).symm ▸ ih.serial⟩
      obtain ⟨f2, g1, g2⟩ := start
      have fresh : i ∉ l.map (·.1) ∨ s.phase i = .finished ∨ s.phase i = .stopped := by
        by_cases hm : i ∈ l.map (·.1)
        · obtain ⟨e, he1, he2⟩ := List.mem_map.1 hm
          rcases ih.began e he1 with h3 | h3
          · rw [he2] at h3; exact absurd h3 hw
          · rw [he2] at h3; exact Or.inr h3
        · exact Or.inl hm
      -- a step that changes the phase to one without the lock
      have quiet : ∀ {s0 : Sys} {p : Phase}, s0.phase = s.phase → s0.fs = s'.fs →
          (∀ w, p ≠ .working w) → p ≠ .finished → (p = .opened → LockThere c s'.fs) →
          (p = .stopped ∨ i ∉ l.map (·.1)) → SerialTo c J prog f0 f2 l (s0.goes i p) := by
        intro s0 p h1 h2 h3 h4 h5 h6
        refine ⟨g1, h2 ▸ g2, ih.once, fun j w' hj => ?_, fun j hj => ?_, fun e hel => ?_,
          fun j hj => ?_⟩
        · by_cases hji : j = i
          · subst hji
            rw [goes_self] at hj; exact absurd hj (h3 w')
          · rw [goes_ne hji, h1] at hj; exact ih.working j w' hj
        · by_cases hji : j = i
          · subst hji
            rw [goes_self] at hj; exact absurd hj h4
          · rw [goes_ne hji, h1] at hj; exact ih.finished j hj
        · by_cases hji : e.1 = i
          · rw [hji, goes_self]
            rcases h6 with h6 | h6
            · exact Or.inr (Or.inr h6)
            · exact absurd (List.mem_map.2 ⟨e, hel, hji⟩) h6
          · rw [goes_ne hji, h1]; exact ih.began e hel
        · rw [goes_fs, h2]
          by_cases hji : j = i
          · subst hji
            rw [goes_self] at hj; exact h5 hj
          · rw [goes_ne hji, h1] at hj; exact hsu.lockThere (ih.opened j hj)
      have notIn : ∀ {p : Phase}, s.phase i = p → p ≠ .finished → p ≠ .stopped → i ∉ l.map (·.1) := by
        intro p h1 h2 h3
        rcases fresh with h4 | h4 | h4
        · exact h4
        · rw [h1] at h4; exact absurd h4 h2
        · rw [h1] at h4; exact absurd h4 h3
      cases hs with
      | mkdir h1 =>
        refine ⟨f2, l, g1, g2, ih.once, ih.working, ih.finished, ih.began, fun j hj => ?_⟩
        exact hsu.lockThere (ih.opened j hj)
      | made h1 =>
        exact ⟨f2, l, quiet rfl rfl (by simp) (by simp) (by simp)
          (Or.inr (notIn h1 (by simp) (by simp)))⟩
      | @create t h1 h2 h3 =>
        refine ⟨f2, l, quiet rfl rfl (by simp) (by simp) (fun _ => ⟨hsu.keeps h2, [], t, ?_⟩)
          (Or.inr (notIn h1 (by simp) (by simp)))⟩
        exact FS.get_set_self _ lockFile_ne _
      | @«open» b t h1 h2 h3 =>
        exact ⟨f2, l, quiet rfl rfl (by simp) (by simp) (fun _ => ⟨h2, b, t, h3⟩)
          (Or.inr (notIn h1 (by simp) (by simp)))⟩
      | refuse h1 _ =>
        exact ⟨f2, l, quiet rfl rfl (by simp) (by simp) (by simp)
          (Or.inr (notIn h1 (by simp) (by simp)))⟩
      | finish h1 => exact absurd h1 (hn _)
      | stop => exact ⟨f2, l, quiet rfl rfl (by simp) (by simp) (by simp) (Or.inl rfl)⟩
      | work h1 => exact absurd h1 (hn _)
      | lock h1 h2 =>
        have hlk := ih.opened i h1
        have hni := notIn h1 (by simp) (by simp)
        refine ⟨f2, (i, prog i) :: l, g1, g2.cons now.1 hlk .refl, ?_, fun j w' hj => ?_,
          fun j hj => ?_, fun e hel => ?_, fun j _ => hlk⟩
        · rw [List.map_cons, List.nodup_cons]
          exact ⟨hni, ih.once⟩
        · by_cases hji : j = i
          · subst hji
            rw [goes_self] at hj; cases hj; rfl
          · rw [goes_ne hji] at hj
            have := (hx j).1 ⟨_, hj⟩
            rw [h2] at this; cases this
        · by_cases hji : j = i
          · subst hji
            rw [goes_self] at hj; cases hj
          · rw [goes_ne hji] at hj
            exact List.mem_cons_of_mem _ (ih.finished j hj)
        · by_cases hji : e.1 = i
          · rw [hji, goes_self]; exact Or.inl ⟨_, rfl⟩
          · rw [goes_ne hji]
            rcases List.mem_cons.1 hel with h3 | h3
            · rw [h3] at hji; exact absurd rfl hji
            · exact ih.began e h3

/-! ## Runs of krill-sync -/

theorem SetUp.pristine {c : Config} {name : Str} {f f' : FS} (h : SetUp c f f')
    (hlk : ¬ c.rrdpDir <+: c.lockFile) (hp : Pristine c name f) : Pristine c name f' := by
  have hstate : c.rrdpStatePath ≠ c.lockFile ∧ ¬ c.rrdpStatePath <+: c.stateDir := by
    constructor
    · unfold Config.rrdpStatePath Config.lockFile
      intro h
      have := List.append_cancel_left h
      exact absurd this (by decide)
    · intro h
      have := h.length_le
      unfold Config.rrdpStatePath at this
      rw [List.length_append] at this
      exact absurd this (by simp)
  refine ⟨h.wf hp.wf, ?_, ?_, fun q hq => ?_⟩
  · rcases h.only c.rrdpStatePath with a | ⟨_, ⟨a, _⟩ | ⟨a, _⟩⟩
    · rw [a]; exact hp.noState
    · exact absurd a hstate.2
    · exact absurd a hstate.1
  · have hn := hp.noNotification
    rcases h.only (c.notifPath name) with a | ⟨_, ⟨_, a⟩ | ⟨a, _⟩⟩
    · unfold FS.leaf at *; rw [a]; exact hn
    · unfold FS.leaf; rw [a]
    · exact absurd (a ▸ List.prefix_append _ _) hlk
  · have hn := hp.noLinks q hq
    unfold FS.link? at *
    rcases h.only q with a | ⟨_, ⟨_, a⟩ | ⟨_, t, a⟩⟩
    · rw [a]; exact hn
    · rw [a]
    · rw [a]

theorem History.mono {ι κ : Type} [Ext] {c : Config} {start : ι → FS → Prop} {start' : κ → FS → Prop}
    {ok : ι → ι → Nat → Env → FS → Prop} {ok' : κ → κ → Nat → Env → FS → Prop} {i : ι} {f : FS}
    (g : ι → κ) (h1 : ∀ i f, start i f → start' (g i) f)
    (h2 : ∀ i j d e f, ok i j d e f → ok' (g i) (g j) d e f) (h : History c start ok i f) :
    History c start' ok' (g i) f := by
  induction h with
  | start h => exact .start (h1 _ _ h)
  | run _ h3 h4 ih => exact .run ih (h2 _ _ _ _ _ h3) h4

/-- The lock file and the state directory stay. -/
theorem run_lockThere [Ext] {depth : Nat} {c : Config} {base name : Str} {env : Env} {fs : FS}
    (hc : RunConds c base name env fs) (h1 : ¬ c.rrdpDir <+: c.lockFile)
    (h2 : ¬ c.rsyncDir <+: c.lockFile) {f : FS}
    (hf : f ∈ (process depth c env (World.start fs)).2.crashPoints) :
    f.leaf c.lockFile = fs.leaf c.lockFile ∧ (LockThere c fs → LockThere c f) := by
  have hs : ¬ c.stagingDir <+: c.lockFile ∧ c.lockFile ≠ c.rrdpStatePath ∧
      c.lockFile ≠ c.rsyncStatePath := by
    refine ⟨fun h => ?_, fun h => ?_, fun h => ?_⟩
    · have h' : ["pre-validate-staging".toList] <+: ["krill-sync.lock".toList] :=
        (List.prefix_append_right_inj _).1 h
      exact absurd h' (by decide)
    · exact absurd (List.append_cancel_left h) (by decide)
    · exact absurd (List.append_cancel_left h) (by decide)
  have hleaf := C36_only_configured_directories depth c env fs base name hc f hf c.lockFile h1
    (fun h => h2 h.2) (Or.inr hs)
  refine ⟨hleaf, ?_⟩
  rintro ⟨_, b, t, h3⟩
  have h4 : f.get c.lockFile = some (.file b t) := by
    have : f.leaf c.lockFile = some (.file b t) := by
      rw [hleaf]; unfold FS.leaf; rw [h3]
    unfold FS.leaf at this
    split at this
    · cases this
    · exact this
  refine ⟨?_, b, t, h4⟩
  have hw := ((process_within (depth := depth) (w := World.start fs) hc).crash_frame hc.wf f hf).1
  have := hw.dropLast (p := c.lockFile) (by rw [h4]; simp)
  rw [lockFile_dropLast] at this
  exact this

/-- The states of a history over a sensible source, as far as needed here. -/
theorem Updates.invariant [Ext] {c : Config} {base name : Str} {f : FS} (hl : Layout c base name)
    (ho : c.rsyncEnabled = true → CleanObjects c.rsyncIncludeHost) (h : Updates c base name f) :
    Invariant (ι := Unit) c base name (fun _ _ => True) (fun _ _ => True) () f := by
  have hi : Inductive (ι := Unit) c base name (fun _ _ _ env fs => GoodSource c base name env fs)
      (fun _ _ => True) (fun _ _ => True) :=
    ⟨fun _ _ _ _ _ h => h, fun _ => trivial, fun _ _ _ => trivial, fun _ _ _ _ _ _ _ _ => trivial,
      fun _ _ _ _ _ _ _ _ => trivial, fun _ _ _ _ _ _ _ _ _ _ _ _ _ _ _ _ _ _ _ => trivial,
      fun _ _ _ _ _ _ _ _ _ _ _ _ _ _ _ _ _ _ _ _ _ => trivial⟩
  exact History.invariant hl ho hi h

theorem Updates.conds [Ext] {c : Config} {base name : Str} {f : FS} (hl : Layout c base name)
    (ho : c.rsyncEnabled = true → CleanObjects c.rsyncIncludeHost) (h : Updates c base name f)
    {env : Env} (hs : GoodSource c base name env f) : RunConds c base name env f :=
  (h.invariant hl ho).conds hl ho hs

end KSync
