import Verif.Spec.Order
import Verif.Lemmas.Ca
import Verif.Lemmas.Latest
import Verif.Lemmas.Reports

/-! # The order in which objects are looked at -/

set_option linter.unusedSectionVars false
set_option linter.unusedVariables false

namespace KSync

variable [Ext]

/-! ## Computations with only one result -/

section
variable {t : Time} {serve : Req → HttpResp} {f : FS}

/-- In file system `f`, the computation always has the result `r`, and leaves the files alone. -/
def Det (t : Time) (serve : Req → HttpResp) (f : FS) (m : M α) (r : Except Err α) : Prop :=
  ∀ env, Steadily t serve env → ∀ w : World, w.cur = f → ∃ w', m env w = (r, w') ∧ w'.cur = f

/-- The computation has only one result. -/
def Fixed (t : Time) (serve : Req → HttpResp) (f : FS) (m : M α) : Prop :=
  ∃ r, Det t serve f m r

theorem Det.pure (a : α) : Det t serve f (M.pure a) (.ok a) := fun _ _ w hw => ⟨w, rfl, hw⟩

theorem Det.pure' (a : α) : Det t serve f (Pure.pure a : M α) (.ok a) := Det.pure a

theorem Det.throw (e : Err) : Det t serve f (M.throw e : M α) (.error e) :=
  fun _ _ w hw => ⟨w, rfl, hw⟩

theorem Det.bind {m : M α} {g : α → M β} {a : α} {r : Except Err β} (h : Det t serve f m (.ok a))
    (h' : Det t serve f (g a) r) : Det t serve f (m >>= g) r := by
  intro env he w hw
  obtain ⟨w1, h1, hw1⟩ := h env he w hw
  obtain ⟨w2, h2, hw2⟩ := h' env he w1 hw1
  exact ⟨w2, by rw [M.bind_of_ok h1]; exact h2, hw2⟩

theorem Det.bind_error {m : M α} {g : α → M β} {e : Err} (h : Det t serve f m (.error e)) :
    Det t serve f (m >>= g) (.error e) := by
  intro env he w hw
  obtain ⟨w1, h1, hw1⟩ := h env he w hw
  refine ⟨w1, ?_, hw1⟩
  show M.bind m g env w = _
  simp only [M.bind, h1]

theorem Det.attempt {m : M α} {r : Except Err α} (h : Det t serve f m r) :
    Det t serve f (M.attempt m) (.ok r) := by
  intro env he w hw
  obtain ⟨w1, h1, hw1⟩ := h env he w hw
  exact ⟨w1, by simp only [M.attempt, h1], hw1⟩

/-- A steady environment, to run a computation in. -/
def steadyEnv (t : Time) (serve : Req → HttpResp) : Env where
  fault := fun _ => false
  torn := fun _ => 0
  clock := fun _ => t
  prio := fun _ _ => 0
  http := fun _ r => serve r
  script := fun _ _ => none

theorem steadyEnv_ok : Steadily t serve (steadyEnv t serve) := ⟨fun _ => rfl, fun _ => rfl, fun _ _ => rfl⟩

theorem Det.unique {m : M α} {r r' : Except Err α} (h : Det t serve f m r)
    (h' : Det t serve f m r') : r = r' := by
  obtain ⟨w1, h1, _⟩ := h _ steadyEnv_ok (World.start f) rfl
  obtain ⟨w2, h2, _⟩ := h' _ steadyEnv_ok (World.start f) rfl
  rw [h1] at h2
  injection h2

namespace Fixed

theorem pure (a : α) : Fixed t serve f (M.pure a) := ⟨_, Det.pure a⟩
theorem pure' (a : α) : Fixed t serve f (Pure.pure a : M α) := ⟨_, Det.pure a⟩
theorem throw (e : Err) : Fixed t serve f (M.throw e : M α) := ⟨_, Det.throw e⟩

theorem bind' {m : M α} {g : α → M β} (h : Fixed t serve f m) (h' : ∀ a, Fixed t serve f (g a)) :
    Fixed t serve f (m >>= g) := by
  obtain ⟨r, hr⟩ := h
  cases r with
  | ok a =>
    obtain ⟨r', hr'⟩ := h' a
    exact ⟨r', hr.bind hr'⟩
  | error e => exact ⟨_, hr.bind_error⟩

theorem bind {m : M α} {g : α → M β} (h : Fixed t serve f m) (h' : ∀ a, Fixed t serve f (g a)) :
    Fixed t serve f (M.bind m g) := bind' h h'

theorem attempt {m : M α} (h : Fixed t serve f m) : Fixed t serve f (M.attempt m) := by
  obtain ⟨r, hr⟩ := h
  exact ⟨_, hr.attempt⟩

theorem lift (r : Except Err α) : Fixed t serve f (M.lift r) := by
  cases r
  · exact throw _
  · exact pure _

theorem orThrow (e : Err) (o : Option α) : Fixed t serve f (M.orThrow e o) := by
  cases o
  · exact throw _
  · exact pure _

end Fixed

theorem now_det : Det t serve f now (.ok t) := by
  intro env he w hw
  refine ⟨{ w with tick := w.tick + 1 }, ?_, hw⟩
  show (Except.ok (env.clock w.tick), _) = _
  rw [he.clock]

theorem httpGet_det (r : Req) : Det t serve f (httpGet r) (.ok (serve r)) := by
  intro env he w hw
  refine ⟨{ w with tick := w.tick + 1, reqs := r :: w.reqs }, ?_, hw⟩
  show (Except.ok (env.http w.tick r), _) = _
  rw [he.http]

theorem readFile_fixed (p : Path) : Fixed t serve f (readFile p) := by
  refine ⟨match f.resolve p with
    | some (.file b _) => .ok b
    | _ => .error .io, fun env he w hw => ⟨{ w with tick := w.tick + 1 }, ?_, hw⟩⟩
  unfold readFile
  have hn := he.noFault w.tick
  subst hw
  simp only [Bind.bind, M.bind, io, hn, getFs, Bool.false_eq_true, if_false]
  generalize w.cur.resolve p = o
  match o with
  | none => rfl
  | some (.file b _) => rfl
  | some .dir => rfl
  | some (.link _) => rfl

/-- One step in a proof that a computation has only one result. -/
syntax "fixed_step" : tactic
macro_rules | `(tactic| fixed_step) => `(tactic| split)
macro_rules | `(tactic| fixed_step) => `(tactic| with_reducible exact Fixed.pure _)
macro_rules | `(tactic| fixed_step) => `(tactic| with_reducible exact Fixed.pure' _)
macro_rules | `(tactic| fixed_step) => `(tactic| with_reducible exact Fixed.throw _)
macro_rules | `(tactic| fixed_step) => `(tactic| with_reducible exact Fixed.lift _)
macro_rules | `(tactic| fixed_step) => `(tactic| with_reducible exact Fixed.orThrow _ _)
macro_rules | `(tactic| fixed_step) => `(tactic| with_reducible apply Fixed.attempt)
macro_rules | `(tactic| fixed_step) => `(tactic| with_reducible refine Fixed.bind ?_ (fun _ => ?_))
macro_rules | `(tactic| fixed_step) => `(tactic| with_reducible refine Fixed.bind' ?_ (fun _ => ?_))
macro_rules | `(tactic| fixed_step) => `(tactic| with_reducible solve_by_elim)

macro "fixed_auto" : tactic => `(tactic| repeat' fixed_step)

theorem fetch_fixed (src : FetchSource) (hash : Option Hash) (etag : Option Str) :
    Fixed t serve f (src.fetch hash etag none) := by
  have h1 := fun r => (⟨_, httpGet_det (t := t) (serve := serve) (f := f) r⟩ : Fixed t serve f (httpGet r))
  have h2 := readFile_fixed (t := t) (serve := serve) (f := f)
  have h3 : Fixed t serve f (src.raw etag) := by
    unfold FetchSource.raw; fixed_auto
  unfold FetchSource.fetch
  fixed_auto

theorem tryIntoData_fixed (r : FetchResponse) : Fixed t serve f r.tryIntoData := by
  unfold FetchResponse.tryIntoData; fixed_auto

theorem readNotification_fixed (x : Fetcher) (etag : Option Str) :
    Fixed t serve f (x.readNotification etag) := by
  have h := fetch_fixed (t := t) (serve := serve) (f := f)
  unfold Fetcher.readNotification; fixed_auto

theorem readBytes_fixed (x : Fetcher) (u : Str) (hash : Hash) :
    Fixed t serve f (readBytes x u hash) := by
  have h := fetch_fixed (t := t) (serve := serve) (f := f)
  have h' := tryIntoData_fixed (t := t) (serve := serve) (f := f)
  unfold readBytes; fixed_auto

theorem dataFromSnapshot_fixed (n : Notif) (etag : Option Str) (x : Fetcher) (time : Time) :
    Fixed t serve f (dataFromSnapshot n etag x time) := by
  have h := readBytes_fixed (t := t) (serve := serve) (f := f)
  unfold dataFromSnapshot; fixed_auto

theorem retrieveNew_fixed (x : Fetcher) (time : Time) : Fixed t serve f (retrieveNew x time) := by
  have h := readNotification_fixed (t := t) (serve := serve) (f := f)
  have h' := dataFromSnapshot_fixed (t := t) (serve := serve) (f := f)
  unfold retrieveNew; fixed_auto

theorem applyDeltas_fixed (x : Fetcher) : (is : List DeltaInfo) → (d : RepoData) →
    Fixed t serve f (applyDeltas x d is)
  | [], d => by unfold applyDeltas; exact Fixed.pure' _
  | i :: is, d => by
    have h := readBytes_fixed (t := t) (serve := serve) (f := f)
    have ih := applyDeltas_fixed x is
    unfold applyDeltas; fixed_auto

theorem updateFromDeltas_fixed (n : Notif) (etag : Option Str) (d : RepoData) (x : Fetcher)
    (time : Time) : Fixed t serve f (updateFromDeltas n etag d x time) := by
  have h := applyDeltas_fixed (t := t) (serve := serve) (f := f)
  unfold updateFromDeltas; fixed_auto

theorem validateAt_fixed (x : Tal) (time : Time) : Fixed t serve f (x.validateAt time) := by
  have h := fetch_fixed (t := t) (serve := serve) (f := f)
  have h' := tryIntoData_fixed (t := t) (serve := serve) (f := f)
  unfold Tal.validateAt; fixed_auto

end

/-! ## One repository -/

/-- What `get_latest` does with the data of one repository: the answer, and the data left. -/
def entry (x : Fetcher) (o : Option RepoData) (offline : Bool) (time : Time) :
    M (Except Err RepoData × Option RepoData) :=
  match o with
  | none =>
    if offline then pure (.error .repo, none)
    else do
      let r ← M.attempt (retrieveNew x time)
      match r with
      | .ok d => pure (.ok d, some d)
      | .error e => pure (.error e, none)
  | some d =>
    if d.fetched then pure (.ok d, some d)
    else
      let marked := { d with fetched := true }
      if offline then pure (.ok marked, some marked)
      else do
        let t ← now
        if d.lastFetch > t - 3600 then pure (.ok marked, some marked)
        else do
          let r ← M.attempt (x.readNotification d.etag)
          match r with
          | .error e => pure (.error e, some marked)
          | .ok none => pure (.ok marked, some marked)
          | .ok (some (n, etag)) =>
            if n.session = d.session ∧ n.serial = d.serial then pure (.ok marked, some marked)
            else do
              let u ← updateFromDeltas n etag marked x time
              match u.1 with
              | .ok () => pure (.ok u.2, some u.2)
              | .error _ => do
                let s ← M.attempt (dataFromSnapshot n etag x time)
                match s with
                | .ok d' => pure (.ok d', some d')
                | .error _ => pure (.error .repo, none)

/-- `v'` is `v` with the data `o` for repository `u`. -/
structure Puts (v : Visited) (u : Str) (o : Option RepoData) (v' : Visited) : Prop where
  fetchers : v'.fetchers = v.fetchers
  here : mapGet v'.data u = o
  there : ∀ x, x ≠ u → mapGet v'.data x = mapGet v.data x

/-- The two computations do the same, up to `R` between their results. -/
def Alike (R : α → β → Prop) (m : M α) (m' : M β) : Prop :=
  ∀ env w, ∃ w', (∃ e, m env w = (.error e, w') ∧ m' env w = (.error e, w')) ∨
    ∃ a b, m env w = (.ok a, w') ∧ m' env w = (.ok b, w') ∧ R a b

theorem Alike.pure' {R : α → β → Prop} {a : α} {b : β} (h : R a b) :
    Alike R (Pure.pure a : M α) (Pure.pure b : M β) :=
  fun _ w => ⟨w, .inr ⟨a, b, rfl, rfl, h⟩⟩

theorem Alike.bind' {R : α → β → Prop} {m : M γ} {g : γ → M α} {g' : γ → M β}
    (h : ∀ x, Alike R (g x) (g' x)) : Alike R (m >>= g) (m >>= g') := by
  intro env w
  match hm : m env w with
  | (.error e, w1) =>
    exact ⟨w1, .inl ⟨e, by show M.bind m g env w = _; simp only [M.bind, hm],
      by show M.bind m g' env w = _; simp only [M.bind, hm]⟩⟩
  | (.ok x, w1) =>
    rw [M.bind_of_ok hm, M.bind_of_ok hm]
    exact h x env w1

/-- `get_latest` looks at and changes the data of the one repository only. -/
theorem getLatest_entry (v : Visited) (u : Str) (offline : Bool) (time : Time) :
    Alike (fun a b => b.1 = a.1 ∧ Puts v u a.2 b.2)
      (entry (v.getFetcher u) (mapGet v.data u) offline time) (v.getLatest u offline time) := by
  have hsame : ∀ r : Except Err RepoData, Puts v u (mapGet v.data u) v :=
    fun _ => ⟨rfl, rfl, fun _ _ => rfl⟩
  have hins : ∀ d, Puts v u (some d) { v with data := mapInsert v.data u d } :=
    fun d => ⟨rfl, by simp [mapGet_insert], fun x hx => by simp [mapGet_insert, hx]⟩
  have hfin : ∀ d, (({ v with data := mapInsert v.data u d } : Visited).final u) =
      (.ok d, { v with data := mapInsert v.data u d }) := by
    intro d
    unfold Visited.final
    rw [show mapGet (mapInsert v.data u d) u = some d by simp [mapGet_insert]]
  unfold entry Visited.getLatest
  dsimp only
  match ho : mapGet v.data u with
  | none =>
    dsimp only
    by_cases hoff : offline = true
    · rw [if_pos hoff, if_pos hoff]
      refine Alike.pure' ?_
      unfold Visited.final
      rw [ho]
      exact ⟨rfl, rfl, ho, fun _ _ => rfl⟩
    · rw [if_neg hoff, if_neg hoff]
      refine Alike.bind' (fun r => ?_)
      cases r with
      | ok d => exact Alike.pure' (by rw [hfin]; exact ⟨rfl, hins d⟩)
      | error e => exact Alike.pure' ⟨rfl, rfl, ho, fun _ _ => rfl⟩
  | some d =>
    dsimp only
    by_cases hd : d.fetched = true
    · rw [if_pos hd, if_pos hd]
      refine Alike.pure' ?_
      unfold Visited.final
      rw [ho]
      exact ⟨rfl, rfl, ho, fun _ _ => rfl⟩
    rw [if_neg hd, if_neg hd]
    have hm := hfin { d with fetched := true }
    have hm' := hins { d with fetched := true }
    by_cases hoff : offline = true
    · rw [if_pos hoff, if_pos hoff]
      exact Alike.pure' (by rw [hm]; exact ⟨rfl, hm'⟩)
    rw [if_neg hoff, if_neg hoff]
    refine Alike.bind' (fun t => ?_)
    by_cases ht : d.lastFetch > t - 3600
    · rw [if_pos ht, if_pos ht]
      exact Alike.pure' (by rw [hm]; exact ⟨rfl, hm'⟩)
    rw [if_neg ht, if_neg ht]
    refine Alike.bind' (fun r => ?_)
    match r with
    | .error e => exact Alike.pure' ⟨rfl, hm'⟩
    | .ok none => exact Alike.pure' (by rw [hm]; exact ⟨rfl, hm'⟩)
    | .ok (some (n, etag)) =>
      dsimp only
      by_cases hs : n.session = d.session ∧ n.serial = d.serial
      · rw [if_pos hs, if_pos hs]
        exact Alike.pure' (by rw [hm]; exact ⟨rfl, hm'⟩)
      rw [if_neg hs, if_neg hs]
      refine Alike.bind' (fun x => ?_)
      match hx : x.1 with
      | .ok () => exact Alike.pure' (by rw [hfin]; exact ⟨rfl, hins _⟩)
      | .error e =>
        dsimp only
        refine Alike.bind' (fun s => ?_)
        match s with
        | .ok d' =>
          refine Alike.pure' ?_
          unfold Visited.final
          dsimp only
          rw [show mapGet (mapInsert (mapInsert v.data u x.2) u d') u = some d' by
            simp [mapGet_insert]]
          exact ⟨rfl, rfl, by simp [mapGet_insert], fun y hy => by simp [mapGet_insert, hy]⟩
        | .error e' =>
          refine Alike.pure' ?_
          unfold Visited.final
          dsimp only
          rw [show mapGet (mapErase (mapInsert v.data u x.2) u) u = none by simp [mapGet_erase]]
          exact ⟨rfl, rfl, by simp [mapGet_erase], fun y hy => by
            simp [mapGet_erase, mapGet_insert, hy]⟩

section
variable {t : Time} {serve : Req → HttpResp} {f : FS}

theorem entry_fixed (x : Fetcher) (o : Option RepoData) (offline : Bool) (time : Time) :
    Fixed t serve f (entry x o offline time) := by
  have h0 : Fixed t serve f now := ⟨_, now_det⟩
  have h1 := retrieveNew_fixed (t := t) (serve := serve) (f := f)
  have h2 := readNotification_fixed (t := t) (serve := serve) (f := f)
  have h3 := updateFromDeltas_fixed (t := t) (serve := serve) (f := f)
  have h4 := dataFromSnapshot_fixed (t := t) (serve := serve) (f := f)
  unfold entry
  dsimp only
  fixed_auto

/-- There is always an answer. -/
theorem entry_det (v : Visited) (u : Str) (offline : Bool) (time : Time) :
    ∃ x, Det t serve f (entry (v.getFetcher u) (mapGet v.data u) offline time) (.ok x) := by
  obtain ⟨r, hr⟩ := entry_fixed (t := t) (serve := serve) (f := f) (v.getFetcher u)
    (mapGet v.data u) offline time
  cases r with
  | ok x => exact ⟨x, hr⟩
  | error e =>
    obtain ⟨w1, h1, _⟩ := hr _ steadyEnv_ok (World.start f) rfl
    obtain ⟨w2, ⟨e', h2, h3⟩ | ⟨a, b, h2, h3, _⟩⟩ :=
      getLatest_entry v u offline time (steadyEnv t serve) (World.start f)
    · obtain ⟨r, v', h4, _⟩ := getLatest_done h3
      cases h4
    · rw [h1] at h2
      cases h2

/-- Results that are only of a certain kind. -/
def Gives (P : α → Prop) (m : M α) : Prop := ∀ env w a w', m env w = (.ok a, w') → P a

theorem Gives.pure' {P : α → Prop} {a : α} (h : P a) : Gives P (Pure.pure a : M α) := by
  intro env w a' w' h'
  injection h' with h1 h2
  injection h1 with h1
  exact h1 ▸ h

theorem Gives.bind' {P : β → Prop} {m : M α} {g : α → M β} (hg : ∀ a, Gives P (g a)) :
    Gives P (m >>= g) := by
  intro env w b w' h
  rcases M.bind_cases m g env w with ⟨e, w1, h3, h4⟩ | ⟨a, w1, h3, h4⟩
  · rw [h4] at h; cases h
  · rw [h4] at h; exact hg _ _ _ _ _ h

theorem Gives.bindOn {P : β → Prop} (Q : α → Prop) {m : M α} {g : α → M β} (hm : Gives Q m)
    (hg : ∀ a, Q a → Gives P (g a)) : Gives P (m >>= g) := by
  intro env w b w' h
  rcases M.bind_cases m g env w with ⟨e, w1, h3, h4⟩ | ⟨a, w1, h3, h4⟩
  · rw [h4] at h; cases h
  · rw [h4] at h; exact hg _ (hm _ _ _ _ h3) _ _ _ _ h

theorem Gives.attempt {P : α → Prop} {m : M α} (h : Gives P m) :
    Gives (fun r => ∀ a, r = .ok a → P a) (M.attempt m) := by
  intro env w r w' h' a ha
  subst ha
  have h'' : ((Except.ok (m.run env w).1 : Except Err (Except Err α)), (m.run env w).2) =
      (.ok (.ok a), w') := h'
  injection h'' with h1 h2
  injection h1 with h1
  refine h env w a (m.run env w).2 ?_
  show m.run env w = _
  rw [← h1]

theorem Gives.throw {P : α → Prop} {e : Err} : Gives P (M.throw e : M α) :=
  fun _ _ _ _ h => by cases h

theorem dataFromSnapshot_marked (n : Notif) (etag : Option Str) (x : Fetcher) (time : Time) :
    Gives (fun d => d.fetched = true) (dataFromSnapshot n etag x time) := by
  unfold dataFromSnapshot
  refine Gives.bind' (fun b => ?_)
  split
  · exact Gives.throw
  · exact Gives.pure' rfl

theorem retrieveNew_marked (x : Fetcher) (time : Time) :
    Gives (fun d => d.fetched = true) (retrieveNew x time) := by
  unfold retrieveNew
  refine Gives.bind' (fun r => ?_)
  split
  · exact Gives.throw
  · exact dataFromSnapshot_marked _ _ _ _

theorem updateFromDeltas_marked (n : Notif) (etag : Option Str) (d : RepoData) (x : Fetcher)
    (time : Time) : Gives (fun r => r.1 = .ok () → r.2.fetched = true)
      (updateFromDeltas n etag d x time) := by
  unfold updateFromDeltas
  split
  · exact Gives.pure' (fun h => by cases h)
  · split
    · exact Gives.pure' (fun h => by cases h)
    · split
      · exact Gives.pure' (fun h => by cases h)
      · split
        · exact Gives.pure' (fun h => by cases h)
        · refine Gives.bind' (fun r => ?_)
          split
          · exact Gives.pure' (fun h => by cases h)
          · exact Gives.pure' (fun _ => rfl)

/-- Either there are data, which are kept and not looked at again in this validation, or there are
none; they are dropped or were marked only if there were some. -/
theorem entry_settles (x : Fetcher) (o : Option RepoData) (offline : Bool) (time : Time) :
    Gives (fun r => (∃ d, r = (.ok d, some d) ∧ d.fetched = true) ∨
      (∃ e, r.1 = .error e ∧ (o = none → r.2 = none))) (entry x o offline time) := by
  unfold entry
  dsimp only
  split
  · split
    · exact Gives.pure' (.inr ⟨_, rfl, fun _ => rfl⟩)
    · refine Gives.bindOn _ (Gives.attempt (retrieveNew_marked x time)) (fun r hr => ?_)
      split
      · exact Gives.pure' (.inl ⟨_, rfl, hr _ rfl⟩)
      · exact Gives.pure' (.inr ⟨_, rfl, fun _ => rfl⟩)
  · rename_i d
    split
    · rename_i hd
      exact Gives.pure' (.inl ⟨_, rfl, hd⟩)
    · split
      · exact Gives.pure' (.inl ⟨_, rfl, rfl⟩)
      · refine Gives.bind' (fun t' => ?_)
        split
        · exact Gives.pure' (.inl ⟨_, rfl, rfl⟩)
        · refine Gives.bind' (fun r => ?_)
          split
          · exact Gives.pure' (.inr ⟨_, rfl, fun h => by cases h⟩)
          · exact Gives.pure' (.inl ⟨_, rfl, rfl⟩)
          · split
            · exact Gives.pure' (.inl ⟨_, rfl, rfl⟩)
            · refine Gives.bindOn _ (updateFromDeltas_marked _ _ _ _ _) (fun r hr => ?_)
              split
              · rename_i h1
                exact Gives.pure' (.inl ⟨_, rfl, hr h1⟩)
              · refine Gives.bindOn _ (Gives.attempt (dataFromSnapshot_marked _ _ _ _))
                  (fun s hs => ?_)
                split
                · exact Gives.pure' (.inl ⟨_, rfl, hs _ rfl⟩)
                · exact Gives.pure' (.inr ⟨_, rfl, fun h => by cases h⟩)

/-- Data that need not be looked at are used. -/
theorem entry_at_hand {x : Fetcher} {d : RepoData} {offline : Bool} {time : Time}
    (h : d.fetched = true ∨ offline = true ∨ d.lastFetch > t - 3600) :
    ∃ d', Det t serve f (entry x (some d) offline time) (.ok (.ok d', some d')) := by
  unfold entry
  dsimp only
  by_cases h1 : d.fetched = true
  · rw [if_pos h1]
    exact ⟨_, Det.pure' _⟩
  rw [if_neg h1]
  by_cases h2 : offline = true
  · rw [if_pos h2]
    exact ⟨_, Det.pure' _⟩
  rw [if_neg h2]
  have h3 : d.lastFetch > t - 3600 := by
    rcases h with h | h | h
    · exact absurd h h1
    · exact absurd h h2
    · exact h
  refine ⟨{ d with fetched := true }, Det.bind now_det ?_⟩
  rw [if_pos h3]
  exact Det.pure' _

/-- Whether there are data for each repository, if nobody looks at it before. -/
structure Answers0 (t : Time) (serve : Req → HttpResp) (f : FS) (v0 : Visited) (offline : Bool)
    (a : Str → Except Err RepoData × Option RepoData) : Prop where
  det : ∀ u, Det t serve f (entry (v0.getFetcher u) (mapGet v0.data u) offline t) (.ok (a u))
  settled : ∀ u, (∃ d, a u = (.ok d, some d) ∧ d.fetched = true) ∨
    (∃ e, a u = (.error e, none) ∧ mapGet v0.data u = none)

theorem answers0 {v0 : Visited} {offline : Bool} {env : Env} (he : Steadily t serve env)
    (hk : ∀ u d, mapGet v0.data u = some d → d.fetched = true ∨ offline = true ∨
      d.lastFetch > t - 3600 ∨ (v0.fetcherOf u).Reliable env f) :
    ∃ a, Answers0 t serve f v0 offline a := by
  have h0 := fun u => entry_det (t := t) (serve := serve) (f := f) v0 u offline t
  refine ⟨fun u => (h0 u).choose, fun u => (h0 u).choose_spec, fun u => ?_⟩
  generalize ha : (h0 u).choose = x
  have hx := (h0 u).choose_spec
  rw [ha] at hx
  obtain ⟨w1, h1, _⟩ := hx env he (World.start f) rfl
  rcases entry_settles _ _ _ _ _ _ _ _ h1 with h2 | ⟨e, h2, h3⟩
  · exact .inl h2
  · match ho : mapGet v0.data u with
    | none =>
      refine .inr ⟨e, ?_, rfl⟩
      rw [← h2, ← h3 ho]
    | some d =>
      exfalso
      have hkd := hk u d ho
      by_cases hh : d.fetched = true ∨ offline = true ∨ d.lastFetch > t - 3600
      · obtain ⟨d', hd'⟩ := entry_at_hand (t := t) (serve := serve) (f := f)
          (x := v0.getFetcher u) (time := t) hh
        rw [ho] at hx
        have := Det.unique hx hd'
        injection this with this
        rw [this] at h2
        cases h2
      · have hr : (v0.fetcherOf u).Reliable env f := by
          rcases hkd with h | h | h | h
          · exact absurd (.inl h) hh
          · exact absurd (.inr (.inl h)) hh
          · exact absurd (.inr (.inr h)) hh
          · exact h
        obtain ⟨w2, ⟨e', g1, g2⟩ | ⟨a, b, g1, g2, g3, g4⟩⟩ :=
          getLatest_entry v0 u offline t env (World.start f)
        · rw [h1] at g1; cases g1
        · rw [h1] at g1
          injection g1 with g1 _
          injection g1 with g1
          subst g1
          obtain ⟨b1, b2⟩ := b
          dsimp only at g3
          rw [h2] at g3
          subst g3
          have hun := (getLatest_fails g2).2
          have hoff : ¬ offline = true := fun h => hh (.inr (.inl h))
          rw [if_neg hoff] at hun
          exact hun ⟨he.noFault, hr⟩

/-- The repositories as they can be in the course of the validation. -/
structure Midway (v0 : Visited) (a : Str → Except Err RepoData × Option RepoData) (v : Visited) :
    Prop where
  fetchers : v.fetchers = v0.fetchers
  data : ∀ u, mapGet v.data u = mapGet v0.data u ∨
    ∃ d, a u = (.ok d, some d) ∧ d.fetched = true ∧ mapGet v.data u = some d

theorem Midway.start {v0 : Visited} {a : Str → Except Err RepoData × Option RepoData} :
    Midway v0 a v0 := ⟨rfl, fun _ => .inl rfl⟩

/-- `get_latest` gives the same answer whenever it is called. -/
theorem getLatest_answer {v0 v : Visited} {offline : Bool}
    {a : Str → Except Err RepoData × Option RepoData} (ha : Answers0 t serve f v0 offline a)
    (hv : Midway v0 a v) {env : Env} (he : Steadily t serve env) {w : World} (hw : w.cur = f)
    (u : Str) : ∃ v' w', v.getLatest u offline t env w = (.ok ((a u).1, v'), w') ∧ w'.cur = f ∧
      Midway v0 a v' := by
  have key : ∃ x, Det t serve f (entry (v.getFetcher u) (mapGet v.data u) offline t) (.ok x) ∧
      x = a u := by
    rcases hv.data u with h | ⟨d, h1, h2, h3⟩
    · refine ⟨_, ?_, rfl⟩
      have hf : v.getFetcher u = v0.getFetcher u := by
        unfold Visited.getFetcher
        rw [hv.fetchers]
      rw [h, hf]
      exact ha.det u
    · refine ⟨(.ok d, some d), ?_, h1.symm⟩
      rw [h3]
      unfold entry
      dsimp only
      rw [if_pos h2]
      exact Det.pure' _
  obtain ⟨x, hx, rfl⟩ := key
  obtain ⟨w1, h1, hw1⟩ := hx env he w hw
  obtain ⟨w2, ⟨e', g1, g2⟩ | ⟨p, q, g1, g2, g3, g4⟩⟩ := getLatest_entry v u offline t env w
  · rw [h1] at g1; cases g1
  · rw [h1] at g1
    injection g1 with g1 gw
    injection g1 with g1
    subst g1 gw
    obtain ⟨q1, q2⟩ := q
    dsimp only at g3 g4
    subst g3
    refine ⟨q2, w1, g2, hw1, g4.fetchers.trans hv.fetchers, fun y => ?_⟩
    by_cases hy : y = u
    · subst hy
      rw [g4.here]
      rcases ha.settled y with ⟨d, h, hd⟩ | ⟨e, h, hn⟩
      · exact .inr ⟨d, h, hd, by rw [h]⟩
      · exact .inl (by rw [h, hn])
    · rw [g4.there y hy]
      exact hv.data y

end

/-! ## One CA -/

/-- What a manifest entry turns out to be, at time `t`. -/
def finding (objs : List (Str × Bytes)) (issuer : ResCert) (crl : CrlObj) (time t : Time)
    (e : Str × Hash) : Finding :=
  match mapGet objs e.1 with
  | none => .issue .notFound
  | some obj =>
    if Ext.mftHashOk e.2 obj = false then .issue .hash
    else if extension e.1 = "roa".toList then
      match Ext.decodeRoa obj with
      | none => .issue .roaParse
      | some roa =>
        match Ext.processRoa roa issuer t with
        | none => .issue .roaInvalid
        | some (ee, payload) =>
          if ee ∈ crl.revoked then .issue .roaInvalid else .roa (ValidatedRoa.make e.1 payload)
    else if extension e.1 = "cer".toList then
      match Ext.decodeCert obj with
      | none => .issue .certParse
      | some child =>
        if child.isCa then
          if child.serial ∈ crl.revoked then .issue .certRevoked
          else match Ext.validateCa child issuer time with
            | none => .issue .certInvalid
            | some rc =>
              match CaInfo.ofCert rc with
              | none => .issue .certInfo
              | some info => .child rc info
        else if Ext.validateRouter child issuer time then .router
        else .issue .routerInvalid
    else if extension e.1 = "asa".toList then
      match Ext.decodeAspa obj with
      | none => .issue .aspaParse
      | some aspa =>
        match Ext.processAspa aspa issuer t with
        | none => .issue .aspaInvalid
        | some (ee, payload) =>
          if ee ∈ crl.revoked then .issue .aspaInvalid
          else .aspa ⟨e.1, payload.customer, payload.providers⟩
    else if extension e.1 = "gbr".toList then .ignored
    else .issue .unsupported

section
variable {t : Time} {serve : Req → HttpResp} {f : FS}

theorem Det.pure_eq {x y : α} (h : x = y) : Det t serve f (Pure.pure x : M α) (.ok y) :=
  h ▸ Det.pure' _

theorem checkEntry_det (objs : List (Str × Bytes)) (issuer : ResCert) (crl : CrlObj) (time : Time)
    (acc : CaAcc) (e : Str × Hash) : Det t serve f (checkEntry objs issuer crl time acc e)
      (.ok (acc.add e.1 (finding objs issuer crl time t e))) := by
  unfold checkEntry
  dsimp only
  split
  · exact Det.pure_eq (by simp [finding, CaAcc.add, *])
  split
  · exact Det.pure_eq (by simp [finding, CaAcc.add, *])
  split
  · split
    · exact Det.pure_eq (by simp [finding, CaAcc.add, *])
    refine Det.bind now_det ?_
    split
    · exact Det.pure_eq (by simp [finding, CaAcc.add, *])
    split
    · exact Det.pure_eq (by simp [finding, CaAcc.add, *])
    · exact Det.pure_eq (by simp [finding, CaAcc.add, *])
  split
  · split
    · exact Det.pure_eq (by simp [finding, CaAcc.add, *])
    split
    · split
      · exact Det.pure_eq (by simp [finding, CaAcc.add, *])
      split
      · exact Det.pure_eq (by simp [finding, CaAcc.add, *])
      split
      · exact Det.pure_eq (by simp [finding, CaAcc.add, *])
      · exact Det.pure_eq (by simp [finding, CaAcc.add, *])
    split
    · exact Det.pure_eq (by simp [finding, CaAcc.add, *])
    · exact Det.pure_eq (by simp [finding, CaAcc.add, *])
  split
  · split
    · exact Det.pure_eq (by simp [finding, CaAcc.add, *])
    refine Det.bind now_det ?_
    split
    · exact Det.pure_eq (by simp [finding, CaAcc.add, *])
    split
    · exact Det.pure_eq (by simp [finding, CaAcc.add, *])
    · exact Det.pure_eq (by simp [finding, CaAcc.add, *])
  split
  · exact Det.pure_eq (by simp [finding, CaAcc.add, *])
  · rename_i h1 h2 h3 h4 h5 h6
    refine Det.pure_eq ?_
    unfold finding
    rw [h1]
    dsimp only
    rw [if_neg h2, if_neg h3, if_neg h4, if_neg h5, if_neg h6]
    rfl

theorem checkEntries_det (objs : List (Str × Bytes)) (issuer : ResCert) (crl : CrlObj)
    (time : Time) : (es : List (Str × Hash)) → (acc : CaAcc) →
    Det t serve f (checkEntries objs issuer crl time acc es)
      (.ok (acc.addAll (es.map (fun e => (e.1, finding objs issuer crl time t e)))))
  | [], acc => by unfold checkEntries; exact Det.pure' _
  | e :: es, acc => by
    unfold checkEntries
    exact Det.bind (checkEntry_det _ _ _ _ _ _) (checkEntries_det objs issuer crl time es _)

theorem addAll_perm (info : CaInfo) {fs fs' : List (Str × Finding)} (h : fs.Perm fs') :
    SameCa ((⟨.empty info, []⟩ : CaAcc).addAll fs).ca ((⟨.empty info, []⟩ : CaAcc).addAll fs').ca ∧
    ((⟨.empty info, []⟩ : CaAcc).addAll fs).kids.Perm ((⟨.empty info, []⟩ : CaAcc).addAll fs').kids := by
  obtain ⟨a1, a2, a3, a4, a5, a6, a7, a8⟩ := CaAcc.addAll_spec fs ⟨.empty info, []⟩
  obtain ⟨b1, b2, b3, b4, b5, b6, b7, b8⟩ := CaAcc.addAll_spec fs' ⟨.empty info, []⟩
  constructor
  · constructor
    · rw [a1, b1]
    · rw [a2, b2]; exact (h.filterMap _).append_left _
    · rw [a4, b4]; exact (h.filterMap _).append_left _
    · rw [a5, b5]; exact (h.filterMap _).append_left _
    · rw [a6, b6]; exact (h.filterMap _).append_left _
    · rw [a7, b7]; exact (h.filterMap _).append_left _
    · rw [a8, b8]; exact (h.filterMap _).append_left _
  · rw [a3, b3]; exact (h.filterMap _).append_left _

theorem SameCa.refl (a : ValidatedCa) : SameCa a a :=
  ⟨rfl, .refl _, .refl _, .refl _, .refl _, .refl _, .refl _⟩

/-- The result for one CA, in one particular order. -/
def refCa (a : Str → Except Err RepoData × Option RepoData) (t : Time) (issuer : ResCert)
    (info : CaInfo) : ValidatedCa × List (ResCert × CaInfo) :=
  match info.siaRrdp with
  | none => ((ValidatedCa.empty info).addIssue info.siaCa.toStr .noSiaRrdp, [])
  | some u =>
    match (a u).1 with
    | .error _ => ((ValidatedCa.empty info).addIssue info.siaCa.toStr .repoData, [])
    | .ok data =>
      match openCa data.objects issuer info t with
      | .error (uri, k) => ((ValidatedCa.empty info).addIssue uri k, [])
      | .ok (crl, entries) =>
        let acc := (⟨.empty info, []⟩ : CaAcc).addAll
          (entries.map (fun e => (e.1, finding data.objects issuer crl t t e)))
        (acc.ca, acc.kids)

theorem checkCa_ref {v0 v : Visited} {offline : Bool}
    {a : Str → Except Err RepoData × Option RepoData} (ha : Answers0 t serve f v0 offline a)
    (hv : Midway v0 a v) {env : Env} (he : Steadily t serve env) {w : World} (hw : w.cur = f)
    (issuer : ResCert) (info : CaInfo) :
    ∃ ca kids v' w', checkCa v issuer info offline t env w = (.ok (ca, kids, v'), w') ∧
      w'.cur = f ∧ Midway v0 a v' ∧ SameCa ca (refCa a t issuer info).1 ∧
      kids.Perm (refCa a t issuer info).2 := by
  unfold checkCa refCa
  dsimp only
  match hs : info.siaRrdp with
  | none => exact ⟨_, _, v, w, rfl, hw, hv, SameCa.refl _, .refl _⟩
  | some u =>
    dsimp only
    obtain ⟨v', w1, h1, hw1, hv'⟩ := getLatest_answer ha hv he hw u
    rw [M.bind_of_ok h1]
    match hau : (a u).1 with
    | .error e => exact ⟨_, _, v', w1, rfl, hw1, hv', SameCa.refl _, .refl _⟩
    | .ok data =>
      dsimp only
      match ho : openCa data.objects issuer info t with
      | .error (uri, k) => exact ⟨_, _, v', w1, rfl, hw1, hv', SameCa.refl _, .refl _⟩
      | .ok (crl, entries) =>
        dsimp only
        obtain ⟨w2, h2, hw2⟩ := checkEntries_det (t := t) (serve := serve) (f := f) data.objects
          issuer crl t (sortBy (fun e => env.prio w1.tick [e.1]) entries) ⟨.empty info, []⟩ env he
          { w1 with tick := w1.tick + 1 } hw1
        refine ⟨_, _, v', w2, ?_, hw2, hv',
          addAll_perm info ((sortBy_perm (fun e => env.prio w1.tick [e.1]) entries).map _)⟩
        show (checkEntries data.objects issuer crl t ⟨.empty info, []⟩
          (sortBy (fun e => env.prio w1.tick [e.1]) entries) >>= fun acc =>
            (pure (acc.ca, acc.kids, v') : M _)) env { w1 with tick := w1.tick + 1 } = _
        rw [M.bind_of_ok h2]
        rfl

end

/-! ## The tree -/

theorem SameCa.symm {a b : ValidatedCa} (h : SameCa a b) : SameCa b a :=
  ⟨h.info.symm, h.children.symm, h.routers.symm, h.roas.symm, h.aspas.symm, h.ignored.symm,
    h.issues.symm⟩

theorem Reordered.refl : (l : List ValidatedCa) → Reordered l l
  | [] => .nil
  | a :: l => .cons (SameCa.refl a) (Reordered.refl l)

theorem Reordered.symm {l l' : List ValidatedCa} (h : Reordered l l') : Reordered l' l := by
  induction h with
  | nil => exact .nil
  | cons h _ ih => exact .cons h.symm ih
  | swap a b l => exact .swap b a l
  | trans _ _ h1 h2 => exact .trans h2 h1

theorem Reordered.of_perm {l l' : List ValidatedCa} (h : l.Perm l') : Reordered l l' := by
  induction h with
  | nil => exact .nil
  | cons x _ ih => exact .cons (SameCa.refl x) ih
  | swap a b l => exact .swap b a l
  | trans _ _ h1 h2 => exact .trans h1 h2

theorem Reordered.append_left (x : List ValidatedCa) {l l' : List ValidatedCa}
    (h : Reordered l l') : Reordered (x ++ l) (x ++ l') := by
  induction x with
  | nil => exact h
  | cons a x ih => exact .cons (SameCa.refl a) ih

theorem Reordered.append_right {l l' : List ValidatedCa} (x : List ValidatedCa)
    (h : Reordered l l') : Reordered (l ++ x) (l' ++ x) := by
  induction h with
  | nil => exact Reordered.refl _
  | cons h _ ih => exact .cons h ih
  | swap a b l => exact .swap a b _
  | trans _ _ h1 h2 => exact .trans h1 h2

theorem Reordered.append {l l' x x' : List ValidatedCa} (h : Reordered l l')
    (h' : Reordered x x') : Reordered (l ++ x) (l' ++ x') :=
  (h.append_right x).trans (h'.append_left l')

/-- Both come to an end, with the same results; or neither does. -/
def SameOpt : Option (List ValidatedCa) → Option (List ValidatedCa) → Prop
  | none, none => True
  | some l, some l' => Reordered l l'
  | _, _ => False

theorem SameOpt.refl : (o : Option (List ValidatedCa)) → SameOpt o o
  | none => trivial
  | some l => Reordered.refl l

theorem SameOpt.trans : {a b c : Option (List ValidatedCa)} → SameOpt a b → SameOpt b c →
    SameOpt a c
  | none, none, none, _, _ => trivial
  | some _, some _, some _, h, h' => Reordered.trans h h'

def joinOpt : Option (List ValidatedCa) → Option (List ValidatedCa) → Option (List ValidatedCa)
  | some l, some l' => some (l ++ l')
  | _, _ => none

theorem SameOpt.join : {a a' b b' : Option (List ValidatedCa)} → SameOpt a a' → SameOpt b b' →
    SameOpt (joinOpt a b) (joinOpt a' b')
  | none, none, none, none, _, _ => trivial
  | none, none, some _, some _, _, _ => trivial
  | some _, some _, none, none, _, _ => trivial
  | some _, some _, some _, some _, h, h' => Reordered.append h h'

/-- The results below a list of certificates. -/
def refKids (rec : ResCert → CaInfo → Option (List ValidatedCa)) :
    List (ResCert × CaInfo) → Option (List ValidatedCa)
  | [] => some []
  | k :: ks => joinOpt (rec k.1 k.2) (refKids rec ks)

theorem refKids_perm (rec : ResCert → CaInfo → Option (List ValidatedCa))
    {ks ks' : List (ResCert × CaInfo)} (h : ks.Perm ks') :
    SameOpt (refKids rec ks) (refKids rec ks') := by
  induction h with
  | nil => exact SameOpt.refl _
  | cons x _ ih => exact (SameOpt.refl _).join ih
  | swap x y l =>
    unfold refKids refKids
    match rec x.1 x.2, rec y.1 y.2, refKids rec l with
    | none, none, none => trivial
    | none, none, some _ => trivial
    | none, some _, none => trivial
    | none, some _, some _ => trivial
    | some _, none, none => trivial
    | some _, none, some _ => trivial
    | some _, some _, none => trivial
    | some a, some b, some c =>
      refine Reordered.of_perm ?_
      show (b ++ (a ++ c)).Perm (a ++ (b ++ c))
      rw [← List.append_assoc, ← List.append_assoc]
      exact (List.perm_append_comm).append_right c
  | trans _ _ h1 h2 => exact h1.trans h2

/-- The results for the tree below a certificate, in one particular order; `none` if it is too
deep. -/
def refTree (a : Str → Except Err RepoData × Option RepoData) (t : Time) :
    Nat → ResCert → CaInfo → Option (List ValidatedCa)
  | 0, _, _ => none
  | depth + 1, issuer, info =>
    joinOpt (some [(refCa a t issuer info).1]) (refKids (refTree a t depth) (refCa a t issuer info).2)

section
variable {t : Time} {serve : Req → HttpResp} {f : FS}

/-- The results are these, in some order, and the files are as before. -/
def Ended (f : FS) (v0 : Visited) (a : Str → Except Err RepoData × Option RepoData)
    (pre : List ValidatedCa) (x : Except Err (Report × Visited) × World) :
    Option (List ValidatedCa) → Prop
  | none => x.1 = .error .overflow ∧ x.2.cur = f
  | some l => ∃ rep v, x.1 = .ok (rep, v) ∧ x.2.cur = f ∧ Midway v0 a v ∧
      Reordered rep.certs (pre ++ l)

theorem Ended.same {v0 : Visited} {a : Str → Except Err RepoData × Option RepoData}
    {pre : List ValidatedCa} {x : Except Err (Report × Visited) × World} :
    {o o' : Option (List ValidatedCa)} → Ended f v0 a pre x o → SameOpt o o' → Ended f v0 a pre x o'
  | none, none, h, _ => h
  | some _, some _, ⟨rep, v, h1, h2, h3, h4⟩, h =>
    ⟨rep, v, h1, h2, h3, h4.trans (Reordered.append_left pre h)⟩

theorem validateKids_ref {v0 : Visited} {a : Str → Except Err RepoData × Option RepoData}
    {env : Env} {rec : Visited → ResCert → CaInfo → M (Report × Visited)}
    {ref : ResCert → CaInfo → Option (List ValidatedCa)}
    (hrec : ∀ v c i w, Midway v0 a v → w.cur = f → Ended f v0 a [] (rec v c i env w) (ref c i)) :
    (ks : List (ResCert × CaInfo)) → (v : Visited) → (rep : Report) → (w : World) → Midway v0 a v →
    w.cur = f → Ended f v0 a rep.certs (validateKids rec v rep ks env w) (refKids ref ks)
  | [], v, rep, w, hv, hw => by
    refine ⟨rep, v, rfl, hw, hv, ?_⟩
    rw [List.append_nil]
    exact Reordered.refl _
  | (c, i) :: ks, v, rep, w, hv, hw => by
    have h1 := hrec v c i w hv hw
    unfold validateKids refKids
    dsimp only
    match hr : ref c i with
    | none =>
      rw [hr] at h1
      obtain ⟨h2, h3⟩ := h1
      match hx : rec v c i env w with
      | (.ok r, w1) => rw [hx] at h2; cases h2
      | (.error e, w1) =>
        rw [hx] at h2 h3
        injection h2 with h2
        subst h2
        rcases M.bind_cases (rec v c i) (fun x => validateKids rec x.2 (rep.addOther x.1) ks) env w
          with ⟨e, w2, h4, h5⟩ | ⟨b, w2, h4, h5⟩
        · have h6 := h4
          rw [hx] at h4
          injection h4 with h4 h4'
          injection h4 with h4
          subst h4 h4'
          refine ⟨?_, ?_⟩
          · exact congrArg Prod.fst h5
          · exact (congrArg (fun y => y.2.cur) h5).trans h3
        · rw [hx] at h4; cases h4
    | some l =>
      rw [hr] at h1
      obtain ⟨r, v', h2, h3, h4, h5⟩ := h1
      match hx : rec v c i env w with
      | (.error e, w1) => rw [hx] at h2; cases h2
      | (.ok b, w1) =>
        rw [hx] at h2 h3
        injection h2 with h2
        subst h2
        have h6 := validateKids_ref hrec ks v' (rep.addOther r) w1 h4 h3
        have h7 : (rec v c i >>= fun x => validateKids rec x.2 (rep.addOther x.1) ks) env w =
            validateKids rec v' (rep.addOther r) ks env w1 := M.bind_of_ok hx
        match hk : refKids ref ks with
        | none =>
          rw [hk] at h6
          exact ⟨(congrArg Prod.fst h7).trans h6.1, (congrArg (fun y => y.2.cur) h7).trans h6.2⟩
        | some l' =>
          rw [hk] at h6
          obtain ⟨rep', v2, g1, g2, g3, g4⟩ := h6
          refine ⟨rep', v2, (congrArg Prod.fst h7).trans g1, (congrArg (fun y => y.2.cur) h7).trans g2,
            g3, ?_⟩
          refine g4.trans ?_
          show Reordered ((rep.certs ++ r.certs) ++ l') (rep.certs ++ (l ++ l'))
          rw [List.append_assoc]
          exact Reordered.append_left _ (Reordered.append_right _ h5)

theorem validateTree_ref {v0 : Visited} {offline : Bool}
    {a : Str → Except Err RepoData × Option RepoData} (ha : Answers0 t serve f v0 offline a)
    {env : Env} (he : Steadily t serve env) : (depth : Nat) → (v : Visited) → (c : ResCert) →
    (i : CaInfo) → (w : World) → Midway v0 a v → w.cur = f →
    Ended f v0 a [] (validateTree offline t depth v c i env w) (refTree a t depth c i)
  | 0, v, c, i, w, hv, hw => ⟨rfl, hw⟩
  | depth + 1, v, c, i, w, hv, hw => by
    obtain ⟨ca, kids, v1, w1, h1, hw1, hv1, h2, h3⟩ := checkCa_ref ha hv he hw c i
    have h4 := validateKids_ref (fun v c i w hv hw => validateTree_ref ha he depth v c i w hv hw)
      kids v1 (Report.zero.addCert ca) w1 hv1 hw1
    have h5 := h4.same (refKids_perm _ h3)
    have h6 : validateTree offline t (depth + 1) v c i env w =
        validateKids (validateTree offline t depth) v1 (Report.zero.addCert ca) kids env w1 :=
      M.bind_of_ok h1
    rw [h6]
    unfold refTree
    match hk : refKids (refTree a t depth) (refCa a t c i).2 with
    | none => rw [hk] at h5; exact h5
    | some l =>
      rw [hk] at h5
      obtain ⟨rep, v', g1, g2, g3, g4⟩ := h5
      exact ⟨rep, v', g1, g2, g3, g4.trans (.cons h2 (Reordered.refl l))⟩

/-- The results for all TALs. -/
def refTals (a : Str → Except Err RepoData × Option RepoData) (t : Time)
    (ta : Tal → Except Err ResCert) (depth : Nat) : List Tal → Except Err (List ValidatedCa)
  | [] => .ok []
  | x :: xs =>
    match ta x with
    | .error e => .error e
    | .ok cert =>
      match CaInfo.ofCert cert with
      | none => .error .tal
      | some info =>
        match refTree a t depth cert info with
        | none => .error .overflow
        | some l =>
          match refTals a t ta depth xs with
          | .error e => .error e
          | .ok l' => .ok (l ++ l')

def EndedTals (f : FS) (pre : List ValidatedCa) (x : Except Err (Report × Visited) × World) :
    Except Err (List ValidatedCa) → Prop
  | .error e => x.1 = .error e
  | .ok l => ∃ rep v, x.1 = .ok (rep, v) ∧ x.2.cur = f ∧ Reordered rep.certs (pre ++ l)

theorem bind_of_err {m : M α} {g : α → M β} {env : Env} {w w' : World} {e : Err}
    (h : m env w = (.error e, w')) : (m >>= g) env w = (.error e, w') := by
  rcases M.bind_cases m g env w with ⟨e', w2, h4, h5⟩ | ⟨b, w2, h4, h5⟩
  · rw [h] at h4
    injection h4 with h4 h4'
    injection h4 with h4
    rw [h5, h4, h4']
  · rw [h] at h4; cases h4

theorem validateTals_ref {v0 : Visited} {offline : Bool}
    {a : Str → Except Err RepoData × Option RepoData} (ha : Answers0 t serve f v0 offline a)
    {ta : Tal → Except Err ResCert} (hta : ∀ x : Tal, Det t serve f (x.validateAt t) (ta x))
    {env : Env} (he : Steadily t serve env) (depth : Nat) : (xs : List Tal) → (v : Visited) →
    (rep : Report) → (w : World) → Midway v0 a v → w.cur = f →
    EndedTals f rep.certs (validateTals depth v rep offline t xs env w) (refTals a t ta depth xs)
  | [], v, rep, w, hv, hw => ⟨rep, v, rfl, hw, by rw [List.append_nil]; exact Reordered.refl _⟩
  | x :: xs, v, rep, w, hv, hw => by
    obtain ⟨w1, h1, hw1⟩ := hta x env he w hw
    have step : ∀ {r w2}, validateTa depth v x offline t env w = (r, w2) →
        validateTals depth v rep offline t (x :: xs) env w =
          match r with
          | .error e => (.error e, w2)
          | .ok b => validateTals depth b.2 (rep.addOther b.1) offline t xs env w2 := by
      intro r w2 h
      cases r with
      | error e => exact bind_of_err h
      | ok b => exact M.bind_of_ok h
    unfold refTals
    match hc : ta x with
    | .error e =>
      rw [hc] at h1
      have h2 : validateTa depth v x offline t env w = (.error e, w1) := bind_of_err h1
      show (validateTals depth v rep offline t (x :: xs) env w).1 = _
      rw [step h2]
    | .ok cert =>
      rw [hc] at h1
      dsimp only
      have h2 : validateTa depth v x offline t env w = _ := M.bind_of_ok h1
      match hi : CaInfo.ofCert cert with
      | none =>
        rw [hi] at h2
        show (validateTals depth v rep offline t (x :: xs) env w).1 = _
        rw [step h2]
      | some info =>
        rw [hi] at h2
        dsimp only at h2 ⊢
        have h3 := validateTree_ref ha he depth v cert info w1 hv hw1
        match hr : refTree a t depth cert info with
        | none =>
          rw [hr] at h3
          obtain ⟨g1, g2⟩ := h3
          have h4 : validateTa depth v x offline t env w = (.error .overflow,
            (validateTree offline t depth v cert info env w1).2) := by
            rw [h2, ← g1]
          show (validateTals depth v rep offline t (x :: xs) env w).1 = _
          rw [step h4]
        | some l =>
          rw [hr] at h3
          obtain ⟨r, v1, g1, g2, g3, g4⟩ := h3
          have h4 : validateTa depth v x offline t env w = (.ok (r, v1),
            (validateTree offline t depth v cert info env w1).2) := by
            rw [h2, ← g1]
          have h5 := validateTals_ref ha hta he depth xs v1 (rep.addOther r) _ g3 g2
          rw [step h4]
          dsimp only
          match hx : refTals a t ta depth xs with
          | .error e => rw [hx] at h5; exact h5
          | .ok l' =>
            rw [hx] at h5
            obtain ⟨rep', v2, k1, k2, k3⟩ := h5
            refine ⟨rep', v2, k1, k2, k3.trans ?_⟩
            show Reordered ((rep.certs ++ r.certs) ++ l') (rep.certs ++ (l ++ l'))
            rw [List.append_assoc]
            exact Reordered.append_left _ (Reordered.append_right _ g4)

/-- Two outcomes of a validation that differ in the order of the results only. -/
def SameOutcome : Except Err (Report × Validator) → Except Err (Report × Validator) → Prop
  | .error e, .error e' => e = e'
  | .ok x, .ok y => Reordered x.1.certs y.1.certs
  | _, _ => False

theorem validate_order {v : Validator} {depth : Nat} {offline : Bool} {env env' : Env}
    {w w' : World} (he : Steadily t serve env) (he' : Steadily t serve env') (hw : w.cur = f)
    (hw' : w'.cur = f)
    (hk : ∀ u d, mapGet v.repos.data u = some d → d.fetched = true ∨ offline = true ∨
      d.lastFetch > t - 3600 ∨ (v.repos.fetcherOf u).Reliable env f) :
    SameOutcome (v.validate depth offline env w).1 (v.validate depth offline env' w').1 := by
  obtain ⟨a, ha⟩ := answers0 (v0 := v.repos) he hk
  have hta := fun x : Tal => validateAt_fixed (t := t) (serve := serve) (f := f) x t
  have main : ∀ {env : Env} {w : World}, Steadily t serve env → w.cur = f →
      (match refTals a t (fun x => (hta x).choose) depth v.tals with
        | .error e => (v.validate depth offline env w).1 = .error e
        | .ok l => ∃ rep v', (v.validate depth offline env w).1 = .ok (rep, v') ∧
            Reordered rep.certs l) := by
    intro env w he hw
    have h0 : v.validate depth offline env w = (validateTals depth v.repos Report.zero offline t
        v.tals >>= fun x => pure (x.1, { v with repos := x.2 })) env { w with tick := w.tick + 1 } := by
      have := now_bind (f := fun time => (validateTals depth v.repos Report.zero offline time
        v.tals >>= fun x => pure (x.1, { v with repos := x.2 }) : M (Report × Validator)))
        (env := env) (w := w)
      rw [he.clock] at this
      exact this
    have h1 := validateTals_ref ha (fun x => (hta x).choose_spec) he depth v.tals v.repos Report.zero
      { w with tick := w.tick + 1 } Midway.start hw
    match hr : refTals a t (fun x => (hta x).choose) depth v.tals with
    | .error e =>
      rw [hr] at h1
      dsimp only
      rw [h0, bind_of_err (w' := (validateTals depth v.repos Report.zero offline t v.tals env
        { w with tick := w.tick + 1 }).2) (Prod.ext h1 rfl)]
    | .ok l =>
      rw [hr] at h1
      obtain ⟨rep, v1, h2, h3, h4⟩ := h1
      refine ⟨rep, { v with repos := v1 }, ?_, h4⟩
      rw [h0, M.bind_of_ok (w1 := (validateTals depth v.repos Report.zero offline t v.tals env
        { w with tick := w.tick + 1 }).2) (Prod.ext h2 rfl)]
      rfl
  have h1 := main he hw
  have h2 := main he' hw'
  match hr : refTals a t (fun x => (hta x).choose) depth v.tals with
  | .error e =>
    rw [hr] at h1 h2
    dsimp only at h1 h2
    rw [h1, h2]
    rfl
  | .ok l =>
    rw [hr] at h1 h2
    obtain ⟨r1, v1, a1, a2⟩ := h1
    obtain ⟨r2, v2, b1, b2⟩ := h2
    rw [a1, b1]
    exact a2.trans b2.symm

end

/-! ## Reports -/

theorem Reordered.filter (u : Str) {l l' : List ValidatedCa} (h : Reordered l l') :
    Reordered (l.filter (fun ca => decide (ca.Names u))) (l'.filter (fun ca => decide (ca.Names u))) := by
  induction h with
  | nil => exact .nil
  | cons h _ ih =>
    rename_i a b l l' _
    have hn : a.Names u ↔ b.Names u := by unfold ValidatedCa.Names; rw [h.info]
    by_cases hu : a.Names u
    · rw [List.filter_cons_of_pos (by simpa using hu),
        List.filter_cons_of_pos (by simpa using hn.1 hu)]
      exact .cons h ih
    · rw [List.filter_cons_of_neg (by simpa using hu),
        List.filter_cons_of_neg (by simpa using fun h => hu (hn.2 h))]
      exact ih
  | swap a b l => exact Reordered.of_perm ((List.Perm.swap b a l).filter _)
  | trans _ _ h1 h2 => exact .trans h1 h2

theorem Reordered.sum (n : ValidatedCa → Nat) (hn : ∀ a b, SameCa a b → n a = n b)
    {l l' : List ValidatedCa} (h : Reordered l l') : (l.map n).sum = (l'.map n).sum := by
  induction h with
  | nil => rfl
  | cons h _ ih => rw [List.map_cons, List.map_cons, List.sum_cons, List.sum_cons, hn _ _ h, ih]
  | swap a b l => simp only [List.map_cons, List.sum_cons]; omega
  | trans _ _ h1 h2 => exact h1.trans h2

theorem Reordered.nil_iff {l l' : List ValidatedCa} (h : Reordered l l') : l = [] ↔ l' = [] := by
  induction h with
  | nil => exact Iff.rfl
  | cons _ _ _ => simp
  | swap a b l => simp
  | trans _ _ h1 h2 => exact h1.trans h2

theorem Reordered.issues {l l' : List ValidatedCa} (h : Reordered l l') :
    (l.flatMap (fun ca => ca.issues)).Perm (l'.flatMap (fun ca => ca.issues)) := by
  induction h with
  | nil => exact .refl _
  | cons h _ ih =>
    rw [List.flatMap_cons, List.flatMap_cons]
    exact h.issues.append ih
  | swap a b l =>
    simp only [List.flatMap_cons]
    rw [← List.append_assoc, ← List.append_assoc]
    exact (List.perm_append_comm).append_right _
  | trans _ _ h1 h2 => exact h1.trans h2

theorem Reordered.numbers {rep rep' : Report} (h : Reordered rep.certs rep'.certs) (ha : rep.Adds)
    (ha' : rep'.Adds) (u : Str) : (mapGet rep.repos u = none ↔ mapGet rep'.repos u = none) ∧
    ∀ r r', mapGet rep.repos u = some r → mapGet rep'.repos u = some r' → r.SameNumbers r' := by
  have hc : Reordered (rep.casOf u) (rep'.casOf u) := h.filter u
  refine ⟨?_, fun r r' hr hr' => ?_⟩
  · rw [ha.seen u, ha'.seen u]
    exact hc.nil_iff
  · have s := ha.sums u r hr
    have s' := ha'.sums u r' hr'
    constructor
    · rw [s.caCerts, s'.caCerts]; exact hc.sum _ (fun a b h => h.children.length_eq)
    · rw [s.roas, s'.roas]; exact hc.sum _ (fun a b h => h.roas.length_eq)
    · rw [s.vrps, s'.vrps]; exact hc.sum _ (fun a b h => (h.roas.map _).sum_nat)
    · rw [s.aspas, s'.aspas]; exact hc.sum _ (fun a b h => h.aspas.length_eq)
    · rw [s.routers, s'.routers]; exact hc.sum _ (fun a b h => h.routers.length_eq)
    · rw [s.issues, s'.issues]; exact hc.issues

theorem Reordered.verdict {rep rep' : Report} (h : Reordered rep.certs rep'.certs) (ha : rep.Adds)
    (ha' : rep'.Adds) (c : Config) : verdict c rep = verdict c rep' := by
  obtain ⟨h1, h2⟩ := h.numbers ha ha' c.notificationUri
  unfold KSync.verdict
  match hr : mapGet rep.repos c.notificationUri, hr' : mapGet rep'.repos c.notificationUri with
  | none, none => rfl
  | none, some _ => rw [hr, hr'] at h1; exact absurd (h1.1 rfl) (by simp)
  | some _, none => rw [hr, hr'] at h1; exact absurd (h1.2 rfl) (by simp)
  | some r, some r' =>
    have h3 := (h2 r r' hr hr').issues
    have h4 : r.issues = [] ↔ r'.issues = [] :=
      ⟨fun h => by rw [h] at h3; exact h3.symm.eq_nil, fun h => by rw [h] at h3; exact h3.eq_nil⟩
    dsimp only
    by_cases h5 : r.issues = []
    · rw [if_pos h5, if_pos (h4.1 h5)]
    · rw [if_neg h5, if_neg (fun h => h5 (h4.2 h))]

end KSync
