import Verif.Lemmas.Run

/-! # Facts about the file system model -/

set_option linter.unusedSectionVars false
set_option linter.unusedSimpArgs false

namespace KSync

/-! ## Association lists -/

section Assoc

variable {κ ν : Type} [BEq κ] [LawfulBEq κ]

theorem lookup_cons_self (k : κ) (v : ν) (l : List (κ × ν)) :
    ((k, v) :: l).lookup k = some v := by
  simp [List.lookup_cons]

theorem lookup_cons_ne {k q : κ} (v : ν) (l : List (κ × ν)) (h : q ≠ k) :
    ((k, v) :: l).lookup q = l.lookup q := by
  have : (q == k) = false := by simpa using h
  simp [List.lookup_cons, this]

theorem lookup_filter (l : List (κ × ν)) (P : κ → Bool) (q : κ) :
    (l.filter (fun e => P e.1)).lookup q = if P q then l.lookup q else none := by
  induction l with
  | nil => simp
  | cons e l ih =>
    obtain ⟨k, v⟩ := e
    by_cases hq : q = k
    · subst hq
      cases hP : P q with
      | true => simp [List.filter_cons, hP, lookup_cons_self]
      | false =>
        simp only [List.filter_cons, hP, Bool.false_eq_true, if_false]
        simpa [hP] using ih
    · rw [lookup_cons_ne v l hq]
      cases hP : P k with
      | true => simp only [List.filter_cons, hP, if_true]; rw [lookup_cons_ne v _ hq, ih]
      | false => simp only [List.filter_cons, hP, Bool.false_eq_true, if_false]; exact ih

theorem lookup_mem {l : List (κ × ν)} {q : κ} {v : ν} (h : l.lookup q = some v) :
    (q, v) ∈ l := by
  induction l with
  | nil => simp at h
  | cons e l ih =>
    obtain ⟨k, v'⟩ := e
    by_cases hq : q = k
    · subst hq; rw [lookup_cons_self] at h; simp at h; simp [h]
    · rw [lookup_cons_ne _ _ hq] at h; simp [ih h]

theorem lookup_isSome_of_mem {l : List (κ × ν)} {q : κ} {v : ν} (h : (q, v) ∈ l) :
    ∃ v', l.lookup q = some v' := by
  induction l with
  | nil => simp at h
  | cons e l ih =>
    obtain ⟨k, v'⟩ := e
    by_cases hq : q = k
    · subst hq; exact ⟨v', lookup_cons_self _ _ _⟩
    · have : (q, v) ∈ l := by
        rcases List.mem_cons.1 h with h | h
        · cases h; exact absurd rfl hq
        · exact h
      obtain ⟨x, hx⟩ := ih this
      exact ⟨x, by rw [lookup_cons_ne _ _ hq]; exact hx⟩

theorem lookup_eq_none_iff' {l : List (κ × ν)} {q : κ} :
    l.lookup q = none ↔ ∀ v, (q, v) ∉ l := by
  constructor
  · intro h v hm
    obtain ⟨v', h'⟩ := lookup_isSome_of_mem hm
    rw [h] at h'; cases h'
  · intro h
    cases hl : l.lookup q with
    | none => rfl
    | some v => exact absurd (lookup_mem hl) (h v)

end Assoc

namespace FS

@[simp] theorem get_root (fs : FS) : fs.get [] = some .dir := rfl

theorem get_set (fs : FS) {p : Path} (hp : p ≠ []) (n : Node) (q : Path) :
    (fs.set p n).get q = if q = p then some n else fs.get q := by
  unfold get set
  by_cases hq : q = []
  · subst hq; simp [Ne.symm hp]
  · simp only [hq, if_false]
    by_cases h : q = p
    · subst h; rw [lookup_cons_self]; simp
    · rw [lookup_cons_ne _ _ h, lookup_filter fs.ents (fun e => decide (e ≠ p))]
      simp [h]

theorem get_del (fs : FS) (p q : Path) :
    (fs.del p).get q = if q = p ∧ q ≠ [] then none else fs.get q := by
  unfold get del
  by_cases hq : q = []
  · subst hq; simp
  · simp only [hq, if_false]
    rw [lookup_filter fs.ents (fun e => decide (e ≠ p))]
    by_cases h : q = p
    · simp [h]
      exact fun h' => absurd h' (by rw [← h]; exact hq)
    · simp [h]

theorem get_set_self (fs : FS) {p : Path} (hp : p ≠ []) (n : Node) :
    (fs.set p n).get p = some n := by rw [get_set fs hp]; simp

theorem get_set_ne (fs : FS) {p q : Path} (n : Node) (h : q ≠ p) :
    (fs.set p n).get q = fs.get q := by
  by_cases hp : p = []
  · subst hp
    unfold get set
    simp only [h, if_false]
    rw [lookup_cons_ne _ _ h, lookup_filter fs.ents (fun e => decide (e ≠ []))]
    simp [h]
  · rw [get_set fs hp]; simp [h]

theorem get_del_self (fs : FS) {p : Path} (hp : p ≠ []) : (fs.del p).get p = none := by
  rw [get_del]; simp [hp]

theorem get_del_ne (fs : FS) {p q : Path} (h : q ≠ p) : (fs.del p).get q = fs.get q := by
  rw [get_del]; simp [h]

/-- `get` of an entry that occurs in the list. -/
theorem get_of_mem {fs : FS} {p : Path} {n : Node} (hp : p ≠ []) (h : (p, n) ∈ fs.ents) :
    ∃ n', fs.get p = some n' := by
  unfold get; simp only [hp, if_false]; exact lookup_isSome_of_mem h

theorem mem_of_get {fs : FS} {p : Path} {n : Node} (hp : p ≠ []) (h : fs.get p = some n) :
    (p, n) ∈ fs.ents := by
  unfold get at h; simp only [hp, if_false] at h; exact lookup_mem h

theorem hasChild_iff (fs : FS) (p : Path) :
    fs.hasChild p = true ↔ ∃ q, p <+: q ∧ q ≠ p ∧ fs.get q ≠ none := by
  unfold hasChild
  rw [List.any_eq_true]
  constructor
  · rintro ⟨⟨q, n⟩, hm, h⟩
    simp only [Bool.and_eq_true, decide_eq_true_eq] at h
    refine ⟨q, h.1, h.2, ?_⟩
    have hq : q ≠ [] := by
      rintro rfl
      have := List.prefix_nil.1 h.1
      exact h.2 this.symm
    obtain ⟨n', h'⟩ := get_of_mem hq hm
    simp [h']
  · rintro ⟨q, h1, h2, h3⟩
    have hq : q ≠ [] := by
      rintro rfl
      have := List.prefix_nil.1 h1
      exact h2 this.symm
    cases hg : fs.get q with
    | none => exact absurd hg h3
    | some n => exact ⟨(q, n), mem_of_get hq hg, by simp [h1, h2]⟩

theorem hasChild_false_iff (fs : FS) (p : Path) :
    fs.hasChild p = false ↔ ∀ q, p <+: q → q ≠ p → fs.get q = none := by
  rw [← Bool.not_eq_true, hasChild_iff]
  constructor
  · intro h q h1 h2
    by_cases h3 : fs.get q = none
    · exact h3
    · exact absurd ⟨q, h1, h2, h3⟩ h
  · rintro h ⟨q, h1, h2, h3⟩
    exact h3 (h q h1 h2)

theorem mem_tree (fs : FS) (p q : Path) (hp : p ≠ []) :
    q ∈ fs.tree p ↔ p <+: q ∧ fs.get q ≠ none := by
  unfold tree
  simp only [List.mem_filter, List.mem_map, decide_eq_true_eq]
  constructor
  · rintro ⟨⟨⟨q', n⟩, hm, rfl⟩, h⟩
    have hq : q' ≠ [] := by rintro rfl; exact hp (List.prefix_nil.1 h)
    obtain ⟨n', h'⟩ := get_of_mem hq hm
    exact ⟨h, by simp [h']⟩
  · rintro ⟨h, h'⟩
    have hq : q ≠ [] := by rintro rfl; exact hp (List.prefix_nil.1 h)
    cases hg : fs.get q with
    | none => exact absurd hg h'
    | some n => exact ⟨⟨(q, n), mem_of_get hq hg, rfl⟩, h⟩

/-- What a directory rename leaves at a path. -/
theorem get_moveTree (fs : FS) {src dst : Path} (hs : src ≠ []) (hd : dst ≠ []) (q : Path) :
    (fs.moveTree src dst).get q =
      if dst <+: q then fs.get (src ++ q.drop dst.length)
      else if src <+: q then none else fs.get q := by
  by_cases hq : q = []
  · subst hq
    have : ¬ dst <+: [] := fun h => hd (List.prefix_nil.1 h)
    have h' : ¬ src <+: [] := fun h => hs (List.prefix_nil.1 h)
    simp [this, h']
  · unfold moveTree
    unfold get
    simp only [hq, if_false]
    rw [List.lookup_append]
    have moved : ∀ l : List (Path × Node),
        ((l.filter (fun e => decide (src <+: e.1))).map
          (fun e => (dst ++ e.1.drop src.length, e.2))).lookup q =
        if dst <+: q then l.lookup (src ++ q.drop dst.length) else none := by
      intro l
      induction l with
      | nil => simp
      | cons e l ih =>
        obtain ⟨k, n⟩ := e
        by_cases hk : src <+: k
        · simp only [List.filter_cons, hk, decide_true, if_true, List.map_cons]
          obtain ⟨t, rfl⟩ := hk
          by_cases hqt : q = dst ++ t
          · subst hqt
            simp [lookup_cons_self]
          · have h' : q ≠ dst ++ List.drop src.length (src ++ t) := by simpa using hqt
            rw [lookup_cons_ne _ _ h', ih]
            by_cases hdq : dst <+: q
            · obtain ⟨u, rfl⟩ := hdq
              have : src ++ List.drop dst.length (dst ++ u) ≠ src ++ t := by
                intro h
                apply hqt
                simpa using h
              simp only [List.prefix_append, if_true]
              rw [lookup_cons_ne _ _ this]
            · simp [hdq]
        · simp only [List.filter_cons, hk, decide_false, Bool.false_eq_true, if_false, ih]
          have : src ++ q.drop dst.length ≠ k := fun h => hk ⟨_, h⟩
          rw [lookup_cons_ne _ _ this]
    have kept : ∀ l : List (Path × Node),
        (l.filter (fun e => decide (¬ src <+: e.1 ∧ ¬ dst <+: e.1))).lookup q =
        if src <+: q ∨ dst <+: q then none else l.lookup q := by
      intro l
      rw [lookup_filter l (fun e => decide (¬ src <+: e ∧ ¬ dst <+: e))]
      by_cases ha : src <+: q <;> by_cases hb : dst <+: q <;> simp [ha, hb]
    rw [moved, kept]
    have hne : src ++ q.drop dst.length ≠ [] := by simp [hs]
    by_cases hdq : dst <+: q
    · simp [hdq, hs]
    · by_cases hsq : src <+: q <;> simp [hdq, hsq]

/-! ## Files and links, ignoring directories -/

theorem leaf_eq_some_file {fs : FS} {p : Path} {b : Bytes} {t : Time} :
    fs.leaf p = some (.file b t) ↔ fs.get p = some (.file b t) := by
  unfold leaf
  cases h : fs.get p with
  | none => simp
  | some n => cases n <;> simp

theorem file?_eq (fs : FS) (p : Path) :
    fs.file? p = match fs.leaf p with
      | some (.file b _) => some b
      | _ => none := by
  unfold file? leaf
  cases fs.get p with
  | none => rfl
  | some n => cases n <;> rfl

theorem link?_eq (fs : FS) (p : Path) :
    fs.link? p = match fs.leaf p with
      | some (.link t) => some t
      | _ => none := by
  unfold link? leaf
  cases fs.get p with
  | none => rfl
  | some n => cases n <;> rfl

theorem file?_of_leaf {fs fs' : FS} {p : Path} (h : fs'.leaf p = fs.leaf p) :
    fs'.file? p = fs.file? p := by rw [file?_eq, file?_eq, h]

theorem link?_of_leaf {fs fs' : FS} {p : Path} (h : fs'.leaf p = fs.leaf p) :
    fs'.link? p = fs.link? p := by rw [link?_eq, link?_eq, h]

theorem leaf_set (fs : FS) {p : Path} (hp : p ≠ []) (n : Node) (hn : n ≠ .dir) (q : Path) :
    (fs.set p n).leaf q = if q = p then some n else fs.leaf q := by
  unfold leaf
  rw [get_set fs hp]
  by_cases h : q = p
  · simp only [h, if_true]; cases n <;> simp_all
  · simp [h]

theorem leaf_set_ne (fs : FS) {p q : Path} (n : Node) (h : q ≠ p) :
    (fs.set p n).leaf q = fs.leaf q := by
  unfold leaf; rw [get_set_ne fs n h]

theorem leaf_del_ne (fs : FS) {p q : Path} (h : q ≠ p) : (fs.del p).leaf q = fs.leaf q := by
  unfold leaf; rw [get_del_ne fs h]

theorem leaf_mkdir (fs : FS) {p : Path} (h : fs.get p = none) (q : Path) :
    (fs.set p .dir).leaf q = fs.leaf q := by
  have hp : p ≠ [] := by rintro rfl; simp at h
  by_cases hq : q = p
  · subst hq; unfold leaf; rw [get_set_self fs hp, h]
  · exact leaf_set_ne fs _ hq

theorem leaf_rmdir (fs : FS) {p : Path} (h : fs.get p = some .dir) (q : Path) :
    (fs.del p).leaf q = fs.leaf q := by
  by_cases hq : q = p
  · subst hq
    unfold leaf
    rw [get_del, h]
    by_cases hp : q = [] <;> simp [hp]
  · exact leaf_del_ne fs hq

end FS
end KSync
