import Verif.Lemmas.Post

/-! # Strings, URIs, paths, delta lists -/

set_option linter.unusedSectionVars false
set_option linter.unusedSimpArgs false
set_option linter.unusedVariables false

namespace KSync

/-! ## Strings -/

theorem stripPrefix_some {p s r : Str} : stripPrefix p s = some r ↔ s = p ++ r := by
  induction p generalizing s with
  | nil => simp [stripPrefix, eq_comm]
  | cons a p ih =>
    cases s with
    | nil => simp [stripPrefix]
    | cons b s =>
      unfold stripPrefix
      by_cases h : a = b
      · subst h; simp [ih]
      · simp [h, Ne.symm h]

@[simp] theorem stripPrefix_append (p r : Str) : stripPrefix p (p ++ r) = some r :=
  stripPrefix_some.2 rfl

theorem stripPrefix_none {p s : Str} : stripPrefix p s = none ↔ ∀ r, s ≠ p ++ r := by
  constructor
  · intro h r hr
    rw [stripPrefix_some.2 hr] at h; cases h
  · intro h
    match hs : stripPrefix p s with
    | none => rfl
    | some r => exact absurd (stripPrefix_some.1 hs) (h r)

theorem dropWhile_append_of_all {α : Type} {P : α → Bool} {l m : List α} (h : ∀ a ∈ l, P a = true) :
    (l ++ m).dropWhile P = m.dropWhile P := by
  induction l with
  | nil => rfl
  | cons a l ih =>
    rw [List.cons_append, List.dropWhile_cons, if_pos (h a (by simp))]
    exact ih (fun b hb => h b (by simp [hb]))

theorem upToLastSlash_append {base name : Str} (hb : base.getLast? = some '/')
    (hn : '/' ∉ name) : upToLastSlash (base ++ name) = base := by
  unfold upToLastSlash
  rw [List.reverse_append, dropWhile_append_of_all]
  · obtain ⟨l, rfl⟩ : ∃ l, base = l ++ ['/'] := by
      rw [List.getLast?_eq_some_iff] at hb
      exact hb
    simp
  · intro a ha
    simp only [List.mem_reverse] at ha
    simp only [decide_eq_true_eq]
    rintro rfl
    exact hn ha

theorem NotifUri.parent {c : Config} {base name : Str} (h : NotifUri c base name) :
    httpsParent c.notificationUri = some base := by
  unfold httpsParent
  have hne := h.nonempty
  have hpath : ∃ x l, httpsPath (base ++ name) = l ++ [x] ∧ x ≠ '/' := by
    obtain ⟨n, x, rfl⟩ : ∃ n x, name = n ++ [x] := by
      exact ⟨name.dropLast, name.getLast hne, (List.dropLast_concat_getLast hne).symm⟩
    refine ⟨x, ?_⟩
    have hx : x ≠ '/' := by rintro rfl; exact h.plain (by simp)
    unfold httpsPath
    rw [List.drop_append_of_le_length (Nat.le_of_lt h.long)]
    obtain ⟨l, hl⟩ := List.getLast?_eq_some_iff.1 h.slash
    have hlen : schemeLen ≤ l.length := by
      have := h.long; rw [hl] at this; simp at this; omega
    rw [hl, List.drop_append_of_le_length hlen]
    have key : ∀ m : Str, ∃ r, (m ++ ['/'] ++ (n ++ [x])).dropWhile (fun c => c ≠ '/') = r ++ [x] := by
      intro m
      induction m with
      | nil => exact ⟨'/' :: n, by simp⟩
      | cons a m ih =>
        by_cases ha : a = '/'
        · subst ha
          exact ⟨'/' :: (m ++ ['/'] ++ n), by simp⟩
        · obtain ⟨r, hr⟩ := ih
          refine ⟨r, ?_⟩
          rw [← hr]
          simp [List.dropWhile_cons, ha]
    obtain ⟨r, hr⟩ := key (l.drop schemeLen)
    exact ⟨r, hr, hx⟩
  obtain ⟨x, l, hp, hx⟩ := hpath
  rw [h.eq, if_neg]
  · congr 1
    have h1 : (base ++ name).dropLast = base ++ name.dropLast := by
      rw [List.dropLast_append_of_ne_nil hne]
    rw [h1]
    refine upToLastSlash_append h.slash (fun hm => h.plain ?_)
    exact (List.dropLast_prefix name).subset hm
  · rw [hp]
    rintro (h0 | h0)
    · simp at h0
    · have := congrArg List.getLast? h0
      simp at this
      exact hx this

/-! ## Paths -/

theorem splitSlash_plain {s : Str} (h : '/' ∉ s) : splitSlash s = [s] := by
  induction s with
  | nil => rfl
  | cons a s ih =>
    have h1 : a ≠ '/' := by rintro rfl; exact h (by simp)
    unfold splitSlash
    rw [if_neg h1, ih (fun hm => h (by simp [hm]))]

theorem splitSlash_append (s t : Str) : splitSlash (s ++ '/' :: t) = splitSlash s ++ splitSlash t := by
  induction s with
  | nil => rfl
  | cons a s ih =>
    simp only [List.cons_append, splitSlash]
    by_cases h : a = '/'
    · rw [if_pos h, if_pos h, ih]; rfl
    · rw [if_neg h, if_neg h, ih]
      match hs : splitSlash s with
      | [] =>
        exfalso
        cases s with
        | nil => simp [splitSlash] at hs
        | cons b s =>
          unfold splitSlash at hs
          split at hs
          · cases hs
          · split at hs <;> cases hs
      | w :: ws => rfl

theorem splitSlash_ne (s : Str) : splitSlash s ≠ [] := by
  cases s with
  | nil => simp [splitSlash]
  | cons a s =>
    unfold splitSlash
    split
    · simp
    · split <;> simp

theorem splitSlash_last : ∀ {s n : Str}, (splitSlash s).getLast? = some n →
    ∃ d, s = d ++ n ∧ (d = [] ∨ d.getLast? = some '/') ∧ '/' ∉ n
  | [], n, h => by
    simp only [splitSlash, List.getLast?_singleton, Option.some.injEq] at h
    subst h
    exact ⟨[], rfl, Or.inl rfl, List.not_mem_nil⟩
  | c :: s, n, h => by
    have hne := splitSlash_ne s
    have key : ∀ {d : Str}, d = [] ∨ d.getLast? = some '/' → d ≠ [] → (c :: d).getLast? = some '/' := by
      intro d hd h0
      rcases hd with rfl | hd
      · exact absurd rfl h0
      · rw [List.getLast?_cons, hd]; rfl
    by_cases hc : c = '/'
    · rw [splitSlash, if_pos hc, List.getLast?_cons] at h
      obtain ⟨m, hm⟩ := Option.ne_none_iff_exists'.1 (mt List.getLast?_eq_none_iff.1 hne)
      rw [hm] at h
      obtain ⟨d, h1, h2, h3⟩ := splitSlash_last hm
      have h : m = n := Option.some.inj h
      subst h
      refine ⟨c :: d, by rw [h1]; rfl, Or.inr ?_, h3⟩
      by_cases h0 : d = []
      · subst h0; rw [hc]; rfl
      · exact key h2 h0
    · rw [splitSlash, if_neg hc] at h
      match hs : splitSlash s with
      | [] => exact absurd hs hne
      | [w] =>
        rw [hs] at h
        have h : c :: w = n := Option.some.inj h
        subst h
        obtain ⟨d, h1, h2, h3⟩ := splitSlash_last (s := s) (n := w) (by rw [hs]; rfl)
        by_cases h0 : d = []
        · subst h0
          rw [List.nil_append] at h1
          subst h1
          exact ⟨[], rfl, Or.inl rfl, fun h => (List.mem_cons.1 h).elim (fun h => hc h.symm) h3⟩
        · rcases h2 with rfl | h2
          · exact absurd rfl h0
          · obtain ⟨d', rfl⟩ := List.getLast?_eq_some_iff.1 h2
            rw [h1, List.append_assoc, List.singleton_append, splitSlash_append] at hs
            have hlen := congrArg List.length hs
            have e2 := List.length_pos_iff.2 (splitSlash_ne d')
            rw [splitSlash_plain h3, List.length_append] at hlen
            simp only [List.length_singleton] at hlen
            omega
      | w :: w' :: ws =>
        rw [hs] at h
        have hl : (splitSlash s).getLast? = some n := by
          rw [hs]
          simpa [List.getLast?_cons_cons] using h
        obtain ⟨d, h1, h2, h3⟩ := splitSlash_last hl
        refine ⟨c :: d, by rw [h1]; rfl, Or.inr (key h2 ?_), h3⟩
        rintro rfl
        rw [h1, List.nil_append, splitSlash_plain h3] at hs
        cases hs

theorem EndsInName.of_ends {s : Str} (h : endsInName s = true) : EndsInName s := by
  unfold endsInName at h
  match hs : (splitSlash s).getLast? with
  | none => rw [hs] at h; cases h
  | some n =>
    rw [hs] at h
    obtain ⟨h1, h2, h3⟩ := of_decide_eq_true h
    obtain ⟨d, g1, g2, g3⟩ := splitSlash_last hs
    exact ⟨d, n, g1, g2, h1, g3, h2, h3⟩

theorem EndsInName.ends {s : Str} (h : EndsInName s) : endsInName s = true := by
  obtain ⟨d, n, rfl, hd, h1, h2, h3, h4⟩ := h
  have : (splitSlash (d ++ n)).getLast? = some n := by
    rcases hd with rfl | hd
    · rw [List.nil_append, splitSlash_plain h2]; rfl
    · obtain ⟨d', rfl⟩ := List.getLast?_eq_some_iff.1 hd
      rw [List.append_assoc, List.singleton_append, splitSlash_append, splitSlash_plain h2]
      simp
  unfold endsInName
  rw [this]
  simp [h1, h3, h4]

theorem comps_plain {s : Str} (h : '/' ∉ s) (h1 : s ≠ []) (h2 : s ≠ ['.']) : comps s = [s] := by
  unfold comps
  rw [splitSlash_plain h]
  simp [h1, h2]

theorem foldl_pushComp {p : Path} {l : List Name} (h : ['.', '.'] ∉ l) :
    l.foldl pushComp p = p ++ l := by
  induction l generalizing p with
  | nil => simp
  | cons a l ih =>
    have h1 : a ≠ ['.', '.'] := by rintro rfl; exact h (by simp)
    rw [List.foldl_cons, ih (fun hm => h (by simp [hm]))]
    unfold pushComp
    rw [if_neg h1]
    simp

theorem joinPath_clean {p : Path} {rel : Str} (h : CleanRel rel) :
    joinPath p rel = p ++ comps rel := by
  unfold joinPath
  rw [if_neg h.relative, foldl_pushComp h.noParent]

theorem joinPath_plain {p : Path} {s : Str} (h : '/' ∉ s) (h1 : s ≠ []) (h2 : s ≠ ['.'])
    (h3 : s ≠ ['.', '.']) : joinPath p s = p ++ [s] := by
  unfold joinPath
  have h4 : s.head? ≠ some '/' := by
    cases s with
    | nil => simp
    | cons a s => simp only [List.head?_cons, ne_eq, Option.some.injEq]; rintro rfl; exact h (by simp)
  rw [if_neg h4, comps_plain h h1 h2]
  simp [pushComp, h3]

theorem NotifUri.joinName {c : Config} {base name : Str} (h : NotifUri c base name) (p : Path) :
    joinPath p name = p ++ [name] :=
  joinPath_plain h.plain h.nonempty h.notDot h.notDotDot

theorem NotifUri.joinTmp {c : Config} {base name : Str} (h : NotifUri c base name) (p : Path) :
    joinPath p (name ++ ".tmp".toList) = p ++ [name ++ ".tmp".toList] := by
  refine joinPath_plain ?_ ?_ ?_ ?_
  · simp [h.plain]
  · simp
  · intro hh
    have := congrArg List.length hh
    simp at this
  · intro hh
    have := congrArg List.length hh
    simp at this

theorem Apart.symm {p q : Path} (h : Apart p q) : Apart q p := ⟨h.2, h.1⟩

/-- Two directories apart have no path below both. -/
theorem Apart.not_both {p q r : Path} (h : Apart p q) (h1 : p <+: r) (h2 : q <+: r) : False := by
  rcases List.prefix_or_prefix_of_prefix h1 h2 with h3 | h3
  · exact h.1 h3
  · exact h.2 h3

theorem Apart.ne_append {p q : Path} (h : Apart p q) (a b : Path) : p ++ a ≠ q ++ b := by
  intro he
  exact h.not_both (List.prefix_append p a) (he ▸ List.prefix_append q b)

/-! ## Sources -/

variable [Ext]

theorem resolve_locates {c : Config} {uri : Str} {src : FetchSource} :
    c.fetcher.resolve uri = .ok src ↔ c.Locates uri src := by
  unfold Fetcher.resolve Config.fetcher
  dsimp only
  cases hm : c.fetchMap with
  | none =>
    constructor
    · intro h; cases h; exact .direct hm
    · intro h
      cases h with
      | direct => rfl
      | mappedUri base u m rel h1 => rw [hm] at h1; cases h1
      | mappedDir base p rel h1 => rw [hm] at h1; cases h1
  | some mp =>
    dsimp only
    unfold FetchMap.source
    obtain ⟨base, bf⟩ := mp
    constructor
    · intro h
      match hs : stripPrefix base uri with
      | none => simp only [hs] at h; cases h
      | some rel =>
        simp only [hs] at h
        cases h
        cases bf with
        | file p => exact .mappedDir base p rel hm (stripPrefix_some.1 hs)
        | uri u m => exact .mappedUri base u m rel hm (stripPrefix_some.1 hs)
    · intro h
      cases h with
      | direct h1 => rw [hm] at h1; cases h1
      | mappedUri base' u m rel h1 h2 =>
        rw [hm] at h1; cases h1; subst h2; simp [FetchSource.join]
      | mappedDir base' p rel h1 h2 =>
        rw [hm] at h1; cases h1; subst h2; simp [FetchSource.join]

/-! ## The limited list of deltas -/

theorem contiguous_iff {l : List Nat} : contiguous l = true ↔
    ∀ i (h : i + 1 < l.length), l[i + 1] = l[i]'(Nat.lt_of_succ_lt h) + 1 := by
  induction l with
  | nil => simp [contiguous]
  | cons a l ih =>
    cases l with
    | nil => simp [contiguous]
    | cons b l =>
      unfold contiguous
      rw [Bool.and_eq_true, ih, decide_eq_true_eq]
      constructor
      · rintro ⟨h1, h2⟩ i hi
        cases i with
        | zero => exact h1
        | succ i => exact h2 i (by simpa using hi)
      · intro h
        exact ⟨h 0 (by simp), fun i hi => h (i + 1) (by simpa using hi)⟩

theorem contiguous_drop {l : List Nat} (h : contiguous l = true) (k : Nat) :
    contiguous (l.drop k) = true := by
  rw [contiguous_iff] at h ⊢
  intro i hi
  simp only [List.getElem_drop]
  rw [List.length_drop] at hi
  exact h (k + i) (by omega)

theorem sortVerify_limit {max : Option Nat} {ds ds' : List DeltaInfo}
    (h : sortVerify max ds = .ok ds') : IsLimit max ds ds' := by
  unfold sortVerify at h
  dsimp only at h
  have hperm := sortBy_perm (·.serial) ds
  have hsort := sortBy_sorted (·.serial) ds
  have hlen : (sortBy (·.serial) ds).length = ds.length := hperm.length_eq
  generalize sortBy (·.serial) ds = sorted at h hperm hsort hlen
  have hdrop : ∃ k, (ds' = sorted.drop k ∨ ds' = []) ∧ truncateDeltas max sorted = .ok ds' := by
    match ht : truncateDeltas max sorted with
    | .error e => rw [ht] at h; cases h
    | .ok kept =>
      rw [ht] at h
      dsimp only at h
      have hk : kept = ds' := by
        by_cases hc : contiguous ((if Ext.verifyFirst = true then sorted else kept).map
          (·.serial)) = true
        · rw [if_pos hc] at h; cases h; rfl
        · rw [if_neg hc] at h; cases h
      subst hk
      unfold truncateDeltas at ht
      match max with
      | none => cases ht; exact ⟨0, Or.inl rfl, rfl⟩
      | some 0 =>
        simp only at ht
        split at ht
        · cases ht; exact ⟨0, Or.inr rfl, rfl⟩
        · split at ht
          · cases ht; exact ⟨0, Or.inl rfl, rfl⟩
          · cases ht; exact ⟨0, Or.inr rfl, rfl⟩
          · cases ht
      | some (l + 1) => cases ht; exact ⟨_, Or.inl rfl, rfl⟩
  obtain ⟨k, hk, ht⟩ := hdrop
  have hc : contiguous (ds'.map (·.serial)) = true := by
    rw [ht] at h
    dsimp only at h
    by_cases hv : Ext.verifyFirst = true
    · rw [if_pos hv] at h
      split at h
      · rename_i hc
        rcases hk with rfl | rfl
        · rw [List.map_drop]; exact contiguous_drop hc k
        · rfl
      · cases h
    · rw [if_neg hv] at h
      split at h
      · assumption
      · cases h
  refine ⟨?_, ?_, ?_⟩
  · rcases hk with rfl | rfl
    · refine ⟨sorted.take k, by rw [List.take_append_drop]; exact hperm, ?_⟩
      intro o ho d hd
      have := hsort
      rw [← List.take_append_drop k sorted, List.pairwise_append] at this
      exact this.2.2 o ho d hd
    · exact ⟨ds, by simp, by simp⟩
  · intro i hi
    have := (contiguous_iff.1 hc) i (by simpa using hi)
    simpa using this
  · unfold truncateDeltas at ht
    match max with
    | none => cases ht; exact hlen
    | some 0 =>
      simp only at ht ⊢
      split at ht
      · cases ht; exact Or.inr rfl
      · split at ht
        · cases ht; exact Or.inl hlen
        · cases ht; exact Or.inr rfl
        · cases ht
    | some (l + 1) =>
      cases ht
      simp only [List.length_drop, hlen]
      omega


theorem contiguous_pairwise {l : List Nat} (h : contiguous l = true) :
    l.Pairwise (· < ·) := by
  induction l with
  | nil => simp
  | cons a l ih =>
    cases l with
    | nil => simp
    | cons b l =>
      unfold contiguous at h
      rw [Bool.and_eq_true, decide_eq_true_eq] at h
      have ih' := ih h.2
      rw [List.pairwise_cons]
      refine ⟨fun x hx => ?_, ih'⟩
      rcases List.mem_cons.1 hx with rfl | hx
      · omega
      · have := (List.pairwise_cons.1 ih').1 x hx
        omega

theorem Gapless.sorted {ds : List DeltaInfo} (h : Gapless ds) :
    (sortBy (·.serial) ds).Perm ds ∧
      contiguous ((sortBy (·.serial) ds).map (·.serial)) = true := by
  obtain ⟨l, hp, hc⟩ := h
  have hcont : contiguous (l.map (·.serial)) = true := by
    rw [contiguous_iff]
    intro i hi
    simpa using hc i (by simpa using hi)
  have hpw : l.Pairwise (fun x y => x.serial < y.serial) := by
    have := contiguous_pairwise hcont
    rwa [List.pairwise_map] at this
  have hs := sortBy_perm (·.serial) ds
  refine ⟨hs, ?_⟩
  have heq : sortBy (·.serial) ds = l := by
    have h1 := sortBy_sorted (·.serial) ds
    have h2 : (sortBy (·.serial) ds).Perm l := hs.trans hp.symm
    -- serials are pairwise different, so the sorted list is strictly sorted
    have hne : l.Pairwise (fun x y => x.serial ≠ y.serial) := hpw.imp (fun h => by omega)
    have hne' : (sortBy (·.serial) ds).Pairwise (fun x y => x.serial ≠ y.serial) :=
      (h2.pairwise_iff (fun h => Ne.symm h)).2 hne
    refine eq_of_perm_of_sorted (k := (·.serial)) h2 ?_ hpw
    exact (h1.and hne').imp (fun h => by omega)
  rw [heq]; exact hcont

theorem sortVerify_ok {max : Option Nat} {ds : List DeltaInfo} (hmax : max ≠ some 0)
    (h : Gapless ds) : ∃ ds', sortVerify max ds = .ok ds' := by
  have hc := h.sorted.2
  unfold sortVerify
  dsimp only
  generalize sortBy (·.serial) ds = sorted at hc
  have key : ∀ kept : List DeltaInfo, (∃ k, kept = sorted.drop k) → ∃ ds',
      (if contiguous ((if Ext.verifyFirst = true then sorted else kept).map (·.serial)) = true
        then Except.ok kept else .error Err.gaps) = .ok ds' := by
    rintro kept ⟨k, rfl⟩
    refine ⟨sorted.drop k, ?_⟩
    rw [if_pos]
    by_cases hv : Ext.verifyFirst = true
    · rw [if_pos hv]; exact hc
    · rw [if_neg hv, List.map_drop]; exact contiguous_drop hc k
  match max with
  | none => exact key sorted ⟨0, rfl⟩
  | some 0 => exact absurd rfl hmax
  | some (l + 1) => exact key _ ⟨_, rfl⟩

theorem IsLimit.perm_of_none {ds ds' : List DeltaInfo} (h : IsLimit none ds ds') :
    ds'.Perm ds := by
  obtain ⟨older, h1, _⟩ := h.split
  have h2 := h.length
  have h3 := h1.length_eq
  simp at h2 h3
  have : older = [] := List.length_eq_zero_iff.1 (by omega)
  subst this
  exact h1

theorem IsLimit.serials {max : Option Nat} {ds ds' : List DeltaInfo} (h : IsLimit max ds ds')
    (i j : Nat) (hj : i + j < ds'.length) :
    (ds'[i + j]).serial = (ds'[i]'(by omega)).serial + j := by
  induction j with
  | zero => rfl
  | succ j ih =>
    have := h.contig (i + j) (by omega)
    have ih' := ih (by omega)
    show (ds'[i + j + 1]).serial = _
    omega

end KSync
