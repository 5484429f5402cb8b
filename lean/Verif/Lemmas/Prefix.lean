import Verif.Model.Prefix

/-! # Reading prefixes from their text -/

set_option linter.unusedVariables false

namespace KSync

/-! ## Numbers -/

theorem digitVal_digitChar {r n : Nat} (h : n < r) (hr : r = 10 ∨ r = 16) :
    digitVal r (digitChar n) = some n := by
  have h16 : ∀ n : Fin 16, digitVal 16 (digitChar n.val) = some n.val := by decide
  have h10 : ∀ n : Fin 10, digitVal 10 (digitChar n.val) = some n.val := by decide
  rcases hr with rfl | rfl
  · exact h10 ⟨n, h⟩
  · exact h16 ⟨n, h⟩

theorem dropZeros_ne : ∀ {l : List Nat}, l ≠ [] → dropZeros l ≠ []
  | [], h => absurd rfl h
  | [d], _ => by simp [dropZeros]
  | d :: e :: l, _ => by
    unfold dropZeros
    split
    · exact dropZeros_ne (by simp)
    · simp

theorem dropZeros_length : ∀ (l : List Nat), (dropZeros l).length ≤ l.length
  | [] => Nat.le_refl _
  | [d] => Nat.le_refl _
  | d :: e :: l => by
    unfold dropZeros
    split
    · exact Nat.le_trans (dropZeros_length (e :: l)) (Nat.le_succ _)
    · exact Nat.le_refl _

theorem dropZeros_mem : ∀ {l : List Nat} {d : Nat}, d ∈ dropZeros l → d ∈ l
  | [], _, h => h
  | [_], _, h => h
  | d :: e :: l, x, h => by
    unfold dropZeros at h
    split at h
    · exact List.mem_cons_of_mem _ (dropZeros_mem h)
    · exact h

/-- Only a number of one digit begins with zero. -/
theorem dropZeros_head : ∀ {l : List Nat}, (dropZeros l).head? = some 0 → (dropZeros l).length ≤ 1
  | [], h => by cases h
  | [d], _ => Nat.le_refl _
  | d :: e :: l, h => by
    unfold dropZeros at h ⊢
    by_cases hd : d = 0
    · rw [if_pos hd] at h ⊢; exact dropZeros_head h
    · rw [if_neg hd] at h
      injection h with h
      exact absurd h hd

theorem dropZeros_foldl (r : Nat) : ∀ (l : List Nat),
    (dropZeros l).foldl (fun a d => a * r + d) 0 = l.foldl (fun a d => a * r + d) 0
  | [] => rfl
  | [d] => rfl
  | d :: e :: l => by
    unfold dropZeros
    split
    · rename_i h
      rw [dropZeros_foldl r (e :: l), h]
      simp
    · rfl

theorem digitsVal_map {r : Nat} (hr : r = 10 ∨ r = 16) : ∀ (l : List Nat) (acc : Nat),
    (∀ d ∈ l, d < r) → digitsVal r acc (l.map digitChar) = l.foldl (fun a d => a * r + d) acc
  | [], _, _ => rfl
  | d :: l, acc, h => by
    rw [List.map_cons]
    unfold digitsVal
    rw [digitVal_digitChar (h d (List.mem_cons_self ..)) hr, digitsVal_map hr l _
      (fun x hx => h x (List.mem_cons_of_mem _ hx))]
    rfl

/-- What is needed of the text of a number. -/
structure NumText (r max top n : Nat) (s : Str) : Prop where
  ne : s ≠ []
  digits : ∀ c ∈ s, (digitVal r c).isSome = true
  length : s.length ≤ max
  val : digitsVal r 0 s = n
  top : n ≤ top
  zero : s.head? = some '0' → s.length ≤ 1

theorem numText_of {r top n : Nat} {l : List Nat} (hr : r = 10 ∨ r = 16) (hne : l ≠ [])
    (hd : ∀ d ∈ l, d < r) (hv : l.foldl (fun a d => a * r + d) 0 = n) (ht : n ≤ top) :
    NumText r l.length top n ((dropZeros l).map digitChar) where
  ne := by
    intro h
    exact dropZeros_ne hne (List.map_eq_nil_iff.1 h)
  digits := by
    intro c hc
    obtain ⟨d, h1, rfl⟩ := List.mem_map.1 hc
    rw [digitVal_digitChar (hd d (dropZeros_mem h1)) hr]
    rfl
  length := by rw [List.length_map]; exact dropZeros_length l
  val := by
    rw [digitsVal_map hr _ _ (fun d h => hd d (dropZeros_mem h)), dropZeros_foldl, hv]
  top := ht
  zero := by
    intro h
    rw [List.length_map]
    refine dropZeros_head ?_
    rw [List.head?_map, Option.map_eq_some_iff] at h
    obtain ⟨d, h1, h2⟩ := h
    have hd' := hd d (dropZeros_mem (List.mem_of_mem_head? h1))
    have : digitVal r (digitChar d) = digitVal r '0' := by rw [h2]
    have h0 : digitVal r '0' = some 0 := by rcases hr with rfl | rfl <;> decide
    rw [digitVal_digitChar hd' hr, h0] at this
    injection this with this
    rw [h1, this]

theorem decText_num {n : Nat} (h : n ≤ 255) : NumText 10 3 255 n (decText n) := by
  refine numText_of (l := [n / 100, n / 10 % 10, n % 10]) (Or.inl rfl) (by simp) ?_ ?_ h
  · intro d hd
    simp only [List.mem_cons, List.not_mem_nil, or_false] at hd
    rcases hd with rfl | rfl | rfl <;> omega
  · simp only [List.foldl]; omega

theorem hexText_num {n : Nat} (h : n ≤ 65535) : NumText 16 4 65535 n (hexText n) := by
  refine numText_of (l := [n / 4096, n / 256 % 16, n / 16 % 16, n % 16]) (Or.inr rfl) (by simp) ?_ ?_ h
  · intro d hd
    simp only [List.mem_cons, List.not_mem_nil, or_false] at hd
    rcases hd with rfl | rfl | rfl | rfl <;> omega
  · simp only [List.foldl]; omega

/-- The text does not begin with a digit. -/
def NoDigit (r : Nat) (s : Str) : Prop := ∀ c, s.head? = some c → digitVal r c = none

theorem takeDigits {r : Nat} : ∀ {s rest : Str}, (∀ c ∈ s, (digitVal r c).isSome = true) →
    NoDigit r rest → (s ++ rest).takeWhile (fun c => (digitVal r c).isSome) = s ∧
      (s ++ rest).dropWhile (fun c => (digitVal r c).isSome) = rest
  | [], rest, _, h => by
    cases rest with
    | nil => exact ⟨rfl, rfl⟩
    | cons c rest =>
      have := h c rfl
      rw [List.nil_append, List.takeWhile_cons, List.dropWhile_cons, this]
      exact ⟨rfl, rfl⟩
  | c :: s, rest, hs, h => by
    obtain ⟨h1, h2⟩ := takeDigits (s := s) (fun c hc => hs c (List.mem_cons_of_mem _ hc)) h
    rw [List.cons_append, List.takeWhile_cons, List.dropWhile_cons, hs c (List.mem_cons_self ..), h1, h2]
    exact ⟨rfl, rfl⟩

theorem readNumber_text {r max top n : Nat} {z : Bool} {s rest : Str} (h : NumText r max top n s)
    (hr : NoDigit r rest) : readNumber r max top z (s ++ rest) = some (n, rest) := by
  obtain ⟨h1, h2⟩ := takeDigits h.digits hr
  unfold readNumber
  dsimp only
  rw [h1, h2, if_neg h.ne, if_neg (Nat.not_lt.2 h.length), h.val, if_neg (Nat.not_lt.2 h.top), if_neg]
  rintro ⟨_, a, b⟩
  exact absurd (h.zero a) (Nat.not_le.2 b)

theorem readNumber_none {r max top : Nat} {z : Bool} {s : Str} (h : NoDigit r s) :
    readNumber r max top z s = none := by
  have := (takeDigits (s := []) (rest := s) (r := r) (fun c hc => by cases hc) h).1
  rw [List.nil_append] at this
  unfold readNumber
  dsimp only
  rw [this, if_pos rfl]

theorem readNumber_mem {r max top n : Nat} {z : Bool} {s s' : Str}
    (h : readNumber r max top z s = some (n, s')) {c : Char} (hc : c ∈ s') : c ∈ s := by
  unfold readNumber at h
  dsimp only at h
  split at h
  · cases h
  · split at h
    · cases h
    · split at h
      · cases h
      · split at h
        · cases h
        · injection h with h
          injection h with _ h
          rw [← h] at hc
          exact (List.dropWhile_sublist _).subset hc

theorem parseU8_dec {n : Nat} (h : n ≤ 255) : parseU8 (decText n) = some n := by
  have hn := decText_num h
  have hp : ∀ t, decText n ≠ '+' :: t := by
    intro t ht
    have := hn.digits '+' (by rw [ht]; exact List.mem_cons_self ..)
    revert this
    decide
  have key : ∀ s, (∀ t, s ≠ '+' :: t) → parseU8 s =
      if s = [] then none
      else if s.all (fun c => (digitVal 10 c).isSome) = false then none
      else if 255 < digitsVal 10 0 s then none
      else some (digitsVal 10 0 s) := by
    intro s hs
    have : dropPlus s = s := by
      unfold dropPlus
      split
      · rename_i t; exact absurd rfl (hs t)
      · rfl
    unfold parseU8
    rw [this]
  rw [key _ hp, if_neg hn.ne, List.all_eq_true.2 hn.digits, if_neg (by simp), hn.val,
    if_neg (Nat.not_lt.2 h)]

/-! ## IPv4 -/

theorem noDigit_of {r : Nat} {c : Char} {s : Str} (h : digitVal r c = none) : NoDigit r (c :: s) := by
  intro c' hc
  injection hc with hc
  rw [← hc]; exact h

theorem noDigit_nil {r : Nat} : NoDigit r [] := fun c hc => by cases hc

theorem readOctets_text : ∀ {os : Ip4} {rest : Str} {first : Bool}, os ≠ [] → NoDigit 10 rest →
    readOctets os.length first ((if first then [] else ['.']) ++ os.text ++ rest) = some (os, rest)
  | [], _, _, h, _ => absurd rfl h
  | o :: os, rest, first, _, hr => by
    have ho : o.toNat ≤ 255 := by have := o.toNat_lt; omega
    have hsep : ∀ s, readSep '.' first ((if first then [] else ['.']) ++ s) = some s := by
      intro s
      cases first with
      | true => rfl
      | false => rfl
    rw [List.append_assoc]
    unfold List.length readOctets
    rw [hsep, Option.bind_some]
    cases os with
    | nil =>
      show (match readNumber 10 3 255 false (decText o.toNat ++ rest) with
        | none => none
        | some (n, s) => _) = _
      rw [readNumber_text (decText_num ho) hr]
      show some ([UInt8.ofNat o.toNat], rest) = _
      rw [UInt8.ofNat_toNat]
    | cons o' os =>
      show (match readNumber 10 3 255 false ((decText o.toNat ++ '.' :: Ip4.text (o' :: os)) ++ rest) with
        | none => none
        | some (n, s) => _) = _
      rw [List.append_assoc, List.cons_append,
        readNumber_text (decText_num ho) (noDigit_of (c := '.') (by decide))]
      dsimp only
      have := readOctets_text (os := o' :: os) (rest := rest) (first := false) (by simp) hr
      rw [show (if false = true then [] else ['.']) ++ Ip4.text (o' :: os) ++ rest =
        '.' :: (Ip4.text (o' :: os) ++ rest) from rfl] at this
      rw [this]
      dsimp only
      rw [UInt8.ofNat_toNat]

theorem readIp4_text {a : Ip4} {rest : Str} (h : a.length = 4) (hr : NoDigit 10 rest) :
    readIp4 (a.text ++ rest) = some (a, rest) := by
  have := readOctets_text (os := a) (first := true) (rest := rest) (by rintro rfl; cases h) hr
  rw [h] at this
  exact this

theorem parseIp4_text {a : Ip4} (h : a.length = 4) : parseIp4 a.text = some a := by
  have := readIp4_text h (rest := []) noDigit_nil
  rw [List.append_nil] at this
  unfold parseIp4
  rw [this]

/-- There is a dot in an IPv4 address. -/
theorem readIp4_dot {s s' : Str} {a : Ip4} (h : readIp4 s = some (a, s')) : '.' ∈ s := by
  unfold readIp4 readOctets at h
  match h1 : (readSep '.' true s).bind (readNumber 10 3 255 false) with
  | none => rw [h1] at h; cases h
  | some (n, t) =>
    have h1' : readNumber 10 3 255 false s = some (n, t) := h1
    rw [h1] at h
    dsimp only at h
    refine readNumber_mem h1' ?_
    match h2 : readOctets 3 false t with
    | none => rw [h2] at h; cases h
    | some x =>
      unfold readOctets readSep at h2
      cases t with
      | nil => cases h2
      | cons c t =>
        by_cases hc : c = '.'
        · rw [hc]; exact List.mem_cons_self ..
        · dsimp only at h2
          rw [if_neg (by simp), if_neg hc] at h2
          cases h2

/-! ## IPv6 -/

/-- Segments with separators, the first one only if it is not the first. -/
def sepText (first : Bool) (l : List UInt16) : Str :=
  if l = [] then [] else if first then segsText l else ':' :: segsText l

theorem segsText_cons (x : UInt16) (xs : List UInt16) :
    segsText (x :: xs) = hexText x.toNat ++ sepText false xs := by
  cases xs with
  | nil => show hexText x.toNat = hexText x.toNat ++ []; rw [List.append_nil]
  | cons y ys => rfl

/-- No further segment follows. -/
def Stops (first : Bool) (s : Str) : Prop :=
  (readSep ':' first s).bind (readNumber 16 4 65535 true) = none

theorem digitVal_dot : digitVal 16 '.' = none := by decide

theorem hexText_noDot (x : UInt16) : '.' ∉ hexText x.toNat := by
  intro h
  have := (hexText_num (n := x.toNat) (by have := x.toNat_lt; omega)).digits _ h
  rw [digitVal_dot] at this
  cases this

theorem sepText_noDot : ∀ (l : List UInt16) (first : Bool), '.' ∉ sepText first l
  | [], first => by simp [sepText]
  | x :: xs, first => by
    have hs : '.' ∉ segsText (x :: xs) := by
      rw [segsText_cons, List.mem_append]
      rintro (h | h)
      · exact hexText_noDot x h
      · exact sepText_noDot xs false h
    unfold sepText
    rw [if_neg (by simp)]
    split
    · exact hs
    · rw [List.mem_cons]
      rintro (h | h)
      · cases h
      · exact hs h

theorem readIp4_noDot {first : Bool} {s : Str} (h : '.' ∉ s) :
    (readSep ':' first s).bind readIp4 = none := by
  match h1 : readSep ':' first s with
  | none => rfl
  | some t =>
    rw [Option.bind_some]
    have ht : '.' ∉ t := by
      unfold readSep at h1
      split at h1
      · cases h1; exact h
      · split at h1
        · split at h1
          · cases h1
            exact fun hm => h (List.mem_cons_of_mem _ hm)
          · cases h1
        · cases h1
    match h2 : readIp4 t with
    | none => rfl
    | some (a, s') => exact absurd (readIp4_dot h2) ht

theorem sepText_head {l : List UInt16} {rest : Str} (hr : NoDigit 16 rest) :
    NoDigit 16 (sepText false l ++ rest) := by
  cases l with
  | nil => exact hr
  | cons x xs => exact noDigit_of (c := ':') (by decide)

theorem readGroups_text : ∀ {l : List UInt16} {k : Nat} {first : Bool} {rest : Str}, l.length ≤ k →
    '.' ∉ rest → NoDigit 16 rest → (l.length = k ∨ Stops first rest ∧ Stops false rest) →
    readGroups k first (sepText first l ++ rest) = (l, false, rest)
  | [], k, first, rest, hk, hd, hr, hs => by
    show readGroups k first rest = _
    cases k with
    | zero => rfl
    | succ k =>
      have hs : Stops first rest := by
        rcases hs with hs | hs
        · cases hs
        · exact hs.1
      unfold readGroups
      have : (if 0 < k then (readSep ':' first rest).bind readIp4 else none) = none := by
        rw [readIp4_noDot hd]; split <;> rfl
      rw [this]
      dsimp only
      rw [show (readSep ':' first rest).bind (readNumber 16 4 65535 true) = none from hs]
  | x :: xs, 0, first, rest, hk, hd, hr, hs => by cases hk
  | x :: xs, k + 1, first, rest, hk, hd, hr, hs => by
    have hnd : '.' ∉ sepText first (x :: xs) ++ rest := by
      rw [List.mem_append]
      rintro (h | h)
      · exact sepText_noDot _ _ h
      · exact hd h
    unfold readGroups
    have h4 : (if 0 < k then (readSep ':' first (sepText first (x :: xs) ++ rest)).bind readIp4 else none)
        = none := by
      rw [readIp4_noDot hnd]; split <;> rfl
    rw [h4]
    dsimp only
    have hsep : readSep ':' first (sepText first (x :: xs) ++ rest) = some (segsText (x :: xs) ++ rest) := by
      unfold sepText
      rw [if_neg (by simp)]
      cases first with
      | true => rfl
      | false => rfl
    rw [hsep, Option.bind_some, segsText_cons, List.append_assoc,
      readNumber_text (hexText_num (n := x.toNat) (by have := x.toNat_lt; omega)) (sepText_head hr)]
    dsimp only
    rw [readGroups_text (l := xs) (k := k) (first := false) (rest := rest) (Nat.le_of_succ_le_succ hk) hd hr
      (by
        rcases hs with hs | hs
        · exact Or.inl (Nat.succ.inj hs)
        · exact Or.inr ⟨hs.2, hs.2⟩)]
    rw [UInt16.ofNat_toNat]

theorem stops_nil (first : Bool) : Stops first [] := by
  cases first <;> rfl

theorem stops_colons (first : Bool) (s : Str) : Stops first (':' :: ':' :: s) := by
  unfold Stops
  cases first with
  | true =>
    show (readNumber 16 4 65535 true (':' :: ':' :: s)) = none
    exact readNumber_none (noDigit_of (by decide))
  | false =>
    show (readNumber 16 4 65535 true (':' :: s)) = none
    exact readNumber_none (noDigit_of (by decide))

theorem sepText_true (l : List UInt16) : sepText true l = segsText l := by
  unfold sepText
  cases l with
  | nil => rfl
  | cons x xs => rfl

theorem parseIp6_full {a : Ip6} (h : a.length = 8) : parseIp6 (segsText a) = some a := by
  have := readGroups_text (l := a) (k := 8) (first := true) (rest := []) (by omega) (by simp) noDigit_nil
    (Or.inl h)
  rw [List.append_nil, sepText_true] at this
  unfold parseIp6
  rw [this]
  dsimp only
  rw [if_pos h, if_pos rfl]

theorem parseIp6_short {l r : List UInt16} (h : l.length + r.length ≤ 7) :
    parseIp6 (segsText l ++ "::".toList ++ segsText r) =
      some (l ++ List.replicate (8 - l.length - r.length) 0 ++ r) := by
  have hnd : '.' ∉ ':' :: ':' :: segsText r := by
    rw [← sepText_true, List.mem_cons, List.mem_cons]
    rintro (h | h | h)
    · cases h
    · cases h
    · exact sepText_noDot _ _ h
  have h1 := readGroups_text (l := l) (k := 8) (first := true) (rest := ':' :: ':' :: segsText r) (by omega)
    hnd (noDigit_of (by decide)) (Or.inr ⟨stops_colons _ _, stops_colons _ _⟩)
  have h2 := readGroups_text (l := r) (k := 8 - (l.length + 1)) (first := true) (rest := []) (by omega)
    (by simp) noDigit_nil (Or.inr ⟨stops_nil _, stops_nil _⟩)
  rw [sepText_true] at h1 h2
  rw [List.append_nil] at h2
  unfold parseIp6
  rw [show segsText l ++ "::".toList ++ segsText r = segsText l ++ ':' :: ':' :: segsText r by
    rw [List.append_assoc]; rfl, h1]
  dsimp only
  rw [if_neg (by omega), if_neg (by simp)]
  show (if (readGroups (8 - (l.length + 1)) true (segsText r)).2.2 = [] then
    some (l ++ List.replicate (8 - l.length - (readGroups (8 - (l.length + 1)) true (segsText r)).1.length) 0 ++
      (readGroups (8 - (l.length + 1)) true (segsText r)).1) else none) = _
  rw [h2]
  dsimp only
  rw [if_pos rfl]

/-- All segments of the span are zero. -/
def ZeroIn (l : List UInt16) (z : Nat × Nat) : Prop := ∀ j, z.1 ≤ j → j < z.1 + z.2 → l[j]? = some 0

theorem ZeroIn.append {l m : List UInt16} {z : Nat × Nat} (h : ZeroIn l z) : ZeroIn (l ++ m) z := by
  intro j h1 h2
  have := h j h1 h2
  rw [List.getElem?_append_left]
  · exact this
  · exact (List.getElem?_eq_some_iff.1 this).1

theorem zeroSpan_spec : ∀ (xs pre : List UInt16) (longest current : Nat × Nat),
    ZeroIn pre longest → ZeroIn pre current →
    (current.2 = 0 ∨ current.1 + current.2 = pre.length) →
    ZeroIn (pre ++ xs) (zeroSpan xs pre.length longest current)
  | [], pre, longest, current, h1, _, _ => by
    rw [List.append_nil]; exact h1
  | x :: xs, pre, longest, current, h1, h2, h3 => by
    have happ : pre ++ x :: xs = (pre ++ [x]) ++ xs := by simp
    have hlen : (pre ++ [x]).length = pre.length + 1 := by simp
    unfold zeroSpan
    by_cases hx : x = 0
    · rw [if_pos hx]
      dsimp only
      let cur : Nat × Nat := (if current.2 = 0 then pre.length else current.1, current.2 + 1)
      have hc : ZeroIn (pre ++ [x]) cur ∧ cur.1 + cur.2 = pre.length + 1 := by
        by_cases h0 : current.2 = 0
        · have e : cur = (pre.length, 1) := by
            show (if current.2 = 0 then pre.length else current.1, current.2 + 1) = _
            rw [if_pos h0, h0]
          rw [e]
          refine ⟨fun j a b => ?_, rfl⟩
          have : j = pre.length := by
            have a : pre.length ≤ j := a
            have b : j < pre.length + 1 := b
            omega
          rw [this, List.getElem?_append_right (Nat.le_refl _), Nat.sub_self, hx]
          rfl
        · have e : cur = (current.1, current.2 + 1) := by
            show (if current.2 = 0 then pre.length else current.1, current.2 + 1) = _
            rw [if_neg h0]
          rcases h3 with h3 | h3
          · exact absurd h3 h0
          · rw [e]
            refine ⟨fun j a b => ?_, by show current.1 + (current.2 + 1) = _; omega⟩
            have a : current.1 ≤ j := a
            have b : j < current.1 + (current.2 + 1) := b
            by_cases hj : j < current.1 + current.2
            · exact h2.append j a hj
            · have : j = pre.length := by omega
              rw [this, List.getElem?_append_right (Nat.le_refl _), Nat.sub_self, hx]
              rfl
      have := zeroSpan_spec xs (pre ++ [x]) (if longest.2 < cur.2 then cur else longest) cur
        (by split
            · exact hc.1
            · exact h1.append) hc.1 (Or.inr (by rw [hlen]; exact hc.2))
      rw [hlen] at this
      rw [happ]
      exact this
    · rw [if_neg hx]
      have := zeroSpan_spec xs (pre ++ [x]) longest (0, 0) h1.append
        (fun j a b => absurd b (Nat.not_lt.2 (Nat.zero_le _))) (Or.inl rfl)
      rw [hlen] at this
      rw [happ]
      exact this

theorem split_span {a : List UInt16} {z : Nat × Nat} (h : ZeroIn a z) (hz : 0 < z.2) :
    z.1 + z.2 ≤ a.length ∧
      a = a.take z.1 ++ List.replicate z.2 0 ++ a.drop (z.1 + z.2) := by
  have hle : z.1 + z.2 ≤ a.length := by
    have := h (z.1 + z.2 - 1) (by omega) (by omega)
    have := (List.getElem?_eq_some_iff.1 this).1
    omega
  refine ⟨hle, ?_⟩
  apply List.ext_getElem?
  intro j
  by_cases h1 : j < z.1
  · rw [List.append_assoc, List.getElem?_append_left (by rw [List.length_take]; omega),
      List.getElem?_take_of_lt h1]
  · by_cases h2 : j < z.1 + z.2
    · rw [List.append_assoc, List.getElem?_append_right (by rw [List.length_take]; omega),
        List.getElem?_append_left (by rw [List.length_take, List.length_replicate]; omega),
        h j (by omega) h2, List.getElem?_replicate, List.length_take, if_pos (by omega)]
    · rw [List.getElem?_append_right (by
        rw [List.length_append, List.length_take, List.length_replicate]; omega),
        List.getElem?_drop, List.length_append, List.length_take, List.length_replicate]
      congr 1
      omega

/-- The text written without an IPv4 part. -/
theorem parseIp6_plain {compat : Bool} {a : Ip6} (h : a.length = 8) (he : a.embedded compat = none) :
    parseIp6 (a.text compat) = some a := by
  have hz := zeroSpan_spec a [] (0, 0) (0, 0) (fun j a b => absurd b (Nat.not_lt.2 (Nat.zero_le _)))
    (fun j a b => absurd b (Nat.not_lt.2 (Nat.zero_le _))) (Or.inl rfl)
  rw [List.nil_append] at hz
  unfold Ip6.text
  rw [he]
  dsimp only
  by_cases h1 : 1 < (zeroSpan a 0 (0, 0) (0, 0)).2
  · rw [if_pos h1]
    obtain ⟨h2, h3⟩ := split_span (z := zeroSpan a 0 (0, 0) (0, 0)) hz (by omega)
    rw [parseIp6_short (by rw [List.length_take, List.length_drop]; omega)]
    rw [show 8 - (a.take (zeroSpan a 0 (0, 0) (0, 0)).1).length -
      (a.drop ((zeroSpan a 0 (0, 0) (0, 0)).1 + (zeroSpan a 0 (0, 0) (0, 0)).2)).length =
        (zeroSpan a 0 (0, 0) (0, 0)).2 by rw [List.length_take, List.length_drop]; omega]
    exact congrArg some h3.symm
  · rw [if_neg h1]
    exact parseIp6_full h

theorem segsOf_octetsOf (hi lo : UInt16) : segsOf (octetsOf hi lo) = [hi, lo] := by
  have key : ∀ x : UInt16, UInt16.ofNat ((UInt8.ofNat (x.toNat / 256)).toNat * 256 +
      (UInt8.ofNat (x.toNat % 256)).toNat) = x := by
    intro x
    have hx := x.toNat_lt
    rw [UInt8.toNat_ofNat_of_lt' (by show _ < 256; omega), UInt8.toNat_ofNat_of_lt' (by show _ < 256; omega),
      show x.toNat / 256 * 256 + x.toNat % 256 = x.toNat by omega, UInt16.ofNat_toNat]
  show [UInt16.ofNat ((UInt8.ofNat (hi.toNat / 256)).toNat * 256 + (UInt8.ofNat (hi.toNat % 256)).toNat),
    UInt16.ofNat ((UInt8.ofNat (lo.toNat / 256)).toNat * 256 + (UInt8.ofNat (lo.toNat % 256)).toNat)] = _
  rw [key, key]

/-- An IPv4 part is read as such, at the beginning of what comes after the colons or after one segment. -/
theorem readGroups_v4 {k : Nat} {first : Bool} {a : Ip4} (ha : a.length = 4) (hk : 0 < k) :
    readGroups (k + 1) first ((if first then [] else [':']) ++ a.text) = (segsOf a, true, []) := by
  unfold readGroups
  have : readSep ':' first ((if first then [] else [':']) ++ a.text) = some a.text := by
    cases first <;> rfl
  have h4 := readIp4_text ha (rest := []) noDigit_nil
  rw [List.append_nil] at h4
  rw [if_pos hk, this, Option.bind_some, h4]

theorem parseIp6_embedded {compat : Bool} {a : Ip6} {m : Bool} {hi lo : UInt16}
    (he : a.embedded compat = some (m, hi, lo)) : parseIp6 (a.text compat) = some a := by
  have ha : a = [0, 0, 0, 0, 0, if m then 0xffff else 0, hi, lo] := by
    unfold Ip6.embedded at he
    split at he
    · split at he
      · rename_i h
        injection he with he
        injection he with h1 h2
        injection h2 with h2 h3
        rw [← h1, ← h2, ← h3, h]
        rfl
      · split at he
        · rename_i h
          injection he with he
          injection he with h1 h2
          injection h2 with h2 h3
          rw [← h1, ← h2, ← h3, h.2.1]
          rfl
        · cases he
    · cases he
  have hstop : ∀ s, readGroups 8 true (':' :: ':' :: s) = ([], false, ':' :: ':' :: s) := by
    intro s
    have h1 : readIp4 (':' :: ':' :: s) = none := by
      unfold readIp4 readOctets
      have : (readSep '.' true (':' :: ':' :: s)).bind (readNumber 10 3 255 false) = none := by
        show (readNumber 10 3 255 false (':' :: ':' :: s)) = none
        exact readNumber_none (noDigit_of (by decide))
      rw [this]
    have h2 := stops_colons true s
    unfold readGroups
    rw [if_pos (by decide), show (readSep ':' true (':' :: ':' :: s)).bind readIp4 = none from h1]
    dsimp only
    rw [show (readSep ':' true (':' :: ':' :: s)).bind (readNumber 16 4 65535 true) = none from h2]
  have hstop4 : ∀ s, readIp4 ('f' :: s) = none := by
    intro s
    unfold readIp4 readOctets
    have : (readSep '.' true ('f' :: s)).bind (readNumber 10 3 255 false) = none := by
      show (readNumber 10 3 255 false ('f' :: s)) = none
      exact readNumber_none (noDigit_of (by decide))
    rw [this]
  have h8 : (octetsOf hi lo).length = 4 := rfl
  have hseg := segsOf_octetsOf hi lo
  unfold Ip6.text
  rw [he]
  cases m with
  | true =>
    dsimp only
    show parseIp6 (':' :: ':' :: ('f' :: 'f' :: 'f' :: 'f' :: ':' :: (octetsOf hi lo).text)) = _
    unfold parseIp6
    rw [hstop]
    dsimp only [List.length_nil]
    rw [if_neg (by decide), if_neg (by simp)]
    have h5 : readGroups (8 - (0 + 1)) true ('f' :: 'f' :: 'f' :: 'f' :: ':' :: (octetsOf hi lo).text) =
        (0xffff :: [hi, lo], true, []) := by
      have h6 := readGroups_v4 (k := 5) (first := false) h8 (by decide)
      rw [show (8 - (0 + 1)) = 6 + 1 from rfl]
      unfold readGroups
      have h7 : (readSep ':' true ('f' :: 'f' :: 'f' :: 'f' :: ':' :: (octetsOf hi lo).text)).bind readIp4 = none := by
        exact hstop4 _
      have h9 : (readSep ':' true ('f' :: 'f' :: 'f' :: 'f' :: ':' :: (octetsOf hi lo).text)).bind
          (readNumber 16 4 65535 true) = some (65535, ':' :: (octetsOf hi lo).text) := by
        have := readNumber_text (z := true) (hexText_num (n := 65535) (by decide))
          (rest := ':' :: (octetsOf hi lo).text) (noDigit_of (by decide))
        exact this
      rw [if_pos (by decide), h7]
      dsimp only
      rw [h9]
      dsimp only
      have h6 : readGroups (5 + 1) false (':' :: (octetsOf hi lo).text) = ([hi, lo], true, []) := by
        rw [← hseg]; exact h6
      rw [show (6 : Nat) = 5 + 1 from rfl, h6]
      rfl
    show (if (readGroups (8 - (0 + 1)) true ('f' :: 'f' :: 'f' :: 'f' :: ':' :: (octetsOf hi lo).text)).2.2 = [] then
      some ([] ++ List.replicate (8 - 0 - (readGroups (8 - (0 + 1)) true
        ('f' :: 'f' :: 'f' :: 'f' :: ':' :: (octetsOf hi lo).text)).1.length) 0 ++
      (readGroups (8 - (0 + 1)) true ('f' :: 'f' :: 'f' :: 'f' :: ':' :: (octetsOf hi lo).text)).1) else none) = _
    rw [h5]
    dsimp only
    rw [if_pos rfl, ha]
    rfl
  | false =>
    dsimp only
    show parseIp6 (':' :: ':' :: (octetsOf hi lo).text) = _
    unfold parseIp6
    rw [hstop]
    dsimp only [List.length_nil]
    rw [if_neg (by decide), if_neg (by simp)]
    have h5 := readGroups_v4 (k := 6) (first := true) h8 (by decide)
    rw [hseg] at h5
    show (if (readGroups (8 - (0 + 1)) true (octetsOf hi lo).text).2.2 = [] then
      some ([] ++ List.replicate (8 - 0 - (readGroups (8 - (0 + 1)) true (octetsOf hi lo).text).1.length) 0 ++
      (readGroups (8 - (0 + 1)) true (octetsOf hi lo).text).1) else none) = _
    rw [show readGroups (8 - (0 + 1)) true (octetsOf hi lo).text = ([hi, lo], true, []) from h5]
    dsimp only
    rw [if_pos rfl, ha]
    rfl

theorem parseIp6_text {compat : Bool} {a : Ip6} (h : a.length = 8) :
    parseIp6 (a.text compat) = some a := by
  match he : a.embedded compat with
  | none => exact parseIp6_plain h he
  | some (m, hi, lo) => exact parseIp6_embedded he

/-! ## Prefixes -/

/-- A character of an address. -/
def AddrChar (c : Char) : Prop := (digitVal 16 c).isSome = true ∨ c = '.' ∨ c = ':'

theorem addrChar_dec {n : Nat} (h : n ≤ 255) {c : Char} (hc : c ∈ decText n) : AddrChar c := by
  have h1 := (decText_num h).digits c hc
  refine Or.inl ?_
  have key : ∀ c : Char, (digitVal 10 c).isSome = true → (digitVal 16 c).isSome = true := by
    intro c hc
    unfold digitVal at hc ⊢
    dsimp only at hc ⊢
    generalize (if 48 ≤ c.toNat ∧ c.toNat < 58 then c.toNat - 48
      else if 97 ≤ c.toNat ∧ c.toNat < 123 then c.toNat - 87
      else if 65 ≤ c.toNat ∧ c.toNat < 91 then c.toNat - 55 else 36) = v at hc ⊢
    by_cases hv : v < 10
    · rw [if_pos (by omega)]; rfl
    · rw [if_neg hv] at hc; cases hc
  exact key c h1

theorem addrChar_ip4 : ∀ {a : Ip4} {c : Char}, c ∈ a.text → AddrChar c
  | [], _, h => by cases h
  | [o], c, h => addrChar_dec (by have := o.toNat_lt; omega) h
  | o :: o' :: os, c, h => by
    rcases List.mem_append.1 (show c ∈ decText o.toNat ++ '.' :: Ip4.text (o' :: os) from h) with h | h
    · exact addrChar_dec (by have := o.toNat_lt; omega) h
    · rcases List.mem_cons.1 h with h | h
      · exact Or.inr (Or.inl h)
      · exact addrChar_ip4 h

theorem addrChar_segs : ∀ {l : List UInt16} {c : Char}, c ∈ segsText l → AddrChar c
  | [], _, h => by cases h
  | [x], c, h => Or.inl ((hexText_num (n := x.toNat) (by have := x.toNat_lt; omega)).digits c h)
  | x :: y :: l, c, h => by
    rcases List.mem_append.1 (show c ∈ hexText x.toNat ++ ':' :: segsText (y :: l) from h) with h | h
    · exact Or.inl ((hexText_num (n := x.toNat) (by have := x.toNat_lt; omega)).digits c h)
    · rcases List.mem_cons.1 h with h | h
      · exact Or.inr (Or.inr h)
      · exact addrChar_segs h

theorem addrChar_colons {c : Char} (h : c ∈ "::".toList) : AddrChar c := by
  have : c ∈ [':', ':'] := h
  simp only [List.mem_cons, List.not_mem_nil, or_false, or_self] at this
  exact Or.inr (Or.inr this)

theorem addrChar_mapped {c : Char} (h : c ∈ "::ffff:".toList) : AddrChar c := by
  have : c ∈ [':', ':', 'f', 'f', 'f', 'f', ':'] := h
  simp only [List.mem_cons, List.not_mem_nil, or_false] at this
  rcases this with h | h | h | h | h | h | h
  · exact Or.inr (Or.inr h)
  · exact Or.inr (Or.inr h)
  · rw [h]; exact Or.inl (by decide)
  · rw [h]; exact Or.inl (by decide)
  · rw [h]; exact Or.inl (by decide)
  · rw [h]; exact Or.inl (by decide)
  · exact Or.inr (Or.inr h)

theorem addrChar_ip6 {compat : Bool} {a : Ip6} {c : Char} (h : c ∈ a.text compat) : AddrChar c := by
  unfold Ip6.text at h
  split at h
  · rcases List.mem_append.1 h with h | h
    · exact addrChar_mapped h
    · exact addrChar_ip4 h
  · rcases List.mem_append.1 h with h | h
    · exact addrChar_colons h
    · exact addrChar_ip4 h
  · dsimp only at h
    split at h
    · rcases List.mem_append.1 h with h | h
      · rcases List.mem_append.1 h with h | h
        · exact addrChar_segs h
        · exact addrChar_colons h
      · exact addrChar_segs h
    · exact addrChar_segs h

theorem not_addrChar_slash : ¬ AddrChar '/' := by
  rintro (h | h | h)
  · revert h; decide
  · cases h
  · cases h

/-- White space is no part of a prefix. -/
theorem addrChar_not_space {c : Char} (h : AddrChar c ∨ c = '/') :
    (decide (c = ' ') || (9 ≤ c.toNat && c.toNat ≤ 13)) = false := by
  have key : ∀ c : Char, (digitVal 16 c).isSome = true →
      (decide (c = ' ') || (9 ≤ c.toNat && c.toNat ≤ 13)) = false := by
    intro c hc
    have h48 : 48 ≤ c.toNat := by
      refine Nat.le_of_not_lt fun hlt => ?_
      have e : (if 48 ≤ c.toNat ∧ c.toNat < 58 then c.toNat - 48
          else if 97 ≤ c.toNat ∧ c.toNat < 123 then c.toNat - 87
          else if 65 ≤ c.toNat ∧ c.toNat < 91 then c.toNat - 55 else 36) = 36 := by
        rw [if_neg (by omega), if_neg (by omega), if_neg (by omega)]
      unfold digitVal at hc
      dsimp only at hc
      rw [e] at hc
      revert hc
      decide
    rw [Bool.or_eq_false_iff]
    constructor
    · refine decide_eq_false ?_
      rintro rfl
      exact absurd h48 (by decide)
    · rw [Bool.and_eq_false_iff]
      exact Or.inr (decide_eq_false (by omega))
  rcases h with (h | h | h) | h
  · exact key c h
  · rw [h]; decide
  · rw [h]; decide
  · rw [h]; decide

theorem dropWhile_id {p : Char → Bool} {s : Str} (h : ∀ c ∈ s, p c = false) : s.dropWhile p = s := by
  cases s with
  | nil => rfl
  | cons c s => rw [List.dropWhile_cons, h c (List.mem_cons_self ..)]; rfl

theorem trimText_id {s : Str} (h : ∀ c ∈ s, AddrChar c ∨ c = '/') : trimText s = s := by
  unfold trimText
  dsimp only
  rw [dropWhile_id (fun c hc => addrChar_not_space (h c hc)),
    dropWhile_id (fun c hc => addrChar_not_space (h c (List.mem_reverse.1 hc))), List.reverse_reverse]

theorem cutSlash_append : ∀ {a l : Str}, (∀ c ∈ a, AddrChar c) → cutSlash (a ++ '/' :: l) = some (a, l)
  | [], l, _ => by
    show cutSlash ('/' :: l) = _
    unfold cutSlash
    rw [if_pos rfl]
  | c :: a, l, h => by
    rw [List.cons_append]
    unfold cutSlash
    rw [if_neg, cutSlash_append (fun c hc => h c (List.mem_cons_of_mem _ hc))]
    · rfl
    · rintro rfl
      exact not_addrChar_slash (h _ (List.mem_cons_self ..))

theorem parsePrefix_text {α : Type} {addr : Str → Option α} {max n : Nat} {a : Str} {x : α}
    (ha : ∀ c ∈ a, AddrChar c) (hx : addr a = some x) (hn : n ≤ max) (hm : max ≤ 255) :
    parsePrefix addr max (trimText (a ++ '/' :: decText n)) = some (x, n) := by
  have hn' : n ≤ 255 := Nat.le_trans hn hm
  rw [trimText_id]
  · unfold parsePrefix
    rw [cutSlash_append ha]
    dsimp only
    rw [hx, parseU8_dec hn']
    dsimp only
    rw [if_pos hn]
  · intro c hc
    rcases List.mem_append.1 hc with h | h
    · exact Or.inl (ha c h)
    · rcases List.mem_cons.1 h with h | h
      · exact Or.inr h
      · exact Or.inl (addrChar_dec hn' h)

theorem ip4_dot : ∀ {a : Ip4}, 2 ≤ a.length → '.' ∈ a.text
  | [], h => absurd h (by decide)
  | [o], h => absurd h (by simp)
  | o :: o' :: os, _ => by
    show '.' ∈ decText o.toNat ++ '.' :: Ip4.text (o' :: os)
    exact List.mem_append_right _ (List.mem_cons_self ..)

theorem decText_noDot {n : Nat} (h : n ≤ 255) : '.' ∉ decText n := by
  intro hm
  have := (decText_num h).digits _ hm
  revert this
  decide

theorem segsText_noDot (l : List UInt16) : '.' ∉ segsText l := by
  rw [← sepText_true]; exact sepText_noDot l true

/-- Whether there is a dot in the text of an IPv6 address. -/
theorem ip6_dot {compat : Bool} {a : Ip6} : '.' ∈ a.text compat ↔ a.embedded compat ≠ none := by
  unfold Ip6.text
  match h : a.embedded compat with
  | some (true, hi, lo) =>
    refine ⟨fun _ => by simp, fun _ => List.mem_append_right _ (ip4_dot (by show 2 ≤ 4; decide))⟩
  | some (false, hi, lo) =>
    refine ⟨fun _ => by simp, fun _ => List.mem_append_right _ (ip4_dot (by show 2 ≤ 4; decide))⟩
  | none =>
    refine ⟨fun hm => ?_, fun hne => absurd rfl hne⟩
    dsimp only at hm
    split at hm
    · rcases List.mem_append.1 hm with hm | hm
      · rcases List.mem_append.1 hm with hm | hm
        · exact absurd hm (segsText_noDot _)
        · have : '.' ∈ [':', ':'] := hm
          revert this; decide
      · exact absurd hm (segsText_noDot _)
    · exact absurd hm (segsText_noDot _)

theorem embedded_take {compat : Bool} {a : Ip6} (h : a.length = 8) (hm : a.take 6 ≠ [0, 0, 0, 0, 0, 0xffff])
    (hc : compat = true → a.take 7 = [0, 0, 0, 0, 0, 0, 0] ∧ (a.drop 7 = [0] ∨ a.drop 7 = [1]) ∨
      a.take 6 ≠ [0, 0, 0, 0, 0, 0]) : a.embedded compat = none := by
  unfold Ip6.embedded
  split
  · rename_i x hi lo
    rw [if_neg (by rintro rfl; exact hm rfl), if_neg]
    rintro ⟨h1, h2, h3⟩
    rw [h2] at hc
    rcases hc h1 with ⟨h4, h5⟩ | h4
    · have h4 : [0, 0, 0, 0, 0, 0, hi] = [0, 0, 0, 0, 0, 0, (0 : UInt16)] := h4
      simp only [List.cons.injEq, and_true, true_and] at h4
      refine h3 ⟨h4, ?_⟩
      have h5 : [lo] = [0] ∨ [lo] = [1] := h5
      rcases h5 with h5 | h5 <;> injection h5 with h5 <;> rw [h5] <;> decide
    · exact h4 rfl
  · rfl

theorem embedded_mapped {compat : Bool} {a : Ip6} (h : a.length = 8) (hm : a.take 6 = [0, 0, 0, 0, 0, 0xffff]) :
    a.embedded compat ≠ none := by
  match a, h with
  | [a0, a1, a2, a3, a4, a5, a6, a7], _ =>
    have hm : [a0, a1, a2, a3, a4, a5] = [0, 0, 0, 0, 0, 0xffff] := hm
    simp only [List.cons.injEq, and_true] at hm
    obtain ⟨rfl, rfl, rfl, rfl, rfl, rfl⟩ := hm
    unfold Ip6.embedded
    simp

theorem parse_v4 {compat : Bool} {a : Ip4} {n : Nat} (h : a.length = 4) (hn : n ≤ 32) :
    TypedPrefix.parse ((TypedPrefix.v4 a n).text compat) = some (.v4 a n) := by
  show TypedPrefix.parse (a.text ++ '/' :: decText n) = _
  unfold TypedPrefix.parse
  rw [if_pos (List.mem_append_left _ (ip4_dot (by omega))),
    parsePrefix_text (fun c hc => addrChar_ip4 hc) (parseIp4_text h) hn (by decide)]
  rfl

theorem parse_v6 {compat : Bool} {a : Ip6} {n : Nat} (h : a.length = 8) (hn : n ≤ 128)
    (he : a.embedded compat = none) :
    TypedPrefix.parse ((TypedPrefix.v6 a n).text compat) = some (.v6 a n) := by
  show TypedPrefix.parse (a.text compat ++ '/' :: decText n) = _
  unfold TypedPrefix.parse
  rw [if_neg, parsePrefix_text (fun c hc => addrChar_ip6 hc) (parseIp6_text h) hn (by decide)]
  · rfl
  · intro hm
    rcases List.mem_append.1 hm with hm | hm
    · exact ip6_dot.1 hm he
    · rcases List.mem_cons.1 hm with hm | hm
      · cases hm
      · exact decText_noDot (by omega) hm

/-- A text that begins with a colon is no IPv4 address. -/
theorem parseIp4_colon (s : Str) : parseIp4 (':' :: s) = none := by
  unfold parseIp4 readIp4 readOctets
  have : (readSep '.' true (':' :: s)).bind (readNumber 10 3 255 false) = none := by
    show (readNumber 10 3 255 false (':' :: s)) = none
    exact readNumber_none (noDigit_of (by decide))
  rw [this]

theorem parse_v6_dotted {compat : Bool} {a : Ip6} {n : Nat} (hn : n ≤ 255) (he : a.embedded compat ≠ none) :
    TypedPrefix.parse ((TypedPrefix.v6 a n).text compat) = none := by
  show TypedPrefix.parse (a.text compat ++ '/' :: decText n) = _
  unfold TypedPrefix.parse
  rw [if_pos (List.mem_append_left _ (ip6_dot.2 he)), trimText_id]
  · unfold parsePrefix
    rw [cutSlash_append (fun c hc => addrChar_ip6 hc)]
    dsimp only
    have : parseIp4 (a.text compat) = none := by
      unfold Ip6.text
      match h : a.embedded compat with
      | some (true, hi, lo) => exact parseIp4_colon _
      | some (false, hi, lo) => exact parseIp4_colon _
      | none => exact absurd h he
    rw [this]
    rfl
  · intro c hc
    rcases List.mem_append.1 hc with h | h
    · exact Or.inl (addrChar_ip6 h)
    · rcases List.mem_cons.1 h with h | h
      · exact Or.inr h
      · exact Or.inl (addrChar_dec hn h)

/-- The parts of a text are determined by it. -/
theorem cut_text {a b l m : Str} (ha : ∀ c ∈ a, AddrChar c) (hb : ∀ c ∈ b, AddrChar c)
    (h : a ++ '/' :: l = b ++ '/' :: m) : a = b ∧ l = m := by
  have h1 := cutSlash_append (l := l) ha
  rw [h, cutSlash_append hb] at h1
  injection h1 with h1
  injection h1 with h1 h2
  exact ⟨h1.symm, h2.symm⟩

theorem decText_inj {m n : Nat} (hm : m ≤ 255) (hn : n ≤ 255) (h : decText m = decText n) : m = n := by
  rw [← (decText_num hm).val, ← (decText_num hn).val, h]

theorem ip4_first {a : Ip4} (h : a.length = 4) {s : Str} : a.text ≠ ':' :: s := by
  intro he
  have := parseIp4_text h
  rw [he, parseIp4_colon] at this
  cases this

theorem text_inj {compat : Bool} {p q : TypedPrefix} (hp : p.Proper) (hq : q.Proper)
    (h : p.text compat = q.text compat) : p = q := by
  have mixed : ∀ (a : Ip4) (b : Ip6), a.length = 4 → a.text = b.text compat → False := by
    intro a b ha e
    have hd := ip4_dot (a := a) (by omega)
    rw [e] at hd
    have hne := ip6_dot.1 hd
    unfold Ip6.text at e
    match h : b.embedded compat with
    | some (true, hi, lo) => rw [h] at e; exact ip4_first ha (s := ':' :: _) e
    | some (false, hi, lo) => rw [h] at e; exact ip4_first ha (s := ':' :: _) e
    | none => exact absurd h hne
  cases p with
  | v4 a m =>
    cases q with
    | v4 b n =>
      obtain ⟨h1, h2⟩ := cut_text (fun c hc => addrChar_ip4 hc) (fun c hc => addrChar_ip4 hc) h
      have e1 : a = b := by
        have := parseIp4_text hp.1
        rw [h1, parseIp4_text hq.1] at this
        injection this with this
        exact this.symm
      have e2 : m = n := decText_inj (by have := hp.2; omega) (by have := hq.2; omega) h2
      rw [e1, e2]
    | v6 b n =>
      obtain ⟨h1, h2⟩ := cut_text (fun c hc => addrChar_ip4 hc) (fun c hc => addrChar_ip6 hc) h
      exact (mixed a b hp.1 h1).elim
  | v6 a m =>
    cases q with
    | v4 b n =>
      obtain ⟨h1, h2⟩ := cut_text (fun c hc => addrChar_ip6 hc) (fun c hc => addrChar_ip4 hc) h
      exact (mixed b a hq.1 h1.symm).elim
    | v6 b n =>
      obtain ⟨h1, h2⟩ := cut_text (fun c hc => addrChar_ip6 hc) (fun c hc => addrChar_ip6 hc) h
      have e1 : a = b := by
        have := parseIp6_text (compat := compat) hp.1
        rw [h1, parseIp6_text hq.1] at this
        injection this with this
        exact this.symm
      have e2 : m = n := decText_inj (by have := hp.2; omega) (by have := hq.2; omega) h2
      rw [e1, e2]

end KSync
