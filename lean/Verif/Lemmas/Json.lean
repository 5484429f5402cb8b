import Verif.Model.Json
import Verif.Lemmas.Names

/-!
# Reading back what was written as JSON
-/

namespace KSync

/-! ## UTF-8 -/

theorem utf8Cont_of {n : Nat} (h : n < 64) : utf8Cont (UInt8.ofNat (0x80 + n)) = some n := by
  have h1 : (UInt8.ofNat (0x80 + n)).toNat = 0x80 + n := by
    rw [UInt8.toNat_ofNat']; omega
  simp only [utf8Cont, h1]
  rw [if_pos (by omega)]; simp

theorem utf8Make_of {m n : Nat} {c : Char} (h : m ≤ n) (hc : n = c.toNat) : utf8Make m n = some c := by
  subst hc
  rw [utf8Make, if_pos ⟨h, c.valid⟩, Char.ofNat_toNat]

theorem char_lt (c : Char) : c.toNat < 0x110000 := by
  have := c.valid
  simp only [UInt32.isValidChar, Nat.isValidChar] at this
  show c.val.toNat < _
  omega

theorem byte_of {n : Nat} (h : n < 256) : (UInt8.ofNat n).toNat = n := by
  rw [UInt8.toNat_ofNat']; omega

theorem utf8Next_char (c : Char) (r : Bytes) : utf8Next (utf8Char c ++ r) = some (c, r) := by
  have hc := char_lt c
  unfold utf8Char
  by_cases h1 : c.toNat < 0x80
  · simp only [h1, if_true, List.cons_append, List.nil_append, utf8Next]
    rw [byte_of (by omega), if_pos h1, Char.ofNat_toNat]
  by_cases h2 : c.toNat < 0x800
  · simp only [h1, h2, if_true, if_false, List.cons_append, List.nil_append, utf8Next]
    rw [byte_of (by omega), if_neg (by omega), if_neg (by omega), if_pos (by omega),
      utf8Cont_of (by omega)]
    dsimp only
    rw [utf8Make_of (c := c) (by omega) (by omega)]; rfl
  by_cases h3 : c.toNat < 0x10000
  · simp only [h1, h2, h3, if_true, if_false, List.cons_append, List.nil_append, utf8Next]
    rw [byte_of (by omega), if_neg (by omega), if_neg (by omega), if_neg (by omega), if_pos (by omega),
      utf8Cont_of (by omega), utf8Cont_of (by omega)]
    dsimp only
    rw [utf8Make_of (c := c) (by omega) (by omega)]; rfl
  · simp only [h1, h2, h3, if_false, List.cons_append, List.nil_append, utf8Next]
    rw [byte_of (by omega), if_neg (by omega), if_neg (by omega), if_neg (by omega), if_neg (by omega),
      utf8Cont_of (by omega), utf8Cont_of (by omega), utf8Cont_of (by omega)]
    dsimp only
    rw [utf8Make_of (c := c) (by omega) (by omega)]; rfl

theorem utf8Char_ne (c : Char) : utf8Char c ≠ [] := by
  simp only [utf8Char]; split
  · simp
  · split
    · simp
    · split <;> simp

theorem utf8Next_torn (c : Char) {k : Nat} (hk : k < (utf8Char c).length) :
    utf8Next ((utf8Char c).take k) = none := by
  have hc := char_lt c
  revert hk
  unfold utf8Char
  by_cases h1 : c.toNat < 0x80
  · simp only [h1, if_true]
    intro hk
    have : k = 0 := by simp at hk; omega
    subst this; rfl
  by_cases h2 : c.toNat < 0x800
  · simp only [h1, h2, if_true, if_false]
    intro hk
    match k, hk with
    | 0, _ => rfl
    | 1, _ =>
      simp only [List.take_succ_cons, List.take_zero, utf8Next]
      rw [byte_of (by omega), if_neg (by omega), if_neg (by omega), if_pos (by omega)]
    | k + 2, hk => simp only [List.length_cons, List.length_nil] at hk; omega
  by_cases h3 : c.toNat < 0x10000
  · simp only [h1, h2, h3, if_true, if_false]
    intro hk
    match k, hk with
    | 0, _ => rfl
    | 1, _ | 2, _ =>
      simp only [List.take_succ_cons, List.take_zero, utf8Next]
      rw [byte_of (by omega), if_neg (by omega), if_neg (by omega), if_neg (by omega), if_pos (by omega)]
    | k + 3, hk => simp only [List.length_cons, List.length_nil] at hk; omega
  · simp only [h1, h2, h3, if_false]
    intro hk
    match k, hk with
    | 0, _ => rfl
    | 1, _ | 2, _ | 3, _ =>
      simp only [List.take_succ_cons, List.take_zero, utf8Next]
      rw [byte_of (by omega), if_neg (by omega), if_neg (by omega), if_neg (by omega), if_neg (by omega)]
    | k + 4, hk => simp only [List.length_cons, List.length_nil] at hk; omega

theorem utf8Chars_bytes : ∀ (s : Str) (f : Nat), (utf8Bytes s).length ≤ f → utf8Chars f (utf8Bytes s) = some s
  | [], f, _ => by cases f <;> rfl
  | c :: s, f, hf => by
    have hb : utf8Bytes (c :: s) = utf8Char c ++ utf8Bytes s := rfl
    rw [hb] at hf ⊢
    have hl : 0 < (utf8Char c).length := List.length_pos_iff.2 (utf8Char_ne c)
    rw [List.length_append] at hf
    obtain ⟨f, rfl⟩ : ∃ g, f = g + 1 := ⟨f - 1, by omega⟩
    have hn := utf8Next_char c (utf8Bytes s)
    have ih := utf8Chars_bytes s f (by omega)
    cases hx : utf8Char c ++ utf8Bytes s with
    | nil => rw [List.append_eq_nil_iff] at hx; exact absurd hx.1 (utf8Char_ne c)
    | cons a l =>
      rw [hx] at hn
      simp only [utf8Chars, hn, ih, Option.map_some]

theorem utf8Str_bytes (s : Str) : utf8Str (utf8Bytes s) = some s := utf8Chars_bytes s _ (Nat.le_refl _)

/-- What is read of the beginning of a text is the beginning of the text. -/
theorem utf8Chars_take : ∀ (s : Str) (f k : Nat) (t : Str), utf8Chars f ((utf8Bytes s).take k) = some t →
    ∃ j, t = s.take j ∧ (k < (utf8Bytes s).length → j < s.length)
  | [], f, k, t, h => by
    have hb : utf8Bytes ([] : Str) = [] := rfl
    rw [hb, List.take_nil] at h
    have : utf8Chars f [] = some [] := by cases f <;> rfl
    rw [this] at h; injection h with h
    exact ⟨0, h.symm, fun hk => by simp [hb] at hk⟩
  | c :: s, f, k, t, h => by
    have hb : utf8Bytes (c :: s) = utf8Char c ++ utf8Bytes s := rfl
    rw [hb] at h ⊢
    by_cases hk : k < (utf8Char c).length
    · rw [List.take_append_of_le_length (Nat.le_of_lt hk)] at h
      have hn := utf8Next_torn c hk
      cases hx : (utf8Char c).take k with
      | nil =>
        rw [hx] at h
        have : utf8Chars f [] = some [] := by cases f <;> rfl
        rw [this] at h; injection h with h
        exact ⟨0, h.symm, fun _ => by simp⟩
      | cons a l =>
        rw [hx] at h hn
        cases f with
        | zero => exact absurd h (by simp [utf8Chars])
        | succ f => simp [utf8Chars, hn] at h
    · have hk' : k = (utf8Char c).length + (k - (utf8Char c).length) := by omega
      rw [hk', List.take_length_add_append] at h
      have hn := utf8Next_char c ((utf8Bytes s).take (k - (utf8Char c).length))
      cases hx : utf8Char c ++ (utf8Bytes s).take (k - (utf8Char c).length) with
      | nil => rw [List.append_eq_nil_iff] at hx; exact absurd hx.1 (utf8Char_ne c)
      | cons a l =>
        rw [hx] at h hn
        cases f with
        | zero => exact absurd h (by simp [utf8Chars])
        | succ f =>
          simp only [utf8Chars, hn, Option.map_eq_some_iff] at h
          obtain ⟨t', ht', rfl⟩ := h
          obtain ⟨j, rfl, hj⟩ := utf8Chars_take s f _ t' ht'
          refine ⟨j + 1, rfl, fun hlt => ?_⟩
          rw [List.length_append] at hlt
          have := hj (by omega)
          simpa using this

/-! ## Strings -/

theorem skipWs_cons {c : Char} (r : Str) (h : isWs c = false) : skipWs (c :: r) = c :: r := by
  simp [skipWs, List.dropWhile, h]

theorem skipWs_spaces (n : Nat) (s : Str) : skipWs (List.replicate n ' ' ++ s) = skipWs s := by
  induction n with
  | zero => rfl
  | succ n ih =>
    rw [List.replicate_succ, List.cons_append]
    simp only [skipWs, List.dropWhile]
    exact ih

theorem skipWs_newLine (ind : Nat) (s : Str) : skipWs (newLine ind ++ s) = skipWs s := by
  rw [newLine, List.cons_append]
  have : skipWs ('\n' :: (List.replicate (2 * ind) ' ' ++ s)) = skipWs (List.replicate (2 * ind) ' ' ++ s) := rfl
  rw [this, skipWs_spaces]

theorem skipWs_space (s : Str) : skipWs (' ' :: s) = skipWs s := rfl

theorem readJson_ws {s s' : Str} (h : skipWs s = skipWs s') (f : Nat) : readJson f s = readJson f s' := by
  cases f with
  | zero => rw [readJson, readJson]
  | succ f => rw [readJson, readJson, h]

theorem readMembers_ws {s s' : Str} (h : skipWs s = skipWs s') (f : Nat) : readMembers f s = readMembers f s' := by
  cases f with
  | zero => rw [readMembers, readMembers]
  | succ f => rw [readMembers, readMembers, h]

theorem readItems_ws {s s' : Str} (h : skipWs s = skipWs s') (f : Nat) : readItems f s = readItems f s' := by
  cases f with
  | zero => rw [readItems, readItems]
  | succ f => rw [readItems, readItems, readJson_ws h]

theorem jsonHex_hexDigit {n : Nat} (h : n < 16) : unescape.jsonHex (hexDigit n) = some n := by
  have : ∀ m < 16, unescape.jsonHex (hexDigit m) = some m := by decide +kernel
  exact this n h

theorem char_eq {c d : Char} (h : c.toNat = d.toNat) : c = d := by
  rw [← Char.ofNat_toNat c, h, Char.ofNat_toNat]

theorem ofNat_of {c : Char} {n : Nat} (h : c.toNat = n) : Char.ofNat n = c := by
  rw [← h, Char.ofNat_toNat]

theorem readStr_escape (f : Nat) (c : Char) (r : Str) :
    readStr (f + 1) (escapeChar c ++ r) = (readStr f r).map (fun y => (c :: y.1, y.2)) := by
  unfold escapeChar
  split
  · subst_vars; simp [readStr, unescape]
  split
  · subst_vars; simp [readStr, unescape]
  split
  · rename_i h; obtain rfl := ofNat_of h; simp [readStr, unescape]
  split
  · rename_i h; obtain rfl := ofNat_of h; simp [readStr, unescape]
  split
  · rename_i h; obtain rfl := ofNat_of h; simp [readStr, unescape]
  split
  · rename_i h; obtain rfl := ofNat_of h; simp [readStr, unescape]
  split
  · rename_i h; obtain rfl := ofNat_of h; simp [readStr, unescape]
  split
  · rename_i h
    have h0 : unescape.jsonHex '0' = some 0 := by decide
    have h1 := jsonHex_hexDigit (n := c.toNat / 16) (by omega)
    have h2 := jsonHex_hexDigit (n := c.toNat % 16) (by omega)
    have hn : 0 * 4096 + 0 * 256 + c.toNat / 16 * 16 + c.toNat % 16 = c.toNat := by omega
    have hv : c.toNat.isValidChar := c.valid
    have hu : unescape ('u' :: '0' :: '0' :: hexDigit (c.toNat / 16) :: hexDigit (c.toNat % 16) :: r) =
        some (c, r) := by
      simp only [unescape, h0, h1, h2, hn, hv, if_true, Char.ofNat_toNat]
      simp
    simp [readStr, hu]
  · rename_i hq hb _ _ _ _ _ h32
    simp [readStr, hq, hb, h32]

theorem escapeChar_length (c : Char) : 0 < (escapeChar c).length := by
  unfold escapeChar
  repeat' split
  all_goals simp

theorem readStr_text : ∀ (s : Str) (f : Nat) (r : Str), (s.flatMap escapeChar).length < f →
    readStr f (s.flatMap escapeChar ++ '"' :: r) = some (s, r)
  | [], f, r, hf => by
    obtain ⟨f, rfl⟩ : ∃ g, f = g + 1 := ⟨f - 1, by simp at hf; omega⟩
    simp [readStr]
  | c :: s, f, r, hf => by
    rw [List.flatMap_cons, List.length_append] at hf
    have := escapeChar_length c
    obtain ⟨f, rfl⟩ : ∃ g, f = g + 1 := ⟨f - 1, by omega⟩
    rw [List.flatMap_cons, List.append_assoc, readStr_escape, readStr_text s f r (by omega)]
    rfl

/-- A string after its opening quote, with the fuel that the reader gives. -/
theorem readStr_full (s r : Str) :
    readStr ((s.flatMap escapeChar ++ '"' :: r).length + 1) (s.flatMap escapeChar ++ '"' :: r) = some (s, r) :=
  readStr_text s _ r (by rw [List.length_append]; omega)

/-! ## Numbers -/

/-- A number can not go on. -/
def NumEnds (r : Str) : Prop := ∀ c ∈ r.head?, c.isDigit = false ∧ c ≠ '.' ∧ c ≠ 'e' ∧ c ≠ 'E'

theorem takeWhile_ends {ds r : Str} (hd : ∀ c ∈ ds, c.isDigit = true) (h : NumEnds r) :
    (ds ++ r).takeWhile Char.isDigit = ds ∧ (ds ++ r).dropWhile Char.isDigit = r := by
  rw [List.takeWhile_append_of_pos hd, List.dropWhile_append_of_pos hd]
  cases r with
  | nil => simp
  | cons c r =>
    have := (h c rfl).1
    simp [List.takeWhile, List.dropWhile, this]

theorem readFraction_ends {r : Str} (h : NumEnds r) : readFraction r = some (false, r) := by
  cases r with
  | nil => rfl
  | cons c r => simp [readFraction, (h c rfl).2.1]

theorem readExponent_ends {r : Str} (h : NumEnds r) : readExponent r = some (false, r) := by
  cases r with
  | nil => rfl
  | cons c r => simp [readExponent, (h c rfl).2.2.1, (h c rfl).2.2.2]

theorem toDigits_ne (n : Nat) : Nat.toDigits 10 n ≠ [] := by
  intro h
  have := congrArg List.length h
  have h2 := @Nat.length_toDigits_pos 10 n
  simp only [List.length_nil] at this
  omega

theorem toDigits_head (n : Nat) (h : (Nat.toDigits 10 n).head? = some '0') : n = 0 := by
  induction n using Nat.strongRecOn with
  | ind n ih =>
    by_cases hn : n < 10
    · rw [Nat.toDigits_of_lt_base hn] at h
      have : ∀ m < 10, ([Nat.digitChar m] : List Char).head? = some '0' → m = 0 := by decide
      exact this n hn h
    · rw [Nat.toDigits_of_base_le (by decide) (by omega), List.head?_append] at h
      have hne := toDigits_ne (n / 10)
      have h2 : (Nat.toDigits 10 (n / 10)).head? = some '0' := by
        cases hx : Nat.toDigits 10 (n / 10) with
        | nil => exact absurd hx hne
        | cons a l => rw [hx] at h; simpa using h
      have := ih (n / 10) (by omega) h2
      omega

theorem readDigits_text (neg : Bool) (n : Nat) (r : Str) (h : NumEnds r) (hn : neg = true → n ≠ 0) :
    readDigits neg (Nat.toDigits 10 n ++ r) = some (.num (if neg then -(n : Int) else n), r) := by
  have hd : ∀ c ∈ Nat.toDigits 10 n, c.isDigit = true := fun c hc =>
    Nat.isDigit_of_mem_toDigits (by decide) (by decide) hc
  obtain ⟨h1, h2⟩ := takeWhile_ends hd h
  have h0 : Nat.toDigits 10 0 = ['0'] := by decide
  have hcond : ¬ (Nat.toDigits 10 n = [] ∨ ((Nat.toDigits 10 n).head? = some '0' ∧ Nat.toDigits 10 n ≠ ['0'])) := by
    rintro (hx | ⟨hx, hy⟩)
    · exact toDigits_ne n hx
    · have := toDigits_head n hx
      subst this
      exact hy h0
  have hv : Nat.ofDigitChars 10 (Nat.toDigits 10 n) 0 = n := Nat.ofDigitChars_ten_toDigits
  have hz : (neg && Nat.toDigits 10 n == ['0']) = false := by
    cases neg with
    | false => rfl
    | true =>
      simp only [Bool.true_and, beq_eq_false_iff_ne, ne_eq]
      intro hx
      exact hn rfl (toDigits_head n (by rw [hx]; rfl))
  simp only [readDigits, h1, h2, hcond, if_false, readFraction_ends h, readExponent_ends h, hz, hv]
  cases neg <;> rfl

theorem readNum_text (n : Int) (r : Str) (h : NumEnds r) :
    ∃ c t, intText n ++ r = c :: t ∧ (c = '-' ∨ c.isDigit = true) ∧ readNum c t = some (.num n, r) := by
  cases n with
  | ofNat n =>
    have hr := readDigits_text false n r h (by simp)
    cases hx : Nat.toDigits 10 n with
    | nil => exact absurd hx (toDigits_ne n)
    | cons c t =>
      have hc : c.isDigit = true :=
        Nat.isDigit_of_mem_toDigits (b := 10) (n := n) (by decide) (by decide) (by rw [hx]; simp)
      refine ⟨c, t ++ r, by simp [intText, hx], .inr hc, ?_⟩
      have hm : c ≠ '-' := by rintro rfl; exact absurd hc (by decide)
      rw [hx, List.cons_append] at hr
      rw [readNum, if_neg hm, hr]; rfl
  | negSucc n =>
    refine ⟨'-', Nat.toDigits 10 (n + 1) ++ r, rfl, .inl rfl, ?_⟩
    rw [readNum, if_pos rfl, readDigits_text true (n + 1) r h (by simp)]
    rfl

/-! ## Values -/

mutual
/-- The nesting that the reader goes through. -/
def Json.need : Json → Nat
  | .arr l => 1 + l.need
  | .obj l => 1 + l.need
  | _ => 1
def Jsons.need : Jsons → Nat
  | .nil => 0
  | .cons j l => 1 + max j.need l.need
def Members.need : Members → Nat
  | .nil => 0
  | .cons _ j l => 1 + max j.need l.need
end

theorem newLine_length (ind : Nat) : 0 < (newLine ind).length := by simp [newLine]

mutual
theorem Json.need_le (ind : Nat) : ∀ j : Json, j.need ≤ (j.text ind).length
  | .null => by simp [Json.need, Json.text]
  | .bool b => by cases b <;> simp [Json.need, Json.text]
  | .num n => by
    obtain ⟨c, t, h, _⟩ := readNum_text n [] (by simp [NumEnds])
    rw [List.append_nil] at h
    simp [Json.need, Json.text, h]
  | .real => by simp [Json.need, Json.text]
  | .str s => by simp [Json.need, Json.text, strText]
  | .arr .nil => by simp [Json.need, Jsons.need, Json.text]
  | .arr (.cons j l) => by
    have := Jsons.need_le (ind + 1) (.cons j l)
    simp only [Json.need, Json.text, List.length_cons, List.length_append]; omega
  | .obj .nil => by simp [Json.need, Members.need, Json.text]
  | .obj (.cons k j l) => by
    have := Members.need_le (ind + 1) (.cons k j l)
    simp only [Json.need, Json.text, List.length_cons, List.length_append]; omega
theorem Jsons.need_le (ind : Nat) : ∀ l : Jsons, l.need ≤ (l.text ind).length
  | .nil => by simp [Jsons.need]
  | .cons j .nil => by
    have := Json.need_le ind j
    have h2 := newLine_length ind
    simp only [Jsons.need, Jsons.text, List.length_append]; omega
  | .cons j (.cons j' l) => by
    have := Json.need_le ind j
    have h3 := Jsons.need_le ind (.cons j' l)
    have h2 := newLine_length ind
    rw [Jsons.need, Jsons.text]
    · simp only [List.length_append, List.length_cons]; omega
    · simp
theorem Members.need_le (ind : Nat) : ∀ l : Members, l.need ≤ (l.text ind).length
  | .nil => by simp [Members.need]
  | .cons k j .nil => by
    have := Json.need_le ind j
    have h2 := newLine_length ind
    simp only [Members.need, Members.text, List.length_append, List.length_cons]; omega
  | .cons k j (.cons k' j' l) => by
    have := Json.need_le ind j
    have h3 := Members.need_le ind (.cons k' j' l)
    have h2 := newLine_length ind
    rw [Members.need, Members.text]
    · simp only [List.length_append, List.length_cons]; omega
    · simp
end

/-- The first character of a value. -/
def Starts (c : Char) : Prop :=
  c = '"' ∨ c = '[' ∨ c = '{' ∨ c = 'n' ∨ c = 't' ∨ c = 'f' ∨ c = '-' ∨ c.isDigit = true

theorem digit_ne {c d : Char} (h : c.isDigit = true) (hd : d.isDigit = false := by decide) : c ≠ d := by
  rintro rfl; rw [h] at hd; exact absurd hd (by decide)

theorem digit_ws {c : Char} (h : c.isDigit = true) : isWs c = false := by
  simp [isWs, digit_ne h (d := ' '), digit_ne h (d := '\n'), digit_ne h (d := '\t'), digit_ne h (d := '\r')]

theorem Starts.facts {c : Char} (h : Starts c) : isWs c = false ∧ c ≠ ']' ∧ c ≠ '}' := by
  rcases h with rfl | rfl | rfl | rfl | rfl | rfl | rfl | h
  all_goals first
    | decide
    | exact ⟨digit_ws h, digit_ne h, digit_ne h⟩

theorem Json.starts (ind : Nat) : ∀ j : Json, ∃ c t, j.text ind = c :: t ∧ Starts c
  | .null => ⟨'n', _, rfl, by simp [Starts]⟩
  | .bool b => by
    cases b
    · exact ⟨'f', _, rfl, by simp [Starts]⟩
    · exact ⟨'t', _, rfl, by simp [Starts]⟩
  | .num n => by
    obtain ⟨c, t, h, h2, _⟩ := readNum_text n [] (by simp [NumEnds])
    rw [List.append_nil] at h
    refine ⟨c, t, by rw [Json.text, h], ?_⟩
    rcases h2 with h2 | h2 <;> simp [Starts, h2]
  | .real => ⟨'0', _, rfl, by simp [Starts]⟩
  | .str s => ⟨'"', _, rfl, by simp [Starts]⟩
  | .arr .nil => ⟨'[', _, rfl, by simp [Starts]⟩
  | .arr (.cons _ _) => ⟨'[', _, by rw [Json.text]; simp, by simp [Starts]⟩
  | .obj .nil => ⟨'{', _, rfl, by simp [Starts]⟩
  | .obj (.cons _ _ _) => ⟨'{', _, by rw [Json.text]; simp, by simp [Starts]⟩

theorem ends_of {c : Char} {r : Str} (h : c.isDigit = false ∧ c ≠ '.' ∧ c ≠ 'e' ∧ c ≠ 'E' := by decide) :
    NumEnds (c :: r) := by
  intro d hd; cases hd; exact h

theorem ends_newLine (ind : Nat) (r : Str) : NumEnds (newLine ind ++ r) := by
  rw [newLine, List.cons_append]; exact ends_of

theorem skipWs_json (ind : Nat) (j : Json) (r : Str) : skipWs (j.text ind ++ r) = j.text ind ++ r := by
  obtain ⟨c, t, h, hs⟩ := j.starts ind
  rw [h, List.cons_append, skipWs_cons _ hs.facts.1]

theorem readWord_of (w : Str) (j : Json) (r : Str) : readWord w j (w ++ r) = some (j, r) := by
  rw [readWord, if_pos (List.prefix_append w r), List.drop_left]

theorem Jsons.text_head (ind : Nat) : ∀ (j : Json) (l : Jsons) (r : Str),
    ∃ c t, skipWs ((Jsons.cons j l).text ind ++ r) = c :: t ∧ Starts c
  | j, .nil, r => by
    obtain ⟨c, t, h, hs⟩ := j.starts ind
    refine ⟨c, t ++ r, ?_, hs⟩
    rw [Jsons.text, List.append_assoc, skipWs_newLine, h, List.cons_append, skipWs_cons _ hs.facts.1]
  | j, .cons j' l, r => by
    obtain ⟨c, t, h, hs⟩ := j.starts ind
    refine ⟨c, t ++ (',' :: ((Jsons.cons j' l).text ind ++ r)), ?_, hs⟩
    rw [Jsons.text]
    · rw [List.append_assoc, skipWs_newLine, h]
      simp only [List.cons_append, List.append_assoc]
      rw [skipWs_cons _ hs.facts.1]
    · simp

theorem Members.text_head (ind : Nat) : ∀ (k : Str) (j : Json) (l : Members) (r : Str),
    ∃ t, skipWs ((Members.cons k j l).text ind ++ r) = '"' :: t
  | k, j, .nil, r => by
    refine ⟨k.flatMap escapeChar ++ ('"' :: (':' :: ' ' :: (j.text ind ++ r))), ?_⟩
    rw [Members.text, List.append_assoc, skipWs_newLine, strText]
    simp only [List.cons_append, List.append_assoc]
    rw [skipWs_cons _ (by decide)]; simp
  | k, j, .cons k' j' l, r => by
    refine ⟨k.flatMap escapeChar ++ ('"' :: (':' :: ' ' ::
      (j.text ind ++ (',' :: ((Members.cons k' j' l).text ind ++ r))))), ?_⟩
    rw [Members.text]
    · rw [List.append_assoc, skipWs_newLine, strText]
      simp only [List.cons_append, List.append_assoc]
      rw [skipWs_cons _ (by decide)]; simp
    · simp

mutual
theorem readJson_text (ind : Nat) : ∀ (j : Json) (f : Nat) (r : Str), j.need ≤ f → NumEnds r →
    readJson f (j.text ind ++ r) = some (j, r)
  | j, 0, r, hf, _ => by
    have : 0 < j.need := by cases j <;> simp [Json.need] <;> omega
    omega
  | .null, f + 1, r, _, _ => by
    have : Json.null.text ind ++ r = 'n' :: ("ull".toList ++ r) := rfl
    rw [this, readJson, skipWs_cons _ (by decide)]
    have h := readWord_of "ull".toList .null r
    simpa using h
  | .bool true, f + 1, r, _, _ => by
    have : (Json.bool true).text ind ++ r = 't' :: ("rue".toList ++ r) := rfl
    rw [this, readJson, skipWs_cons _ (by decide)]
    have h := readWord_of "rue".toList (.bool true) r
    simpa using h
  | .bool false, f + 1, r, _, _ => by
    have : (Json.bool false).text ind ++ r = 'f' :: ("alse".toList ++ r) := rfl
    rw [this, readJson, skipWs_cons _ (by decide)]
    have h := readWord_of "alse".toList (.bool false) r
    simpa using h
  | .num n, f + 1, r, _, hr => by
    obtain ⟨c, t, h, hs, hn⟩ := readNum_text n r hr
    rw [Json.text, h, readJson]
    rcases hs with rfl | hs
    · rw [skipWs_cons _ (by decide)]; simpa using hn
    · rw [skipWs_cons _ (digit_ws hs)]; 
      have h1 := digit_ne hs (d := '"')
      have h2 := digit_ne hs (d := '[')
      have h3 := digit_ne hs (d := '{')
      have h4 := digit_ne hs (d := 'n')
      have h5 := digit_ne hs (d := 't')
      have h6 := digit_ne hs (d := 'f')
      simp [h1, h2, h3, h4, h5, h6, hn]
  | .real, f + 1, r, _, hr => by
    have : Json.real.text ind ++ r = '0' :: '.' :: '5' :: r := rfl
    rw [this, readJson, skipWs_cons _ (by decide)]
    have h5 := takeWhile_ends (ds := ['5']) (r := r) (by decide) hr
    have h0 := takeWhile_ends (ds := ['0']) (r := []) (by decide) (by simp [NumEnds])
    have hd : '.'.isDigit = false := by decide
    have hz : '0'.isDigit = true := by decide
    have e1 : ('0' :: '.' :: '5' :: r).takeWhile Char.isDigit = ['0'] := by simp [List.takeWhile, hd, hz]
    have e2 : ('0' :: '.' :: '5' :: r).dropWhile Char.isDigit = '.' :: '5' :: r := by simp [List.dropWhile, hd, hz]
    have e3 : ('5' :: r).takeWhile Char.isDigit = ['5'] := h5.1
    have e4 : ('5' :: r).dropWhile Char.isDigit = r := h5.2
    simp [readNum, readDigits, e1, e2, readFraction, e3, e4, readExponent_ends hr]
  | .str s, f + 1, r, _, _ => by
    have : (Json.str s).text ind ++ r = '"' :: (s.flatMap escapeChar ++ '"' :: r) := by
      simp [Json.text, strText]
    rw [this, readJson, skipWs_cons _ (by decide)]
    simp only [if_true]
    rw [readStr_full]; rfl
  | .arr .nil, f + 1, r, _, _ => by
    have : (Json.arr .nil).text ind ++ r = '[' :: ']' :: r := rfl
    rw [this, readJson, skipWs_cons _ (by decide)]
    have h : skipWs (']' :: r) = ']' :: r := skipWs_cons _ (by decide)
    simp [h]
  | .arr (.cons j l), f + 1, r, hf, _ => by
    have hx : (Json.arr (.cons j l)).text ind ++ r =
        '[' :: ((Jsons.cons j l).text (ind + 1) ++ (newLine ind ++ (']' :: r))) := by
      rw [Json.text]
      · simp
      · simp
    have hi := readItems_text (ind + 1) ind j l f r (by simp [Json.need] at hf; omega)
    rw [hx, readJson, skipWs_cons _ (by decide)]
    obtain ⟨c, t, hs, ht⟩ := Jsons.text_head (ind + 1) j l (newLine ind ++ (']' :: r))
    have hi' : readItems f (c :: t) = some (.cons j l, r) := by
      rw [← hi]; apply readItems_ws
      rw [hs, skipWs_cons _ ht.facts.1]
    simp [hs, ht.facts.2.1, hi']
  | .obj .nil, f + 1, r, _, _ => by
    have : (Json.obj .nil).text ind ++ r = '{' :: '}' :: r := rfl
    rw [this, readJson, skipWs_cons _ (by decide)]
    have h : skipWs ('}' :: r) = '}' :: r := skipWs_cons _ (by decide)
    simp [h]
  | .obj (.cons k j l), f + 1, r, hf, _ => by
    have hx : (Json.obj (.cons k j l)).text ind ++ r =
        '{' :: ((Members.cons k j l).text (ind + 1) ++ (newLine ind ++ ('}' :: r))) := by
      rw [Json.text]
      · simp
      · simp
    have hi := readMembers_text (ind + 1) ind k j l f r (by simp [Json.need] at hf; omega)
    rw [hx, readJson, skipWs_cons _ (by decide)]
    obtain ⟨t, hs⟩ := Members.text_head (ind + 1) k j l (newLine ind ++ ('}' :: r))
    have hi' : readMembers f ('"' :: t) = some (.cons k j l, r) := by
      rw [← hi]; apply readMembers_ws
      rw [hs, skipWs_cons _ (by decide)]
    simp [hs, hi']
termination_by structural _ f => f
theorem readItems_text (ind ind' : Nat) : ∀ (j : Json) (l : Jsons) (f : Nat) (r : Str), (Jsons.cons j l).need ≤ f →
    readItems f ((Jsons.cons j l).text ind ++ (newLine ind' ++ (']' :: r))) = some (.cons j l, r)
  | j, l, 0, r, hf => by simp [Jsons.need] at hf
  | j, .nil, f + 1, r, hf => by
    have hx : (Jsons.cons j .nil).text ind ++ (newLine ind' ++ (']' :: r)) =
        newLine ind ++ (j.text ind ++ (newLine ind' ++ (']' :: r))) := by
      rw [Jsons.text]; simp
    have hj := readJson_text ind j f (newLine ind' ++ (']' :: r))
      (by simp [Jsons.need] at hf; omega) (ends_newLine _ _)
    rw [hx, readItems, readJson_ws (skipWs_newLine _ _), hj]
    have : skipWs (newLine ind' ++ (']' :: r)) = ']' :: r := by
      rw [skipWs_newLine, skipWs_cons _ (by decide)]
    simp [this]
  | j, .cons j' l, f + 1, r, hf => by
    have hx : (Jsons.cons j (.cons j' l)).text ind ++ (newLine ind' ++ (']' :: r)) =
        newLine ind ++ (j.text ind ++ (',' :: ((Jsons.cons j' l).text ind ++ (newLine ind' ++ (']' :: r))))) := by
      rw [Jsons.text]
      · simp
      · simp
    rw [Jsons.need] at hf
    have hj := readJson_text ind j f (',' :: ((Jsons.cons j' l).text ind ++ (newLine ind' ++ (']' :: r))))
      (by omega) ends_of
    have hl := readItems_text ind ind' j' l f r (by omega)
    rw [hx, readItems, readJson_ws (skipWs_newLine _ _), hj]
    have := skipWs_cons (c := ',') ((Jsons.cons j' l).text ind ++ (newLine ind' ++ (']' :: r))) (by decide)
    simp [this, hl]
termination_by structural _ _ f => f
theorem readMembers_text (ind ind' : Nat) : ∀ (k : Str) (j : Json) (l : Members) (f : Nat) (r : Str),
    (Members.cons k j l).need ≤ f →
    readMembers f ((Members.cons k j l).text ind ++ (newLine ind' ++ ('}' :: r))) = some (.cons k j l, r)
  | k, j, l, 0, r, hf => by simp [Members.need] at hf
  | k, j, .nil, f + 1, r, hf => by
    have hx : (Members.cons k j .nil).text ind ++ (newLine ind' ++ ('}' :: r)) =
        newLine ind ++ ('"' :: (k.flatMap escapeChar ++
          ('"' :: (':' :: ' ' :: (j.text ind ++ (newLine ind' ++ ('}' :: r))))))) := by
      rw [Members.text]; simp [strText]
    have hj := readJson_text ind j f (newLine ind' ++ ('}' :: r))
      (by simp [Members.need] at hf; omega) (ends_newLine _ _)
    rw [hx, readMembers, skipWs_newLine, skipWs_cons _ (by decide)]
    have h1 := skipWs_cons (c := ':') (' ' :: (j.text ind ++ (newLine ind' ++ ('}' :: r)))) (by decide)
    have h2 : skipWs (newLine ind' ++ ('}' :: r)) = '}' :: r := by
      rw [skipWs_newLine, skipWs_cons _ (by decide)]
    have h3 : readJson f (' ' :: (j.text ind ++ (newLine ind' ++ ('}' :: r)))) =
        some (j, newLine ind' ++ ('}' :: r)) := by
      rw [← hj]; exact readJson_ws (skipWs_space _) f
    have h4 := readStr_full k (':' :: ' ' :: (j.text ind ++ (newLine ind' ++ ('}' :: r))))
    simp only [if_true]
    rw [h4]
    dsimp only
    rw [h1]
    dsimp only
    rw [if_pos rfl, h3]
    dsimp only
    rw [h2]
    simp
  | k, j, .cons k' j' l, f + 1, r, hf => by
    have hx : (Members.cons k j (.cons k' j' l)).text ind ++ (newLine ind' ++ ('}' :: r)) =
        newLine ind ++ ('"' :: (k.flatMap escapeChar ++
          ('"' :: (':' :: ' ' :: (j.text ind ++
            (',' :: ((Members.cons k' j' l).text ind ++ (newLine ind' ++ ('}' :: r))))))))) := by
      rw [Members.text]
      · simp [strText]
      · simp
    rw [Members.need] at hf
    have hj := readJson_text ind j f (',' :: ((Members.cons k' j' l).text ind ++ (newLine ind' ++ ('}' :: r))))
      (by omega) ends_of
    have hl := readMembers_text ind ind' k' j' l f r (by omega)
    rw [hx, readMembers, skipWs_newLine, skipWs_cons _ (by decide)]
    generalize (Members.cons k' j' l).text ind ++ (newLine ind' ++ ('}' :: r)) = q at hj hl ⊢
    have h1 := skipWs_cons (c := ':') (' ' :: (j.text ind ++ (',' :: q))) (by decide)
    have h2 : skipWs (',' :: q) = ',' :: q := skipWs_cons _ (by decide)
    have h3 : readJson f (' ' :: (j.text ind ++ (',' :: q))) = some (j, ',' :: q) := by
      rw [← hj]; exact readJson_ws (skipWs_space _) f
    have h4 := readStr_full k (':' :: ' ' :: (j.text ind ++ (',' :: q)))
    simp only [if_true]
    rw [h4]
    dsimp only
    rw [h1]
    dsimp only
    rw [if_pos rfl, h3]
    dsimp only
    rw [h2]
    dsimp only
    rw [if_pos rfl, hl]; rfl
termination_by structural _ _ _ f => f
end

/-- What was written is read back. -/
theorem Json.ofBytes_bytes (j : Json) : Json.ofBytes j.bytes = some j := by
  have h := readJson_text 0 j (2 * (j.text 0).length + 2) [] (by have := j.need_le 0; omega) (by simp [NumEnds])
  rw [List.append_nil] at h
  rw [Json.ofBytes, Json.bytes, utf8Str_bytes]
  dsimp only
  rw [h]; rfl

/-! ## Beginnings -/

theorem skipWs_more {p : Str} {c : Char} {r : Str} (q : Str) (h : skipWs p = c :: r) :
    skipWs (p ++ q) = c :: (r ++ q) := by
  induction p with
  | nil => exact absurd h (by simp [skipWs])
  | cons a p ih =>
    by_cases ha : isWs a = true
    · have h1 : skipWs (a :: p) = skipWs p := by simp [skipWs, ha]
      have h2 : skipWs (a :: p ++ q) = skipWs (p ++ q) := by simp [skipWs, ha]
      rw [h2]; exact ih (h1 ▸ h)
    · have ha' : isWs a = false := by simpa using ha
      rw [skipWs_cons _ ha'] at h
      injection h with h1 h2
      subst h1 h2
      rw [List.cons_append, skipWs_cons _ ha']

theorem pair_more {α : Type} {x c : α} {p r : Str} (q : Str) (h : some (x, p) = some (c, r)) :
    some (x, p ++ q) = some (c, r ++ q) := by
  injection h with h; injection h with h1 h2
  rw [h1, h2]

theorem unescape_more {p : Str} {c : Char} {r : Str} (q : Str) (h : unescape p = some (c, r)) :
    unescape (p ++ q) = some (c, r ++ q) := by
  cases p with
  | nil => exact absurd h (by simp [unescape])
  | cons a p =>
    rw [List.cons_append]
    simp only [unescape] at h ⊢
    by_cases h1 : a = '"'
    · rw [if_pos h1] at h ⊢; exact pair_more q h
    rw [if_neg h1] at h ⊢; clear h1
    by_cases h1 : a = '\\'
    · rw [if_pos h1] at h ⊢; exact pair_more q h
    rw [if_neg h1] at h ⊢; clear h1
    by_cases h1 : a = '/'
    · rw [if_pos h1] at h ⊢; exact pair_more q h
    rw [if_neg h1] at h ⊢; clear h1
    by_cases h1 : a = 'b'
    · rw [if_pos h1] at h ⊢; exact pair_more q h
    rw [if_neg h1] at h ⊢; clear h1
    by_cases h1 : a = 'f'
    · rw [if_pos h1] at h ⊢; exact pair_more q h
    rw [if_neg h1] at h ⊢; clear h1
    by_cases h1 : a = 'n'
    · rw [if_pos h1] at h ⊢; exact pair_more q h
    rw [if_neg h1] at h ⊢; clear h1
    by_cases h1 : a = 'r'
    · rw [if_pos h1] at h ⊢; exact pair_more q h
    rw [if_neg h1] at h ⊢; clear h1
    by_cases h1 : a = 't'
    · rw [if_pos h1] at h ⊢; exact pair_more q h
    rw [if_neg h1] at h ⊢; clear h1
    by_cases h1 : a = 'u'
    · rw [if_pos h1] at h ⊢
      match p, h with
      | [], h | [_], h | [_, _], h | [_, _, _], h => exact absurd h (by simp)
      | x :: y :: z :: w :: p, h =>
        dsimp only [List.cons_append] at h ⊢
        split at h
        · split at h
          · rename_i hv
            rw [if_pos hv]; exact pair_more q h
          · exact absurd h (by simp)
        · exact absurd h (by simp)
    · rw [if_neg h1] at h; exact absurd h (by simp)

theorem readStr_more : ∀ {f f' : Nat} {p s r : Str} (q : Str), f ≤ f' → readStr f p = some (s, r) →
    readStr f' (p ++ q) = some (s, r ++ q)
  | 0, _, _, _, _, _, _, h => by simp [readStr] at h
  | f + 1, f', [], _, _, _, _, h => by simp [readStr] at h
  | f + 1, 0, _, _, _, _, hf, _ => by omega
  | f + 1, f' + 1, c :: p, s, r, q, hf, h => by
    rw [List.cons_append]
    simp only [readStr] at h ⊢
    by_cases h1 : c = '"'
    · rw [if_pos h1] at h ⊢
      injection h with h; injection h with h2 h3
      subst h2 h3; rfl
    rw [if_neg h1] at h ⊢
    by_cases h2 : c = '\\'
    · rw [if_pos h2] at h ⊢
      cases hu : unescape p with
      | none => rw [hu] at h; exact absurd h (by simp)
      | some x =>
        obtain ⟨x, p'⟩ := x
        rw [hu] at h
        rw [unescape_more q hu]
        simp only [Option.map_eq_some_iff] at h ⊢
        obtain ⟨y, hy, he⟩ := h
        injection he with he1 he2
        subst he1 he2
        exact ⟨_, readStr_more q (by omega) hy, rfl⟩
    rw [if_neg h2] at h ⊢
    by_cases h3 : c.toNat < 32
    · rw [if_pos h3] at h; exact absurd h (by simp)
    rw [if_neg h3] at h ⊢
    simp only [Option.map_eq_some_iff] at h ⊢
    obtain ⟨y, hy, he⟩ := h
    injection he with he1 he2
    subst he1 he2
    exact ⟨_, readStr_more q (by omega) hy, rfl⟩

theorem digits_more {p : Str} (q : Str) (h : p.dropWhile Char.isDigit ≠ []) :
    (p ++ q).takeWhile Char.isDigit = p.takeWhile Char.isDigit ∧
      (p ++ q).dropWhile Char.isDigit = p.dropWhile Char.isDigit ++ q := by
  induction p with
  | nil => exact absurd rfl h
  | cons a p ih =>
    by_cases ha : a.isDigit = true
    · have : (a :: p).dropWhile Char.isDigit = p.dropWhile Char.isDigit := by simp [ha]
      rw [this] at h
      have ih := ih h
      simp [ha, ih.1, ih.2]
    · simp [ha]

theorem readFraction_more {p r : Str} {b : Bool} (q : Str) (hr : r ≠ []) (h : readFraction p = some (b, r)) :
    readFraction (p ++ q) = some (b, r ++ q) := by
  cases p with
  | nil => simp only [readFraction, Option.some.injEq, Prod.mk.injEq] at h; exact absurd h.2.symm hr
  | cons c p =>
    rw [List.cons_append]
    simp only [readFraction] at h ⊢
    by_cases hc : c = '.'
    · rw [if_pos hc] at h ⊢
      by_cases hd : p.takeWhile Char.isDigit = []
      · rw [if_pos hd] at h; exact absurd h (by simp)
      · rw [if_neg hd] at h
        injection h with h; injection h with h1 h2
        subst h1
        have := digits_more q (p := p) (by rw [h2]; exact hr)
        rw [this.1, this.2, if_neg hd, h2]
    · rw [if_neg hc] at h ⊢
      injection h with h; injection h with h1 h2
      subst h1 h2; rfl

theorem readExponent_more {p r : Str} {b : Bool} (q : Str) (hr : r ≠ []) (h : readExponent p = some (b, r)) :
    readExponent (p ++ q) = some (b, r ++ q) := by
  cases p with
  | nil => simp only [readExponent, Option.some.injEq, Prod.mk.injEq] at h; exact absurd h.2.symm hr
  | cons c p =>
    rw [List.cons_append]
    simp only [readExponent] at h ⊢
    by_cases hc : c = 'e' ∨ c = 'E'
    · rw [if_pos hc] at h ⊢
      cases p with
      | nil => exact absurd h (by simp)
      | cons d p =>
        rw [List.cons_append]
        dsimp only at h ⊢
        have key : ∀ ds : Str, (if ds.takeWhile Char.isDigit = [] then none
            else some (true, ds.dropWhile Char.isDigit)) = some (b, r) →
            (if (ds ++ q).takeWhile Char.isDigit = [] then none
            else some (true, (ds ++ q).dropWhile Char.isDigit)) = some (b, r ++ q) := by
          intro ds h
          by_cases hd : ds.takeWhile Char.isDigit = []
          · rw [if_pos hd] at h; exact absurd h (by simp)
          · rw [if_neg hd] at h
            injection h with h; injection h with h1 h2
            subst h1
            have := digits_more q (p := ds) (by rw [h2]; exact hr)
            rw [this.1, this.2, if_neg hd, h2]
        by_cases hs : d = '+' ∨ d = '-'
        · rw [if_pos hs] at h ⊢; exact key _ h
        · rw [if_neg hs] at h ⊢; exact key (d :: p) h
    · rw [if_neg hc] at h ⊢
      injection h with h; injection h with h1 h2
      subst h1 h2; rfl

theorem readDigits_more {neg : Bool} {p r : Str} {j : Json} (q : Str) (hr : r ≠ [])
    (h : readDigits neg p = some (j, r)) : readDigits neg (p ++ q) = some (j, r ++ q) := by
  simp only [readDigits] at h
  split at h
  · exact absurd h (by simp)
  rename_i hds
  cases hf : readFraction (p.dropWhile Char.isDigit) with
  | none => rw [hf] at h; exact absurd h (by simp)
  | some x =>
    obtain ⟨fr, r1⟩ := x
    rw [hf] at h
    dsimp only at h
    cases he : readExponent r1 with
    | none => rw [he] at h; exact absurd h (by simp)
    | some y =>
      obtain ⟨ex, r2⟩ := y
      rw [he] at h
      dsimp only at h
      have hr2 : r2 = r := by
        repeat' split at h
        all_goals (injection h with h; injection h)
      subst hr2
      have hr1 : r1 ≠ [] := by
        rintro rfl
        simp only [readExponent, Option.some.injEq, Prod.mk.injEq] at he
        exact hr he.2.symm
      have hd : p.dropWhile Char.isDigit ≠ [] := by
        intro hx
        rw [hx] at hf
        simp only [readFraction, Option.some.injEq, Prod.mk.injEq] at hf
        exact hr1 hf.2.symm
      obtain ⟨d1, d2⟩ := digits_more q hd
      simp only [readDigits, d1, d2, hds, if_false, readFraction_more q hr1 hf, readExponent_more q hr he]
      repeat' split at h
      all_goals
        injection h with h; injection h with h3 h4
        subst h3
        simp_all

theorem readWord_more {w p r : Str} {j j' : Json} (q : Str) (h : readWord w j p = some (j', r)) :
    readWord w j (p ++ q) = some (j', r ++ q) := by
  simp only [readWord] at h ⊢
  by_cases hp : w <+: p
  · rw [if_pos hp] at h
    obtain ⟨t, rfl⟩ := hp
    rw [if_pos (by rw [List.append_assoc]; exact List.prefix_append _ _)]
    injection h with h; injection h with h1 h2
    rw [List.drop_left] at h2
    rw [List.append_assoc, List.drop_left, h1, h2]
  · rw [if_neg hp] at h; exact absurd h (by simp)

/-- Values whose end can be seen. -/
def Json.closed : Json → Bool
  | .num _ => false
  | .real => false
  | _ => true

theorem readNum_closed {c : Char} {p r : Str} {j : Json} (h : readNum c p = some (j, r)) : j.closed = false := by
  have key : ∀ neg p, readDigits neg p = some (j, r) → j.closed = false := by
    intro neg p h
    simp only [readDigits] at h
    repeat' split at h
    all_goals first
      | (injection h with h; injection h with h1 h2; subst h1; rfl)
      | exact absurd h (by simp)
  rw [readNum] at h
  split at h <;> exact key _ _ h

theorem readNum_more {c : Char} {p r : Str} {j : Json} (q : Str) (hr : r ≠ []) (h : readNum c p = some (j, r)) :
    readNum c (p ++ q) = some (j, r ++ q) := by
  rw [readNum] at h ⊢
  by_cases hc : c = '-'
  · rw [if_pos hc] at h ⊢; exact readDigits_more q hr h
  · rw [if_neg hc] at h ⊢; exact readDigits_more q hr h

theorem map_pair {α β γ : Type} {o : Option (α × β)} {g : α → γ} {x : γ} {y : β}
    (h : o.map (fun z => (g z.1, z.2)) = some (x, y)) : ∃ a, o = some (a, y) ∧ g a = x := by
  cases o with
  | none => exact absurd h (by simp)
  | some z =>
    simp only [Option.map_some, Option.some.injEq, Prod.mk.injEq] at h
    exact ⟨z.1, by rw [← h.2], h.1⟩

mutual
theorem readJson_more : ∀ {f f' : Nat} {p r : Str} {j : Json} (q : Str), f ≤ f' →
    readJson f p = some (j, r) → (r ≠ [] ∨ j.closed = true) → readJson f' (p ++ q) = some (j, r ++ q)
  | 0, _, _, _, _, _, _, h, _ => by rw [readJson] at h; exact absurd h (by simp)
  | f + 1, 0, _, _, _, _, hf, _, _ => by omega
  | f + 1, f' + 1, p, r, j, q, hf, h, hr => by
    rw [readJson] at h ⊢
    cases hs : skipWs p with
    | nil => rw [hs] at h; exact absurd h (by simp)
    | cons c t =>
      rw [hs] at h
      rw [skipWs_more q hs]
      dsimp only at h ⊢
      by_cases h1 : c = '"'
      · rw [if_pos h1] at h ⊢
        obtain ⟨a, ha, hx⟩ := map_pair (g := Json.str) h
        rw [readStr_more q (by rw [List.length_append]; omega) ha, ← hx]; rfl
      rw [if_neg h1] at h ⊢
      by_cases h2 : c = '['
      · rw [if_pos h2] at h ⊢
        cases ht : skipWs t with
        | nil => rw [ht] at h; exact absurd h (by simp)
        | cons d t' =>
          rw [ht] at h
          rw [skipWs_more q ht]
          dsimp only at h ⊢
          by_cases h3 : d = ']'
          · rw [if_pos h3] at h ⊢
            injection h with h; injection h with h4 h5
            rw [h4, h5]
          · rw [if_neg h3] at h ⊢
            obtain ⟨a, ha, hx⟩ := map_pair (g := Json.arr) h
            rw [← List.cons_append, readItems_more q (by omega) ha, ← hx]; rfl
      rw [if_neg h2] at h ⊢
      by_cases h3 : c = '{'
      · rw [if_pos h3] at h ⊢
        cases ht : skipWs t with
        | nil => rw [ht] at h; exact absurd h (by simp)
        | cons d t' =>
          rw [ht] at h
          rw [skipWs_more q ht]
          dsimp only at h ⊢
          by_cases h4 : d = '}'
          · rw [if_pos h4] at h ⊢
            injection h with h; injection h with h5 h6
            rw [h5, h6]
          · rw [if_neg h4] at h ⊢
            obtain ⟨a, ha, hx⟩ := map_pair (g := Json.obj) h
            rw [← List.cons_append, readMembers_more q (by omega) ha, ← hx]; rfl
      rw [if_neg h3] at h ⊢
      by_cases h4 : c = 'n'
      · rw [if_pos h4] at h ⊢; exact readWord_more q h
      rw [if_neg h4] at h ⊢
      by_cases h5 : c = 't'
      · rw [if_pos h5] at h ⊢; exact readWord_more q h
      rw [if_neg h5] at h ⊢
      by_cases h6 : c = 'f'
      · rw [if_pos h6] at h ⊢; exact readWord_more q h
      rw [if_neg h6] at h ⊢
      have hc := readNum_closed h
      refine readNum_more q (hr.resolve_right ?_) h
      rw [hc]; simp
termination_by structural f => f
theorem readItems_more : ∀ {f f' : Nat} {p r : Str} {l : Jsons} (q : Str), f ≤ f' →
    readItems f p = some (l, r) → readItems f' (p ++ q) = some (l, r ++ q)
  | 0, _, _, _, _, _, _, h => by rw [readItems] at h; exact absurd h (by simp)
  | f + 1, 0, _, _, _, _, hf, _ => by omega
  | f + 1, f' + 1, p, r, l, q, hf, h => by
    rw [readItems] at h ⊢
    cases hj : readJson f p with
    | none => rw [hj] at h; exact absurd h (by simp)
    | some x =>
      obtain ⟨j, t⟩ := x
      rw [hj] at h
      dsimp only at h
      cases ht : skipWs t with
      | nil => rw [ht] at h; exact absurd h (by simp)
      | cons d t' =>
        rw [ht] at h
        have hne : t ≠ [] := by rintro rfl; exact absurd ht (by simp [skipWs])
        rw [readJson_more q (by omega) hj (.inl hne)]
        dsimp only at h ⊢
        rw [skipWs_more q ht]
        dsimp only
        by_cases h1 : d = ','
        · rw [if_pos h1] at h ⊢
          obtain ⟨a, ha, hx⟩ := map_pair (g := Jsons.cons j) h
          rw [readItems_more q (by omega) ha, ← hx]; rfl
        rw [if_neg h1] at h ⊢
        by_cases h2 : d = ']'
        · rw [if_pos h2] at h ⊢
          injection h with h; injection h with h5 h6
          rw [h5, h6]
        · rw [if_neg h2] at h; exact absurd h (by simp)
termination_by structural f => f
theorem readMembers_more : ∀ {f f' : Nat} {p r : Str} {l : Members} (q : Str), f ≤ f' →
    readMembers f p = some (l, r) → readMembers f' (p ++ q) = some (l, r ++ q)
  | 0, _, _, _, _, _, _, h => by rw [readMembers] at h; exact absurd h (by simp)
  | f + 1, 0, _, _, _, _, hf, _ => by omega
  | f + 1, f' + 1, p, r, l, q, hf, h => by
    rw [readMembers] at h ⊢
    cases hs : skipWs p with
    | nil => rw [hs] at h; exact absurd h (by simp)
    | cons c t =>
      rw [hs] at h
      rw [skipWs_more q hs]
      dsimp only at h ⊢
      by_cases h0 : c = '"'
      · rw [if_pos h0] at h ⊢
        cases hk : readStr (t.length + 1) t with
        | none => rw [hk] at h; exact absurd h (by simp)
        | some x =>
          obtain ⟨k, t1⟩ := x
          rw [hk] at h
          rw [readStr_more q (by rw [List.length_append]; omega) hk]
          dsimp only at h ⊢
          cases ht : skipWs t1 with
          | nil => rw [ht] at h; exact absurd h (by simp)
          | cons d t2 =>
            rw [ht] at h
            rw [skipWs_more q ht]
            dsimp only at h ⊢
            by_cases hd : d = ':'
            · rw [if_pos hd] at h ⊢
              cases hj : readJson f t2 with
              | none => rw [hj] at h; exact absurd h (by simp)
              | some x =>
                obtain ⟨j, t3⟩ := x
                rw [hj] at h
                dsimp only at h
                cases ht3 : skipWs t3 with
                | nil => rw [ht3] at h; exact absurd h (by simp)
                | cons e t4 =>
                  rw [ht3] at h
                  have hne : t3 ≠ [] := by rintro rfl; exact absurd ht3 (by simp [skipWs])
                  rw [readJson_more q (by omega) hj (.inl hne)]
                  dsimp only at h ⊢
                  rw [skipWs_more q ht3]
                  dsimp only
                  by_cases h1 : e = ','
                  · rw [if_pos h1] at h ⊢
                    obtain ⟨a, ha, hx⟩ := map_pair (g := Members.cons k j) h
                    rw [readMembers_more q (by omega) ha, ← hx]; rfl
                  rw [if_neg h1] at h ⊢
                  by_cases h2 : e = '}'
                  · rw [if_pos h2] at h ⊢
                    injection h with h; injection h with h5 h6
                    rw [h5, h6]
                  · rw [if_neg h2] at h; exact absurd h (by simp)
            · rw [if_neg hd] at h; exact absurd h (by simp)
      · rw [if_neg h0] at h; exact absurd h (by simp)
termination_by structural f => f
end

/-- What begins with a brace is an object. -/
theorem readJson_brace {f : Nat} {p r : Str} {j : Json} (h : readJson f ('{' :: p) = some (j, r)) :
    j.closed = true := by
  cases f with
  | zero => rw [readJson] at h; exact absurd h (by simp)
  | succ f =>
    rw [readJson, skipWs_cons _ (by decide)] at h
    dsimp only at h
    rw [if_neg (by decide), if_neg (by decide), if_pos rfl] at h
    split at h
    · exact absurd h (by simp)
    · split at h
      · injection h with h; injection h with h1 h2; rw [← h1]; rfl
      · obtain ⟨a, _, hx⟩ := map_pair (g := Json.obj) h
        rw [← hx]; rfl

/-- A beginning of the text of an object that is not all of it is no JSON. -/
theorem Json.ofBytes_torn (l : Members) {k : Nat} (hk : k < (Json.obj l).bytes.length) :
    Json.ofBytes ((Json.obj l).bytes.take k) = none := by
  rw [Json.ofBytes]
  cases hu : utf8Str ((Json.obj l).bytes.take k) with
  | none => rfl
  | some t =>
    dsimp only
    obtain ⟨n, rfl, hn⟩ := utf8Chars_take _ _ _ _ hu
    have hn := hn hk
    cases hr : readJson (2 * (((Json.obj l).text 0).take n).length + 2) (((Json.obj l).text 0).take n) with
    | none => rfl
    | some x =>
      obtain ⟨j, r⟩ := x
      dsimp only
      rw [if_neg]
      intro _
      have hhead : ∃ t, (Json.obj l).text 0 = '{' :: t := by
        cases l with
        | nil => exact ⟨_, rfl⟩
        | cons k j l => exact ⟨_, by rw [Json.text]; simp⟩
      obtain ⟨t, ht⟩ := hhead
      have hc : j.closed = true := by
        cases n with
        | zero =>
          rw [List.take_zero, readJson] at hr
          exact absurd hr (by simp [skipWs])
        | succ n =>
          rw [ht, List.take_succ_cons] at hr
          exact readJson_brace hr
      have hm := readJson_more (((Json.obj l).text 0).drop n) (f' := 2 * ((Json.obj l).text 0).length + 2)
        (by rw [List.length_take]; omega) hr (.inr hc)
      rw [List.take_append_drop] at hm
      have h := readJson_text 0 (.obj l) (2 * ((Json.obj l).text 0).length + 2) []
        (by have := (Json.obj l).need_le 0; omega) (by simp [NumEnds])
      rw [List.append_nil, hm] at h
      injection h with h; injection h with _ h
      have := congrArg List.length h
      rw [List.length_append, List.length_drop, List.length_nil] at this
      omega

end KSync
