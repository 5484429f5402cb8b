import Verif.Model.Encoding
import Verif.Lemmas.Paths

/-! # Names, numbers and text -/

set_option linter.unusedVariables false

namespace KSync

/-! ## Hexadecimal -/

theorem hexVal_hexDigit {n : Nat} (h : n < 16) : hexVal (hexDigit n) = some n := by
  have : ∀ n : Fin 16, hexVal (hexDigit n.1) = some n.1 := by decide
  exact this ⟨n, h⟩

theorem hexDigit_plain {n : Nat} (h : n < 16) : hexDigit n ≠ '/' ∧ hexDigit n ≠ '-' ∧ hexDigit n ≠ '_' := by
  have : ∀ n : Fin 16, hexDigit n.1 ≠ '/' ∧ hexDigit n.1 ≠ '-' ∧ hexDigit n.1 ≠ '_' := by decide
  exact this ⟨n, h⟩

/-- The last `k` hexadecimal digits of `n`. -/
def hexK (k n : Nat) : Str := (List.range k).map (fun i => hexDigit (n / 16 ^ (k - 1 - i) % 16))

theorem hexK_succ (k n : Nat) : hexK (k + 1) n = hexK k (n / 16) ++ [hexDigit (n % 16)] := by
  unfold hexK
  rw [List.range_succ, List.map_append]
  congr 1
  · apply List.map_congr_left
    intro i hi
    have hi := List.mem_range.1 hi
    have e : k + 1 - 1 - i = (k - 1 - i) + 1 := by omega
    rw [e, Nat.pow_succ, Nat.mul_comm, Nat.div_div_eq_div_mul]
  · simp

theorem hexNat_append (a b : Str) (acc : Nat) :
    hexNat acc (a ++ b) = (hexNat acc a).bind (fun x => hexNat x b) := by
  induction a generalizing acc with
  | nil => rfl
  | cons c a ih =>
    simp only [List.cons_append, hexNat]
    cases hexVal c with
    | none => rfl
    | some d => exact ih _

theorem hexNat_hexK (k n : Nat) : hexNat 0 (hexK k n) = some (n % 16 ^ k) := by
  induction k generalizing n with
  | zero => simp [hexK, hexNat, Nat.mod_one]
  | succ k ih =>
    rw [hexK_succ, hexNat_append, ih]
    simp only [Option.bind_some, hexNat, hexVal_hexDigit (Nat.mod_lt n (by decide : 0 < 16))]
    congr 1
    rw [Nat.pow_succ, Nat.mul_comm (16 ^ k) 16, Nat.mod_mul]
    omega

theorem Uuid.hex_eq (u : Uuid) : u.hex = hexK 32 u.toNat := rfl

theorem length_hexK (k n : Nat) : (hexK k n).length = k := by simp [hexK]

theorem Uuid.length_hex (u : Uuid) : u.hex.length = 32 := by rw [u.hex_eq, length_hexK]

theorem Uuid.hexNat_hex (u : Uuid) : hexNat 0 u.hex = some u.toNat := by
  rw [u.hex_eq, hexNat_hexK]
  congr 1
  exact Nat.mod_eq_of_lt u.isLt

theorem Uuid.mem_hex {u : Uuid} {c : Char} (h : c ∈ u.hex) : c ≠ '/' ∧ c ≠ '-' ∧ c ≠ '_' := by
  unfold Uuid.hex at h
  obtain ⟨i, _, rfl⟩ := List.mem_map.1 h
  exact hexDigit_plain (Nat.mod_lt _ (by decide))

/-- 32 characters written in groups. -/
theorem exists_32 {l : Str} (h : l.length = 32) : ∃ a0 a1 a2 a3 a4 a5 a6 a7 b0 b1 b2 b3 c0 c1 c2 c3
    d0 d1 d2 d3 e0 e1 e2 e3 e4 e5 e6 e7 e8 e9 ea eb, l = [a0, a1, a2, a3, a4, a5, a6, a7, b0, b1, b2, b3,
    c0, c1, c2, c3, d0, d1, d2, d3, e0, e1, e2, e3, e4, e5, e6, e7, e8, e9, ea, eb] := by
  match l, h with
  | [a0, a1, a2, a3, a4, a5, a6, a7, b0, b1, b2, b3,
    c0, c1, c2, c3, d0, d1, d2, d3, e0, e1, e2, e3, e4, e5, e6, e7, e8, e9, ea, eb], _ =>
    exact ⟨_, _, _, _, _, _, _, _, _, _, _, _, _, _, _, _, _, _, _, _, _, _, _, _, _, _, _, _, _, _, _, _, rfl⟩

theorem Uuid.length_toStr (u : Uuid) : u.toStr.length = 36 := by
  have h := u.length_hex
  unfold Uuid.toStr
  simp [h]

theorem Uuid.parse_toStr (u : Uuid) : Uuid.parse u.toStr = some u := by
  have hn := u.hexNat_hex
  obtain ⟨a0, a1, a2, a3, a4, a5, a6, a7, b0, b1, b2, b3, c0, c1, c2, c3, d0, d1, d2, d3,
    e0, e1, e2, e3, e4, e5, e6, e7, e8, e9, ea, eb, h⟩ := exists_32 u.length_hex
  have hs : u.toStr = [a0, a1, a2, a3, a4, a5, a6, a7, '-', b0, b1, b2, b3, '-', c0, c1, c2, c3, '-',
      d0, d1, d2, d3, '-', e0, e1, e2, e3, e4, e5, e6, e7, e8, e9, ea, eb] := by
    unfold Uuid.toStr
    rw [h]
    rfl
  unfold Uuid.parse
  rw [if_pos (by rw [hs]; exact ⟨rfl, rfl, rfl, rfl, rfl⟩)]
  have : (u.toStr.take 8 ++ (u.toStr.drop 9).take 4 ++ (u.toStr.drop 14).take 4 ++
      (u.toStr.drop 19).take 4 ++ u.toStr.drop 24) = u.hex := by rw [hs, h]; rfl
  rw [this, hn]
  simp

theorem Uuid.toStr_inj {u v : Uuid} (h : u.toStr = v.toStr) : u = v := by
  have := u.parse_toStr
  rw [h, v.parse_toStr] at this
  exact (Option.some.inj this).symm

theorem Uuid.slash_toStr (u : Uuid) : '/' ∉ u.toStr := by
  unfold Uuid.toStr
  have h : ∀ c, c ∈ u.hex → c ≠ '/' := fun c hc => (Uuid.mem_hex hc).1
  intro hm
  simp only [List.append_assoc, List.mem_append, List.cons_append, List.mem_cons] at hm
  rcases hm with hm | hm | hm | hm | hm | hm | hm | hm | hm
  · exact h _ (List.mem_of_mem_take hm) rfl
  · revert hm; decide
  · exact h _ (List.mem_of_mem_drop (List.mem_of_mem_take hm)) rfl
  · revert hm; decide
  · exact h _ (List.mem_of_mem_drop (List.mem_of_mem_take hm)) rfl
  · revert hm; decide
  · exact h _ (List.mem_of_mem_drop (List.mem_of_mem_take hm)) rfl
  · revert hm; decide
  · exact h _ (List.mem_of_mem_drop hm) rfl

theorem toDigits_inj {m n : Nat} (h : Nat.toDigits 10 m = Nat.toDigits 10 n) : m = n := by
  rw [← Nat.ofDigitChars_ten_toDigits (n := m), h, Nat.ofDigitChars_ten_toDigits]

theorem RsyncRevision.dirName_inj {r r' : RsyncRevision} (h : r.dirName = r'.dirName) : r = r' := by
  unfold RsyncRevision.dirName at h
  rw [List.append_assoc, List.append_assoc, List.append_assoc, List.append_assoc] at h
  have h := List.append_cancel_left h
  have h1 := List.append_inj h (by rw [Uuid.length_toStr, Uuid.length_toStr])
  have h2 := toDigits_inj (List.append_cancel_left h1.2)
  have h3 := Uuid.toStr_inj h1.1
  cases r; cases r'
  simp only at h2 h3
  rw [h2, h3]

theorem RsyncRevision.dirName_head (r : RsyncRevision) : r.dirName.head? = some 's' := by
  unfold RsyncRevision.dirName
  rw [List.append_assoc, List.append_assoc]
  rfl

theorem RsyncRevision.slash_dirName (r : RsyncRevision) : '/' ∉ r.dirName := by
  unfold RsyncRevision.dirName
  intro h
  rw [List.mem_append, List.mem_append, List.mem_append] at h
  rcases h with ((h | h) | h) | h
  · revert h; decide
  · exact r.session.slash_toStr h
  · revert h; decide
  · have := Nat.isDigit_of_mem_toDigits (by decide) (by decide) h
    revert this; decide

theorem RsyncRevision.path_inj {r r' : RsyncRevision} {c : Config} (h : r.path c = r'.path c) : r = r' := by
  unfold RsyncRevision.path at h
  have := List.append_cancel_left h
  exact RsyncRevision.dirName_inj (List.cons.inj this).1

/-! ## Base64 -/

theorem b64Val_b64Char {n : Nat} (h : n < 64) : b64Val (b64Char n) = some n ∧ b64Char n ≠ '=' := by
  have : ∀ n : Fin 64, b64Val (b64Char n.1) = some n.1 ∧ b64Char n.1 ≠ '=' := by decide
  exact this ⟨n, h⟩

theorem uint8_of {n : Nat} {a : UInt8} (h : n = a.toNat) : UInt8.ofNat n = a := by
  subst h
  simp

theorem b64Last_one (a : UInt8) :
    b64Last (b64Char (a.toNat / 4)) (b64Char (a.toNat % 4 * 16)) '=' '=' = some [a] := by
  have ha := a.toNat_lt
  unfold b64Last
  rw [(b64Val_b64Char (by omega)).1, (b64Val_b64Char (by omega)).1]
  dsimp only
  rw [if_pos ⟨rfl, rfl⟩, if_pos (by omega), uint8_of (a := a) (by omega)]

theorem b64Last_two (a b : UInt8) :
    b64Last (b64Char (a.toNat / 4)) (b64Char (a.toNat % 4 * 16 + b.toNat / 16))
      (b64Char (b.toNat % 16 * 4)) '=' = some [a, b] := by
  have ha := a.toNat_lt
  have hb := b.toNat_lt
  unfold b64Last
  rw [(b64Val_b64Char (by omega)).1, (b64Val_b64Char (by omega)).1]
  dsimp only
  rw [if_neg (fun h => (b64Val_b64Char (by omega)).2 h.1), (b64Val_b64Char (by omega)).1]
  dsimp only
  rw [if_pos rfl, if_pos (by omega), uint8_of (a := a) (by omega), uint8_of (a := b) (by omega)]

theorem b64Last_three (a b c : UInt8) :
    b64Last (b64Char (a.toNat / 4)) (b64Char (a.toNat % 4 * 16 + b.toNat / 16))
      (b64Char (b.toNat % 16 * 4 + c.toNat / 64)) (b64Char (c.toNat % 64)) = some [a, b, c] := by
  have ha := a.toNat_lt
  have hb := b.toNat_lt
  have hc := c.toNat_lt
  unfold b64Last
  rw [(b64Val_b64Char (by omega)).1, (b64Val_b64Char (by omega)).1]
  dsimp only
  rw [if_neg (fun h => (b64Val_b64Char (by omega)).2 h.1), (b64Val_b64Char (by omega)).1]
  dsimp only
  rw [if_neg (b64Val_b64Char (by omega)).2, (b64Val_b64Char (by omega)).1]
  dsimp only
  rw [uint8_of (a := a) (by omega), uint8_of (a := b) (by omega), uint8_of (a := c) (by omega)]

theorem b64Encode_length : ∀ l : Bytes, (b64Encode l).length = (l.length + 2) / 3 * 4
  | [] => rfl
  | [_] => by simp [b64Encode]
  | [_, _] => by simp [b64Encode]
  | _ :: _ :: _ :: rest => by
    simp only [b64Encode, List.length_cons, b64Encode_length rest]
    omega

theorem b64Decode_encode : ∀ l : Bytes, b64Decode (b64Encode l) = some l
  | [] => rfl
  | [a] => by simp only [b64Encode, b64Decode]; exact b64Last_one a
  | [a, b] => by simp only [b64Encode, b64Decode]; exact b64Last_two a b
  | a :: b :: c :: rest => by
    have ih := b64Decode_encode rest
    have hc := c.toNat_lt
    have hb := b.toNat_lt
    match hr : b64Encode rest with
    | [] =>
      have hl := b64Encode_length rest
      rw [hr] at hl
      have : rest = [] := by
        have : rest.length = 0 := by simp at hl; omega
        exact List.length_eq_zero_iff.1 this
      subst this
      simp only [b64Encode, b64Decode]
      exact b64Last_three a b c
    | x :: xs =>
      simp only [b64Encode]
      rw [hr] at ih ⊢
      unfold b64Decode
      rw [if_neg (by
        rintro (h | h)
        · exact (b64Val_b64Char (by omega)).2 h
        · exact (b64Val_b64Char (by omega)).2 h), b64Last_three, ih]
      rfl

/-! ## Paths with several components -/

theorem comps_append (s t : Str) : comps (s ++ '/' :: t) = comps s ++ comps t := by
  unfold comps
  rw [splitSlash_append, List.filter_append]

end KSync
