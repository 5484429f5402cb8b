import Verif.Model.Rsync

/-!
# Text encodings in the state files

Object bytes are written as base64 (src/util.rs:51-65, src/validation/validator.rs:851-866) and
session ids in their hyphenated form (src/util.rs:69-82).  The functions of the crates `base64`
and `uuid` that are called there are modelled here: the standard alphabet with padding, and
32 lower case hexadecimal digits in groups.  Simplification: `Uuid::parse_str` also takes other
forms, which are never written.
-/

namespace KSync

/-- The standard base64 alphabet. -/
def b64Char (n : Nat) : Char :=
  if n < 26 then Char.ofNat (65 + n)
  else if n < 52 then Char.ofNat (71 + n)
  else if n < 62 then Char.ofNat (n - 4)
  else if n = 62 then '+' else '/'

/-- `base64::encode` (src/util.rs:64, src/validation/validator.rs:865). -/
def b64Encode : Bytes → Str
  | [] => []
  | [a] => [b64Char (a.toNat / 4), b64Char (a.toNat % 4 * 16), '=', '=']
  | [a, b] => [b64Char (a.toNat / 4), b64Char (a.toNat % 4 * 16 + b.toNat / 16),
      b64Char (b.toNat % 16 * 4), '=']
  | a :: b :: c :: rest => b64Char (a.toNat / 4) :: b64Char (a.toNat % 4 * 16 + b.toNat / 16) ::
      b64Char (b.toNat % 16 * 4 + c.toNat / 64) :: b64Char (c.toNat % 64) :: b64Encode rest

/-- The value of a character. -/
def b64Val (c : Char) : Option Nat :=
  let n := c.toNat
  if 65 ≤ n ∧ n < 91 then some (n - 65)
  else if 97 ≤ n ∧ n < 123 then some (n - 71)
  else if 48 ≤ n ∧ n < 58 then some (n + 4)
  else if n = 43 then some 62
  else if n = 47 then some 63
  else none

/-- The last group of characters. -/
def b64Last (w x y z : Char) : Option Bytes :=
  match b64Val w, b64Val x with
  | some w, some x =>
    if y = '=' ∧ z = '=' then
      if x % 16 = 0 then some [UInt8.ofNat (w * 4 + x / 16)] else none
    else match b64Val y with
      | none => none
      | some y =>
        if z = '=' then
          if y % 4 = 0 then
            some [UInt8.ofNat (w * 4 + x / 16), UInt8.ofNat (x % 16 * 16 + y / 4)]
          else none
        else match b64Val z with
          | none => none
          | some z => some [UInt8.ofNat (w * 4 + x / 16), UInt8.ofNat (x % 16 * 16 + y / 4),
              UInt8.ofNat (y % 4 * 64 + z)]
  | _, _ => none

/-- `base64::decode` (src/util.rs:56, src/validation/validator.rs:857). -/
def b64Decode : Str → Option Bytes
  | [] => some []
  | [w, x, y, z] => b64Last w x y z
  | w :: x :: y :: z :: rest =>
    if y = '=' ∨ z = '=' then none
    else match b64Last w x y z, b64Decode rest with
      | some g, some l => some (g ++ l)
      | _, _ => none
  | _ => none

/-- The value of a lower case hexadecimal digit. -/
def hexVal (c : Char) : Option Nat :=
  let n := c.toNat
  if 48 ≤ n ∧ n < 58 then some (n - 48)
  else if 97 ≤ n ∧ n < 103 then some (n - 87)
  else none

/-- A number from its hexadecimal digits, most significant first. -/
def hexNat : Nat → Str → Option Nat
  | acc, [] => some acc
  | acc, c :: s => match hexVal c with
    | some d => hexNat (acc * 16 + d) s
    | none => none

/-- `Uuid::parse_str` (src/util.rs:74) for the hyphenated form. -/
def Uuid.parse (s : Str) : Option Uuid :=
  if s.length = 36 ∧ s[8]? = some '-' ∧ s[13]? = some '-' ∧ s[18]? = some '-' ∧ s[23]? = some '-' then
    (hexNat 0 (s.take 8 ++ (s.drop 9).take 4 ++ (s.drop 14).take 4 ++ (s.drop 19).take 4 ++
      s.drop 24)).map (fun n => BitVec.ofNat 128 n)
  else none

end KSync
