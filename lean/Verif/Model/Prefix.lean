import Verif.Model.Report

/-!
# The text of prefixes (src/validation/report.rs:229-352)

A prefix is written as an address, a slash and a length, and this text is what is serialised.  The
functions of the standard library that are called are modelled here: `Display` and `FromStr` of
`Ipv4Addr` and `Ipv6Addr`, and `u8::from_str`.  An address is the list of its parts (four octets, eight
segments) instead of a number.  `Prefix::from_v4_str` and `Prefix::from_v6_str` of the crate `rpki` are
taken to split the text at the first slash, and to check that the length is at most 32 or 128.
-/

namespace KSync

/-! ## Numbers -/

/-- The digit for a number below 16. -/
def digitChar (n : Nat) : Char := if n < 10 then Char.ofNat (48 + n) else Char.ofNat (87 + n)

/-- `char::to_digit`. -/
def digitVal (radix : Nat) (c : Char) : Option Nat :=
  let n := c.toNat
  let v := if 48 ≤ n ∧ n < 58 then n - 48
    else if 97 ≤ n ∧ n < 123 then n - 87
    else if 65 ≤ n ∧ n < 91 then n - 55
    else 36
  if v < radix then some v else none

/-- Leave out leading zeros, but not the last digit. -/
def dropZeros : List Nat → List Nat
  | [] => []
  | [d] => [d]
  | d :: ds => if d = 0 then dropZeros ds else d :: ds

/-- `Display` for `u8`. -/
def decText (n : Nat) : Str := (dropZeros [n / 100, n / 10 % 10, n % 10]).map digitChar

/-- `LowerHex` for `u16`. -/
def hexText (n : Nat) : Str :=
  (dropZeros [n / 4096, n / 256 % 16, n / 16 % 16, n % 16]).map digitChar

/-- The value of digits, most significant first. -/
def digitsVal (radix : Nat) (acc : Nat) : Str → Nat
  | [] => acc
  | c :: cs => digitsVal radix (acc * radix + (digitVal radix c).getD 0) cs

/-- `Parser::read_number` of core::net: all digits that come next; at most `max` of them, and the number
at most `top`; what follows is left. -/
def readNumber (radix max top : Nat) (zeroPrefix : Bool) (s : Str) : Option (Nat × Str) :=
  let ds := s.takeWhile (fun c => (digitVal radix c).isSome)
  if ds = [] then none
  else if max < ds.length then none
  else if top < digitsVal radix 0 ds then none
  else if zeroPrefix = false ∧ ds.head? = some '0' ∧ 1 < ds.length then none
  else some (digitsVal radix 0 ds, s.dropWhile (fun c => (digitVal radix c).isSome))

/-- `Parser::read_separator`: the separator is read before all parts but the first. -/
def readSep (sep : Char) (first : Bool) (s : Str) : Option Str :=
  if first then some s
  else match s with
    | c :: s => if c = sep then some s else none
    | [] => none

/-! ## IPv4 -/

/-- Four octets. -/
abbrev Ip4 := List UInt8

/-- `Display for Ipv4Addr`. -/
def Ip4.text : Ip4 → Str
  | [] => []
  | [o] => decText o.toNat
  | o :: os => decText o.toNat ++ '.' :: Ip4.text os

/-- The octets that are left to be read. -/
def readOctets : Nat → Bool → Str → Option (Ip4 × Str)
  | 0, _, s => some ([], s)
  | k + 1, first, s =>
    match (readSep '.' first s).bind (readNumber 10 3 255 false) with
    | none => none
    | some (n, s) => match readOctets k false s with
      | none => none
      | some (os, s) => some (UInt8.ofNat n :: os, s)

/-- `Parser::read_ipv4_addr`. -/
def readIp4 (s : Str) : Option (Ip4 × Str) := readOctets 4 true s

/-- `FromStr for Ipv4Addr`. -/
def parseIp4 (s : Str) : Option Ip4 :=
  match readIp4 s with
  | some (a, []) => some a
  | _ => none

/-! ## IPv6 -/

/-- Eight segments. -/
abbrev Ip6 := List UInt16

/-- `Ipv6Addr::to_ipv4_mapped`, and the check for addresses that are shown as IPv4-compatible by older versions
of the standard library (`compat`): `::a.b.c.d`, other than `::` and `::1`. -/
def Ip6.embedded (compat : Bool) (a : Ip6) : Option (Bool × UInt16 × UInt16) :=
  match a with
  | [0, 0, 0, 0, 0, x, hi, lo] =>
    if x = 0xffff then some (true, hi, lo)
    else if compat ∧ x = 0 ∧ ¬ (hi = 0 ∧ lo.toNat ≤ 1) then some (false, hi, lo)
    else none
  | _ => none

/-- The two halves of the last segments. -/
def octetsOf (hi lo : UInt16) : Ip4 :=
  [UInt8.ofNat (hi.toNat / 256), UInt8.ofNat (hi.toNat % 256), UInt8.ofNat (lo.toNat / 256),
    UInt8.ofNat (lo.toNat % 256)]

/-- The loop that looks for the longest sequence of zeros, the first if there are several: index,
longest, current (start and length each). -/
def zeroSpan : List UInt16 → Nat → Nat × Nat → Nat × Nat → Nat × Nat
  | [], _, longest, _ => longest
  | x :: xs, i, longest, current =>
    if x = 0 then
      let start := if current.2 = 0 then i else current.1
      let current := (start, current.2 + 1)
      zeroSpan xs (i + 1) (if longest.2 < current.2 then current else longest) current
    else zeroSpan xs (i + 1) longest (0, 0)

/-- `fmt_subslice`. -/
def segsText : List UInt16 → Str
  | [] => []
  | [x] => hexText x.toNat
  | x :: xs => hexText x.toNat ++ ':' :: segsText xs

/-- `Display for Ipv6Addr`. -/
def Ip6.text (compat : Bool) (a : Ip6) : Str :=
  match a.embedded compat with
  | some (true, hi, lo) => "::ffff:".toList ++ Ip4.text (octetsOf hi lo)
  | some (false, hi, lo) => "::".toList ++ Ip4.text (octetsOf hi lo)
  | none =>
    let z := zeroSpan a 0 (0, 0) (0, 0)
    if 1 < z.2 then segsText (a.take z.1) ++ "::".toList ++ segsText (a.drop (z.1 + z.2))
    else segsText a

/-- The two segments for four octets. -/
def segsOf (a : Ip4) : List UInt16 :=
  match a with
  | [p, q, r, s] => [UInt16.ofNat (p.toNat * 256 + q.toNat), UInt16.ofNat (r.toNat * 256 + s.toNat)]
  | _ => []

/-- `read_groups`: the segments read, whether they end with an IPv4 address, and what follows.  The
number is that of the groups that may still come. -/
def readGroups : Nat → Bool → Str → List UInt16 × Bool × Str
  | 0, _, s => ([], false, s)
  | k + 1, first, s =>
    match if 0 < k then (readSep ':' first s).bind readIp4 else none with
    | some (a, s) => (segsOf a, true, s)
    | none => match (readSep ':' first s).bind (readNumber 16 4 65535 true) with
      | none => ([], false, s)
      | some (n, s) =>
        let r := readGroups k false s
        (UInt16.ofNat n :: r.1, r.2)

/-- `Parser::read_ipv6_addr` and `FromStr for Ipv6Addr`. -/
def parseIp6 (s : Str) : Option Ip6 :=
  let (head, v4, s) := readGroups 8 true s
  if head.length = 8 then (if s = [] then some head else none)
  else if v4 then none
  else match s with
    | ':' :: ':' :: s =>
      let (tail, _, s) := readGroups (8 - (head.length + 1)) true s
      if s = [] then some (head ++ List.replicate (8 - head.length - tail.length) 0 ++ tail) else none
    | _ => none

/-! ## Prefixes -/

/-- `TypedPrefix` (report.rs:231-234). -/
inductive TypedPrefix where
  | v4 (addr : Ip4) (len : Nat)
  | v6 (addr : Ip6) (len : Nat)
deriving DecidableEq, Repr

/-- `Display for TypedPrefix`, `Ipv4Prefix` and `Ipv6Prefix`, and `Serialize for TypedPrefix`
(report.rs:256-272, 325-329, 341-345). -/
def TypedPrefix.text (compat : Bool) : TypedPrefix → Str
  | .v4 a len => a.text ++ '/' :: decText len
  | .v6 a len => a.text compat ++ '/' :: decText len

/-- Without a plus sign in front. -/
def dropPlus (s : Str) : Str :=
  match s with
  | '+' :: t => t
  | _ => s

/-- `u8::from_str`: digits, possibly after a plus sign. -/
def parseU8 (s : Str) : Option Nat :=
  let s := dropPlus s
  if s = [] then none
  else if s.all (fun c => (digitVal 10 c).isSome) = false then none
  else if 255 < digitsVal 10 0 s then none
  else some (digitsVal 10 0 s)

/-- What is before and after the first slash. -/
def cutSlash : Str → Option (Str × Str)
  | [] => none
  | c :: s => if c = '/' then some ([], s) else (cutSlash s).map (fun p => (c :: p.1, p.2))

/-- `Prefix::from_v4_str` and `Prefix::from_v6_str`, with the length limited to `max`. -/
def parsePrefix {α : Type} (addr : Str → Option α) (max : Nat) (s : Str) : Option (α × Nat) :=
  match cutSlash s with
  | none => none
  | some (a, l) => match addr a, parseU8 l with
    | some a, some l => if l ≤ max then some (a, l) else none
    | _, _ => none

/-- `str::trim`, for the white space characters of ASCII. -/
def trimText (s : Str) : Str :=
  let ws : Char → Bool := fun c => c = ' ' || (9 ≤ c.toNat && c.toNat ≤ 13)
  ((s.dropWhile ws).reverse.dropWhile ws).reverse

/-- `FromStr for TypedPrefix` and `Deserialize for TypedPrefix` (report.rs:236-254, 274-282). -/
def TypedPrefix.parse (s : Str) : Option TypedPrefix :=
  if '.' ∈ s then (parsePrefix parseIp4 32 (trimText s)).map (fun p => .v4 p.1 p.2)
  else (parsePrefix parseIp6 128 (trimText s)).map (fun p => .v6 p.1 p.2)

/-- Parts and lengths as they can be: four octets and at most 32 bits, or eight segments and at most
128 bits. -/
def TypedPrefix.Proper : TypedPrefix → Prop
  | .v4 a len => a.length = 4 ∧ len ≤ 32
  | .v6 a len => a.length = 8 ∧ len ≤ 128

end KSync
