import Verif.Model.Encoding

/-!
# The text of the state files

The two state files are JSON, written with `serde_json::to_string_pretty` (src/rrdp.rs:406-411,
src/rsync.rs:179-183) and read with `serde_json::from_slice` (src/rrdp.rs:68-78, src/rsync.rs:161-169),
through the derived implementations of `Serialize` and `Deserialize` of the types in them.

In the model of a run this is the pair of functions `Ext.encState` and `Ext.decState` (`encRsync`,
`decRsync`) of which some laws are assumed.  Here the text itself is modelled: UTF-8, the syntax of JSON, and
the fields of each type.

Simplifications, none of which concerns texts that the program writes: escaped surrogate pairs in strings
are refused; the value of numbers that are no integers is forgotten; structures are read from objects only
(serde also takes arrays); unit variants are read from strings only; hexadecimal digits of hashes are lower
case; that a text is a URI, and a key a
public key, is not checked; of a path only the components matter; the limit of 128 for nested values is left
out.
-/

namespace KSync

/-! ## UTF-8 -/

/-- The bytes of a character (`str::as_bytes`). -/
def utf8Char (c : Char) : Bytes :=
  let n := c.toNat
  if n < 0x80 then [UInt8.ofNat n]
  else if n < 0x800 then [UInt8.ofNat (0xC0 + n / 64), UInt8.ofNat (0x80 + n % 64)]
  else if n < 0x10000 then
    [UInt8.ofNat (0xE0 + n / 4096), UInt8.ofNat (0x80 + n / 64 % 64), UInt8.ofNat (0x80 + n % 64)]
  else [UInt8.ofNat (0xF0 + n / 262144), UInt8.ofNat (0x80 + n / 4096 % 64),
    UInt8.ofNat (0x80 + n / 64 % 64), UInt8.ofNat (0x80 + n % 64)]

def utf8Bytes (s : Str) : Bytes := s.flatMap utf8Char

/-- The six bits of a byte that is not the first of its character. -/
def utf8Cont (b : UInt8) : Option Nat :=
  if 0x80 ≤ b.toNat ∧ b.toNat < 0xC0 then some (b.toNat - 0x80) else none

/-- The character with this number, if it needs that many bytes. -/
def utf8Make (min n : Nat) : Option Char :=
  if min ≤ n ∧ n.isValidChar then some (Char.ofNat n) else none

/-- The first character. -/
def utf8Next : Bytes → Option (Char × Bytes)
  | [] => none
  | a :: r =>
    if a.toNat < 0x80 then some (Char.ofNat a.toNat, r)
    else if a.toNat < 0xC0 then none
    else if a.toNat < 0xE0 then
      match r with
      | b :: r => match utf8Cont b with
        | some b => (utf8Make 0x80 ((a.toNat - 0xC0) * 64 + b)).map (fun c => (c, r))
        | none => none
      | _ => none
    else if a.toNat < 0xF0 then
      match r with
      | b :: c :: r => match utf8Cont b, utf8Cont c with
        | some b, some c => (utf8Make 0x800 ((a.toNat - 0xE0) * 4096 + b * 64 + c)).map (fun c => (c, r))
        | _, _ => none
      | _ => none
    else
      match r with
      | b :: c :: d :: r => match utf8Cont b, utf8Cont c, utf8Cont d with
        | some b, some c, some d =>
          (utf8Make 0x10000 ((a.toNat - 0xF0) * 262144 + b * 4096 + c * 64 + d)).map (fun c => (c, r))
        | _, _, _ => none
      | _ => none

/-- All characters; the first argument bounds their number. -/
def utf8Chars : Nat → Bytes → Option Str
  | _, [] => some []
  | 0, _ => none
  | f + 1, b => match utf8Next b with
    | none => none
    | some (c, r) => (utf8Chars f r).map (c :: ·)

/-- `serde_json::from_slice` refuses bytes that are not UTF-8. -/
def utf8Str (b : Bytes) : Option Str := utf8Chars b.length b

/-! ## JSON -/

mutual
/-- A JSON value; `real` is any number that is not an integer. -/
inductive Json where
  | null
  | bool (b : Bool)
  | num (n : Int)
  | real
  | str (s : Str)
  | arr (l : Jsons)
  | obj (l : Members)
/-- The elements of an array. -/
inductive Jsons where
  | nil
  | cons (j : Json) (l : Jsons)
/-- The members of an object. -/
inductive Members where
  | nil
  | cons (k : Str) (j : Json) (l : Members)
end

/-! ### Writing -/

/-- `format_escaped_str_contents`, for one character. -/
def escapeChar (c : Char) : Str :=
  if c = '"' then ['\\', '"']
  else if c = '\\' then ['\\', '\\']
  else if c.toNat = 8 then ['\\', 'b']
  else if c.toNat = 9 then ['\\', 't']
  else if c.toNat = 10 then ['\\', 'n']
  else if c.toNat = 12 then ['\\', 'f']
  else if c.toNat = 13 then ['\\', 'r']
  else if c.toNat < 32 then ['\\', 'u', '0', '0', hexDigit (c.toNat / 16), hexDigit (c.toNat % 16)]
  else [c]

/-- A string with its quotes. -/
def strText (s : Str) : Str := '"' :: (s.flatMap escapeChar ++ ['"'])

/-- An integer. -/
def intText : Int → Str
  | .ofNat n => Nat.toDigits 10 n
  | .negSucc n => '-' :: Nat.toDigits 10 (n + 1)

/-- `PrettyFormatter`: a new line with two spaces for each level. -/
def newLine (ind : Nat) : Str := '\n' :: List.replicate (2 * ind) ' '

mutual
/-- `serde_json::to_string_pretty`, at an indentation. -/
def Json.text (ind : Nat) : Json → Str
  | .null => "null".toList
  | .bool b => if b then "true".toList else "false".toList
  | .num n => intText n
  | .real => "0.5".toList
  | .str s => strText s
  | .arr .nil => ['[', ']']
  | .arr l => '[' :: (l.text (ind + 1) ++ (newLine ind ++ [']']))
  | .obj .nil => ['{', '}']
  | .obj l => '{' :: (l.text (ind + 1) ++ (newLine ind ++ ['}']))
/-- The elements of an array, each on its own line. -/
def Jsons.text (ind : Nat) : Jsons → Str
  | .nil => []
  | .cons j .nil => newLine ind ++ j.text ind
  | .cons j l => newLine ind ++ (j.text ind ++ ',' :: l.text ind)
/-- The members of an object, each on its own line. -/
def Members.text (ind : Nat) : Members → Str
  | .nil => []
  | .cons k j .nil => newLine ind ++ (strText k ++ (':' :: ' ' :: j.text ind))
  | .cons k j l => newLine ind ++ (strText k ++ (':' :: ' ' :: (j.text ind ++ ',' :: l.text ind)))
end

/-! ### Reading -/

def isWs (c : Char) : Bool := c == ' ' || c == '\n' || c == '\t' || c == '\r'

def skipWs (s : Str) : Str := s.dropWhile isWs

/-- The character after a backslash, and what follows. -/
def unescape : Str → Option (Char × Str)
  | [] => none
  | c :: r =>
    if c = '"' then some ('"', r)
    else if c = '\\' then some ('\\', r)
    else if c = '/' then some ('/', r)
    else if c = 'b' then some (Char.ofNat 8, r)
    else if c = 'f' then some (Char.ofNat 12, r)
    else if c = 'n' then some (Char.ofNat 10, r)
    else if c = 'r' then some (Char.ofNat 13, r)
    else if c = 't' then some (Char.ofNat 9, r)
    else if c = 'u' then
      match r with
      | a :: b :: c :: d :: r => match jsonHex a, jsonHex b, jsonHex c, jsonHex d with
        | some a, some b, some c, some d =>
          let n := a * 4096 + b * 256 + c * 16 + d
          if n.isValidChar then some (Char.ofNat n, r) else none
        | _, _, _, _ => none
      | _ => none
    else none
where
  /-- Hexadecimal digits may be of either case. -/
  jsonHex (c : Char) : Option Nat :=
    let n := c.toNat
    if 48 ≤ n ∧ n < 58 then some (n - 48)
    else if 97 ≤ n ∧ n < 103 then some (n - 87)
    else if 65 ≤ n ∧ n < 71 then some (n - 55)
    else none

/-- The rest of a string after the opening quote, and what follows; the first argument bounds its length. -/
def readStr : Nat → Str → Option (Str × Str)
  | 0, _ => none
  | _, [] => none
  | f + 1, c :: r =>
    if c = '"' then some ([], r)
    else if c = '\\' then
      match unescape r with
      | none => none
      | some (x, r) => (readStr f r).map (fun y => (x :: y.1, y.2))
    else if c.toNat < 32 then none
    else (readStr f r).map (fun y => (c :: y.1, y.2))

/-- A decimal fraction, perhaps; the Boolean tells if there was one. -/
def readFraction : Str → Option (Bool × Str)
  | [] => some (false, [])
  | c :: r =>
    if c = '.' then
      if r.takeWhile Char.isDigit = [] then none else some (true, r.dropWhile Char.isDigit)
    else some (false, c :: r)

/-- An exponent, perhaps. -/
def readExponent : Str → Option (Bool × Str)
  | [] => some (false, [])
  | c :: r =>
    if c = 'e' ∨ c = 'E' then
      match r with
      | [] => none
      | d :: r' =>
        let ds := if d = '+' ∨ d = '-' then r' else r
        if ds.takeWhile Char.isDigit = [] then none else some (true, ds.dropWhile Char.isDigit)
    else some (false, c :: r)

/-- Digits, without leading zeros, and what may follow them; `neg` tells if there was a minus sign. -/
def readDigits (neg : Bool) (r : Str) : Option (Json × Str) :=
  let ds := r.takeWhile Char.isDigit
  if ds = [] ∨ (ds.head? = some '0' ∧ ds ≠ ['0']) then none
  else match readFraction (r.dropWhile Char.isDigit) with
    | none => none
    | some (fr, r1) => match readExponent r1 with
      | none => none
      | some (ex, r2) =>
        if fr || ex || (neg && ds == ['0']) then some (.real, r2)
        else if neg then some (.num (-(Nat.ofDigitChars 10 ds 0 : Nat)), r2)
        else some (.num (Nat.ofDigitChars 10 ds 0 : Nat), r2)

/-- A number. -/
def readNum (c : Char) (r : Str) : Option (Json × Str) :=
  if c = '-' then readDigits true r else readDigits false (c :: r)

/-- The rest of a word. -/
def readWord (word : Str) (j : Json) (r : Str) : Option (Json × Str) :=
  if word <+: r then some (j, r.drop word.length) else none

mutual
/-- A value, and what follows; the first argument bounds the nesting. -/
def readJson : Nat → Str → Option (Json × Str)
  | 0, _ => none
  | f + 1, s =>
    match skipWs s with
    | [] => none
    | c :: r =>
      if c = '"' then (readStr (r.length + 1) r).map (fun y => (.str y.1, y.2))
      else if c = '[' then
        match skipWs r with
        | [] => none
        | d :: r' =>
          if d = ']' then some (.arr .nil, r')
          else (readItems f (d :: r')).map (fun y => (.arr y.1, y.2))
      else if c = '{' then
        match skipWs r with
        | [] => none
        | d :: r' =>
          if d = '}' then some (.obj .nil, r')
          else (readMembers f (d :: r')).map (fun y => (.obj y.1, y.2))
      else if c = 'n' then readWord "ull".toList .null r
      else if c = 't' then readWord "rue".toList (.bool true) r
      else if c = 'f' then readWord "alse".toList (.bool false) r
      else readNum c r
/-- Elements up to the closing bracket. -/
def readItems : Nat → Str → Option (Jsons × Str)
  | 0, _ => none
  | f + 1, s =>
    match readJson f s with
    | none => none
    | some (j, r) =>
      match skipWs r with
      | [] => none
      | d :: r' =>
        if d = ',' then (readItems f r').map (fun y => (.cons j y.1, y.2))
        else if d = ']' then some (.cons j .nil, r')
        else none
/-- Members up to the closing brace. -/
def readMembers : Nat → Str → Option (Members × Str)
  | 0, _ => none
  | f + 1, s =>
    match skipWs s with
    | [] => none
    | c :: r =>
      if c = '"' then
        match readStr (r.length + 1) r with
        | none => none
        | some (k, r) =>
          match skipWs r with
          | [] => none
          | d :: r =>
            if d = ':' then
              match readJson f r with
              | none => none
              | some (j, r) =>
                match skipWs r with
                | [] => none
                | e :: r' =>
                  if e = ',' then (readMembers f r').map (fun y => (.cons k j y.1, y.2))
                  else if e = '}' then some (.cons k j .nil, r')
                  else none
            else none
      else none
end

/-- `serde_json::from_slice`: one value, and nothing but white space after it. -/
def Json.ofBytes (b : Bytes) : Option Json :=
  match utf8Str b with
  | none => none
  | some s => match readJson (2 * s.length + 2) s with
    | none => none
    | some (j, r) => if skipWs r = [] then some j else none

def Json.bytes (j : Json) : Bytes := utf8Bytes (j.text 0)

/-! ## Fields -/

/-- All values with a name. -/
def Members.all (k : Str) : Members → List Json
  | .nil => []
  | .cons k' j l => if k' = k then j :: l.all k else l.all k

/-- A field that has to be there, once. -/
def Members.field (l : Members) (k : String) (rd : Json → Option α) : Option α :=
  match l.all k.toList with
  | [j] => rd j
  | _ => none

/-- A field of type `Option<..>`: it may be missing or null. -/
def Members.optional (l : Members) (k : String) (rd : Json → Option α) : Option (Option α) :=
  match l.all k.toList with
  | [] => some none
  | [j] => match j with
    | .null => some none
    | j => (rd j).map some
  | _ => none

/-- A field with the attribute `default`. -/
def Members.orDefault (l : Members) (k : String) (d : α) (rd : Json → Option α) : Option α :=
  match l.all k.toList with
  | [] => some d
  | [j] => rd j
  | _ => none

/-- The members that are there (`skip_serializing_if` leaves some out). -/
def members : List (String × Json) → Members
  | [] => .nil
  | (k, j) :: l => .cons k.toList j (members l)

def jsons : List Json → Jsons
  | [] => .nil
  | j :: l => .cons j (jsons l)

def Json.ofOption (w : α → Json) : Option α → Json
  | none => .null
  | some a => w a

/-- `Vec<..>`. -/
def Json.ofList (w : α → Json) (l : List α) : Json := .arr (jsons (l.map w))

def Jsons.readAll (rd : Json → Option α) : Jsons → Option (List α)
  | .nil => some []
  | .cons j l => match rd j, l.readAll rd with
    | some a, some l => some (a :: l)
    | _, _ => none

def Json.list (rd : Json → Option α) : Json → Option (List α)
  | .arr l => l.readAll rd
  | _ => none

/-- `HashMap<..>` with strings as keys. -/
def Json.ofMap (w : α → Json) (m : List (Str × α)) : Json :=
  .obj (m.foldr (fun e l => .cons e.1 (w e.2) l) .nil)

/-- If a key is there twice the last one counts. -/
def Members.readMap (rd : Json → Option α) : Members → Option (List (Str × α))
  | .nil => some []
  | .cons k j l => match rd j, l.readMap rd with
    | some a, some m => some (if k ∈ m.map (·.1) then m else (k, a) :: m)
    | _, _ => none

def Json.map (rd : Json → Option α) : Json → Option (List (Str × α))
  | .obj l => l.readMap rd
  | _ => none

def Json.struct (rd : Members → Option α) : Json → Option α
  | .obj l => rd l
  | _ => none

/-! ## Simple types -/

def Json.string : Json → Option Str
  | .str s => some s
  | _ => none

def Json.boolean : Json → Option Bool
  | .bool b => some b
  | _ => none

/-- `u64`. -/
def Json.u64 : Json → Option Nat
  | .num (.ofNat n) => if n < 2 ^ 64 then some n else none
  | _ => none

/-- `i64`, also `Time` (src/util.rs:12-13). -/
def Json.i64 : Json → Option Int
  | .num n => if -(2 : Int) ^ 63 ≤ n ∧ n < (2 : Int) ^ 63 then some n else none
  | _ => none

def Json.ofNat (n : Nat) : Json := .num (.ofNat n)

/-- `util::ser_uuid`, `util::de_uuid` (src/util.rs:69-82); `Uuid` itself is the same. -/
def Json.ofUuid (u : Uuid) : Json := .str u.toStr

def Json.uuid (j : Json) : Option Uuid := j.string.bind Uuid.parse

/-- `ser_bytes`, `de_bytes` (src/util.rs:51-65, src/validation/validator.rs:851-866); public keys. -/
def Json.ofBase64 (b : Bytes) : Json := .str (b64Encode b)

def Json.base64 (j : Json) : Option Bytes := j.string.bind b64Decode

/-- `rrdp::Hash` is written in hexadecimal digits. -/
def hexBytes (b : Bytes) : Str := b.flatMap (fun x => [hexDigit (x.toNat / 16), hexDigit (x.toNat % 16)])

def hexRead : Str → Option Bytes
  | [] => some []
  | a :: b :: r => match hexVal a, hexVal b, hexRead r with
    | some a, some b, some l => some (UInt8.ofNat (a * 16 + b) :: l)
    | _, _, _ => none
  | _ => none

def Json.ofHash (h : Hash) : Json := .str (hexBytes h)

def Json.hash (j : Json) : Option Hash := j.string.bind hexRead

/-- A `PathBuf` is written as text. -/
def pathText (p : Path) : Str := p.flatMap (fun n => '/' :: n)

def Json.ofPath (p : Path) : Json := .str (pathText p)

def Json.path (j : Json) : Option Path := j.string.map comps

/-! ## The types in the state files -/

/-- `FetchMode` (src/fetch.rs:62-66). -/
def Json.ofMode (insecure : Bool) : Json := .str (if insecure then "Insecure".toList else "Strict".toList)

def Json.mode (j : Json) : Option Bool :=
  match j.string with
  | none => none
  | some s => if s = "Strict".toList then some false else if s = "Insecure".toList then some true else none

/-- `FetchSource` (src/fetch.rs:75-79). -/
def Json.ofSource : FetchSource → Json
  | .file p => .obj (members [("File", .ofPath p)])
  | .uri u m => .obj (members [("Uri", .arr (jsons [.str u, .ofMode m]))])

def Json.source : Json → Option FetchSource
  | .obj (.cons k j .nil) =>
    if k = "File".toList then j.path.map .file
    else if k = "Uri".toList then
      match j with
      | .arr (.cons a (.cons b .nil)) => match a.string, b.mode with
        | some u, some m => some (.uri u m)
        | _, _ => none
      | _ => none
    else none
  | _ => none

/-- `FetchMap` (src/fetch.rs:236-240). -/
def Json.ofFetchMap (m : FetchMap) : Json :=
  .obj (members [("base_uri", .str m.baseUri), ("base_fetch", .ofSource m.baseFetch)])

def Json.fetchMap : Json → Option FetchMap := Json.struct fun l =>
  match l.field "base_uri" Json.string, l.field "base_fetch" Json.source with
  | some a, some b => some ⟨a, b⟩
  | _, _ => none

/-- `Fetcher` (src/fetch.rs:267-272). -/
def Json.ofFetcher (f : Fetcher) : Json :=
  .obj (members [("notification_uri", .str f.notificationUri),
    ("fetch_map", .ofOption .ofFetchMap f.fetchMap), ("mode", .ofMode f.insecure)])

def Json.fetcher : Json → Option Fetcher := Json.struct fun l =>
  match l.field "notification_uri" Json.string, l.optional "fetch_map" Json.fetchMap,
    l.field "mode" Json.mode with
  | some a, some b, some c => some ⟨a, b, c⟩
  | _, _, _ => none

/-- `Tal` (src/validation/tal.rs:26-30). -/
def Json.ofTal (t : Tal) : Json :=
  .obj (members [("name", .str t.name), ("source", .ofSource t.source), ("public_key", .ofBase64 t.key)])

def Json.tal : Json → Option Tal := Json.struct fun l =>
  match l.field "name" Json.string, l.field "source" Json.source, l.field "public_key" Json.base64 with
  | some a, some b, some c => some ⟨a, b, c⟩
  | _, _, _ => none

/-- `RepositoryObject` (src/validation/validator.rs:835-838). -/
def Json.ofObject (b : Bytes) : Json := .obj (members [("bytes", .ofBase64 b)])

def Json.object : Json → Option Bytes := Json.struct fun l => l.field "bytes" Json.base64

/-- `RepositoryData` (src/validation/validator.rs:816-832); `fetched` is not written. -/
def Json.ofRepoData (d : RepoData) : Json :=
  .obj (members [("etag", .ofOption .str d.etag), ("last_fetch", .num d.lastFetch),
    ("session_id", .ofUuid d.session), ("serial", .ofNat d.serial), ("objects", .ofMap .ofObject d.objects)])

def Json.repoData : Json → Option RepoData := Json.struct fun l =>
  match l.optional "etag" Json.string, l.field "last_fetch" Json.i64,
    l.orDefault "fetched" false Json.boolean, l.field "session_id" Json.uuid, l.field "serial" Json.u64,
    l.field "objects" (Json.map Json.object) with
  | some a, some b, some c, some d, some e, some f => some ⟨a, b, c, d, e, f⟩
  | _, _, _, _, _, _ => none

/-- `VisitedRepositories` (src/validation/validator.rs:466-469). -/
def Json.ofVisited (v : Visited) : Json :=
  .obj (members [("fetchers", .ofMap .ofFetcher v.fetchers), ("data", .ofMap .ofRepoData v.data)])

def Json.visited : Json → Option Visited := Json.struct fun l =>
  match l.field "fetchers" (Json.map Json.fetcher), l.field "data" (Json.map Json.repoData) with
  | some a, some b => some ⟨a, b⟩
  | _, _ => none

/-- `Validator` (src/validation/validator.rs:26-29). -/
def Json.ofValidator (v : Validator) : Json :=
  .obj (members [("tals", .ofList .ofTal v.tals), ("repositories", .ofVisited v.repos)])

def Json.validator : Json → Option Validator := Json.struct fun l =>
  match l.field "tals" (Json.list Json.tal), l.field "repositories" Json.visited with
  | some a, some b => some ⟨a, b⟩
  | _, _ => none

/-- `NotificationSource` (src/rrdp.rs:592-596). -/
def Json.ofNotificationSource (s : NotificationSource) : Json :=
  .obj (members [("uri", .str s.uri), ("name", .str s.name), ("etag", .ofOption .str s.etag)])

def Json.notificationSource : Json → Option NotificationSource := Json.struct fun l =>
  match l.field "uri" Json.string, l.field "name" Json.string, l.optional "etag" Json.string with
  | some a, some b, some c => some ⟨a, b, c⟩
  | _, _, _ => none

/-- `SourceMappings` (src/rrdp.rs:636-645). -/
def Json.ofMappings (m : SourceMappings) : Json :=
  .obj (members [("base_uri", .str m.baseUri), ("rrdp_dir", .ofPath m.rrdpDir)])

def Json.mappings : Json → Option SourceMappings := Json.struct fun l =>
  match l.field "base_uri" Json.string, l.field "rrdp_dir" Json.path with
  | some a, some b => some ⟨a, b⟩
  | _, _ => none

/-- `SnapshotState` (src/rrdp.rs:693-700). -/
def Json.ofSnapshotState (s : SnapshotState) : Json :=
  .obj (members [("session_id", .ofUuid s.session), ("serial", .ofNat s.serial), ("hash", .ofHash s.hash),
    ("rel_path", .str s.relPath), ("since", .num s.since)])

def Json.snapshotState : Json → Option SnapshotState := Json.struct fun l =>
  match l.field "session_id" Json.uuid, l.field "serial" Json.u64, l.field "hash" Json.hash,
    l.field "rel_path" Json.string, l.field "since" Json.i64 with
  | some a, some b, some c, some d, some e => some ⟨a, b, c, d, e⟩
  | _, _, _, _, _ => none

/-- `DeltaState` (src/rrdp.rs:736-741). -/
def Json.ofDeltaState (s : DeltaState) : Json :=
  .obj (members [("since", .num s.since), ("serial", .ofNat s.serial), ("hash", .ofHash s.hash),
    ("rel_path", .str s.relPath)])

def Json.deltaState : Json → Option DeltaState := Json.struct fun l =>
  match l.field "since" Json.i64, l.field "serial" Json.u64, l.field "hash" Json.hash,
    l.field "rel_path" Json.string with
  | some a, some b, some c, some d => some ⟨a, b, c, d⟩
  | _, _, _, _ => none

/-- `DeprecatedFile` (src/rrdp.rs:788-791). -/
def Json.ofDeprecated (d : DeprecatedFile) : Json :=
  .obj (members [("since", .num d.since), ("path", .ofPath d.path)])

def Json.deprecated : Json → Option DeprecatedFile := Json.struct fun l =>
  match l.field "since" Json.i64, l.field "path" Json.path with
  | some a, some b => some ⟨a, b⟩
  | _, _ => none

/-- `RrdpState` (src/rrdp.rs:25-44); there is no member `validator` if there is none. -/
def Json.ofState (s : RrdpState) : Json :=
  .obj (members ([("notification_source", .ofNotificationSource s.source),
    ("mappings", .ofMappings s.mappings), ("snapshot", .ofOption .ofSnapshotState s.snapshot),
    ("deltas", .ofList .ofDeltaState s.deltas), ("deprecated_files", .ofList .ofDeprecated s.deprecated)] ++
    s.validator.toList.map (fun v => ("validator", .ofValidator v))))

def Json.state : Json → Option RrdpState := Json.struct fun l =>
  match l.field "notification_source" Json.notificationSource, l.field "mappings" Json.mappings,
    l.optional "snapshot" Json.snapshotState, l.field "deltas" (Json.list Json.deltaState),
    l.field "deprecated_files" (Json.list Json.deprecated), l.optional "validator" Json.validator with
  | some a, some b, some c, some d, some e, some f => some ⟨a, b, c, d, e, f⟩
  | _, _, _, _, _, _ => none

/-- `RsyncRevision` (src/rsync.rs:232-236). -/
def Json.ofRevision (r : RsyncRevision) : Json :=
  .obj (members [("session_id", .ofUuid r.session), ("serial", .ofNat r.serial)])

def Json.revision : Json → Option RsyncRevision := Json.struct fun l =>
  match l.field "session_id" Json.uuid, l.field "serial" Json.u64 with
  | some a, some b => some ⟨a, b⟩
  | _, _ => none

/-- `DeprecatedRsyncRevision` (src/rsync.rs:256-259). -/
def Json.ofDeprecatedRevision (d : DeprecatedRevision) : Json :=
  .obj (members [("since", .num d.since), ("revision", .ofRevision d.revision)])

def Json.deprecatedRevision : Json → Option DeprecatedRevision := Json.struct fun l =>
  match l.field "since" Json.i64, l.field "revision" Json.revision with
  | some a, some b => some ⟨a, b⟩
  | _, _ => none

/-- `RsyncDirState` (src/rsync.rs:150-153). -/
def Json.ofRsyncState (s : RsyncDirState) : Json :=
  .obj (members [("current", .ofOption .ofRevision s.current), ("old", .ofList .ofDeprecatedRevision s.old)])

def Json.rsyncState : Json → Option RsyncDirState := Json.struct fun l =>
  match l.optional "current" Json.revision, l.field "old" (Json.list Json.deprecatedRevision) with
  | some a, some b => some ⟨a, b⟩
  | _, _ => none

/-- The file written by `RrdpState::persist` (src/rrdp.rs:406-411). -/
def stateText (s : RrdpState) : Bytes := (Json.ofState s).bytes

/-- What `RrdpState::recover` reads (src/rrdp.rs:68-78). -/
def readState (b : Bytes) : Option RrdpState := (Json.ofBytes b).bind Json.state

/-- The file written by `RsyncDirState::persist` (src/rsync.rs:179-183). -/
def rsyncText (s : RsyncDirState) : Bytes := (Json.ofRsyncState s).bytes

/-- What `RsyncDirState::recover` reads (src/rsync.rs:161-169). -/
def readRsync (b : Bytes) : Option RsyncDirState := (Json.ofBytes b).bind Json.rsyncState

end KSync
