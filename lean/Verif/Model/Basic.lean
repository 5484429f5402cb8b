/-!
# Basic data: strings, bytes, URIs and paths

Sources modelled here: string and path helpers used by `/repo/src/rrdp.rs`,
`/repo/src/fetch.rs`, `/repo/src/file_ops.rs` (Rust `str`, `std::path` and the
`rpki::uri::Https` type).
-/

namespace KSync

/-- A Rust string, as its list of characters. -/
abbrev Str := List Char

/-- File and message contents (`bytes::Bytes`, `Vec<u8>`). -/
abbrev Bytes := List UInt8

/-- `rpki::rrdp::Hash` (a SHA-256 digest).  The digest function itself is a
parameter of the model (`Ext.sha`). -/
abbrev Hash := List UInt8

/-- `uuid::Uuid`: 128 bits. -/
abbrev Uuid := BitVec 128

/-- `crate::util::Time` (src/util.rs:12-13): seconds since the epoch. -/
abbrev Time := Int

/-! ## Sorting -/

/-- Insert before the first element whose key is not smaller. -/
def insertBy (k : α → Nat) (a : α) : List α → List α
  | [] => [a]
  | b :: l => if k a ≤ k b then a :: b :: l else b :: insertBy k a l

/-- Rust's stable `sort_by_key`: increasing by key, equal keys keep their order. -/
def sortBy (k : α → Nat) : List α → List α
  | [] => []
  | a :: l => insertBy k a (sortBy k l)

/-! ## Strings -/

/-- `str::strip_prefix`, used at src/rrdp.rs:604-607, 662-663 and src/fetch.rs:254. -/
def stripPrefix : Str → Str → Option Str
  | [], s => some s
  | _ :: _, [] => none
  | a :: p, b :: s => if a = b then stripPrefix p s else none

/-- Everything up to and including the last `/` (empty if there is none). -/
def upToLastSlash (s : Str) : Str :=
  (s.reverse.dropWhile (fun c => c ≠ '/')).reverse

/-- Length of `"https://"`. -/
def schemeLen : Nat := 8

/-- The path part of an https URI, i.e. what follows the authority
(`rpki::uri::Https::path`, external crate). -/
def httpsPath (u : Str) : Str := (u.drop schemeLen).dropWhile (fun c => c ≠ '/')

/-- `rpki::uri::Https::parent` (external crate, used at src/config.rs:259,
src/rrdp.rs:308, 600, 650): the URI up to and including the last slash, ignoring one
trailing slash; none when the path is empty or just `/`.  The crate source is not
part of /repo; that the result keeps its trailing slash is confirmed by the tests at
src/process.rs:389-411 (the notification name derived at src/rrdp.rs:604-608 has no
leading slash). -/
def httpsParent (u : Str) : Option Str :=
  if httpsPath u = [] ∨ httpsPath u = ['/'] then none
  else some (upToLastSlash u.dropLast)

/-- `rpki::uri::Https::join` (external crate, used at src/fetch.rs:192 and
src/rrdp.rs:670): append, inserting a slash if the base has none.  Simplification:
the character check of the crate is not modelled (the argument is always part of an
already parsed URI). -/
def httpsJoin (base rel : Str) : Str :=
  if base.getLast? = some '/' ∨ rel = [] then base ++ rel else base ++ '/' :: rel

/-! ## Paths -/

/-- One path component. -/
abbrev Name := Str

/-- A file-system path: the list of its components from the root.  Simplification:
configured directories are given as absolute paths. -/
abbrev Path := List Name

/-- Split a string at every `/`. -/
def splitSlash : Str → List Str
  | [] => [[]]
  | c :: s =>
    if c = '/' then [] :: splitSlash s
    else match splitSlash s with
      | [] => [[c]]
      | w :: ws => (c :: w) :: ws

/-- The components of a path string: `std::path::Path::components` drops empty
components and `.`. -/
def comps (s : Str) : List Name :=
  (splitSlash s).filter (fun c => c ≠ [] ∧ c ≠ ['.'])

/-- Push one component; `..` pops.  Simplification: the operating system resolves
`..` when the path is used, here it is resolved lexically at once (the two differ
only when a component is a symbolic link to a directory). -/
def pushComp (p : Path) (c : Name) : Path :=
  if c = ['.', '.'] then p.dropLast else p ++ [c]

/-- `PathBuf::join` with a string: an absolute argument *replaces* the base
(`std::path::Path::join`), as used at src/config.rs:192, src/rrdp.rs:677,
src/file_ops.rs:45-46, src/fetch.rs:190, src/rsync.rs:306, 313. -/
def joinPath (base : Path) (rel : Str) : Path :=
  (comps rel).foldl pushComp (if rel.head? = some '/' then [] else base)

/-- Does the text of a path end in a name?  Otherwise (it ends in `/`, `/.` or `/..`, or is empty) the
operating system takes it for the path of a directory, and refuses to read or create a file there. -/
def endsInName (s : Str) : Bool :=
  match (splitSlash s).getLast? with
  | some n => decide (n ≠ [] ∧ n ≠ ['.'] ∧ n ≠ ['.', '.'])
  | none => false

/-- `file_ops::path_with_extension` (src/file_ops.rs:105-109), i.e.
`PathBuf::set_extension`: replace what follows the last `.` of the file name, if that
dot is not its first character, and append `.ext` otherwise. -/
def setExtension (n : Name) (ext : Str) : Name :=
  match (n.reverse.dropWhile (fun c => c ≠ '.')).reverse with
  | [] => n ++ '.' :: ext
  | [_] => n ++ '.' :: ext
  | stem => stem ++ ext

/-- src/file_ops.rs:105-109 on a whole path. -/
def pathWithExtension (p : Path) (ext : Str) : Path :=
  match p.getLast? with
  | none => p
  | some n => p.dropLast ++ [setExtension n ext]

/-- `p` is `d` itself or lies below it. -/
def under (d p : Path) : Prop := d <+: p

instance (d p : Path) : Decidable (under d p) := inferInstanceAs (Decidable (d <+: p))

end KSync
