import Verif.Model.Basic

/-!
# A file system

What `std::fs` calls observe and change.  Not a file of /repo: this is the model of
the operating system facility that /repo/src/file_ops.rs, rrdp.rs and rsync.rs call.
Simplifications: no permissions, no hard links; symbolic links are followed one level
and only as the last component (the only link krill-sync makes is `current`,
src/rsync.rs:86), so configured directories must be given without symbolic links.
-/

namespace KSync

/-- A directory entry. -/
inductive Node where
  | file (content : Bytes) (mtime : Time)
  | dir
  | link (target : Name)
deriving DecidableEq, Repr

/-- A file system: finite map from paths to nodes. -/
structure FS where
  ents : List (Path × Node)
deriving DecidableEq, Repr

namespace FS

/-- What is at `p` (not following links).  The root is always a directory. -/
def get (fs : FS) (p : Path) : Option Node :=
  if p = [] then some .dir else fs.ents.lookup p

/-- Replace what is at `p`. -/
def set (fs : FS) (p : Path) (n : Node) : FS :=
  ⟨(p, n) :: fs.ents.filter (fun e => e.1 ≠ p)⟩

/-- Remove the single entry at `p`. -/
def del (fs : FS) (p : Path) : FS :=
  ⟨fs.ents.filter (fun e => e.1 ≠ p)⟩

/-- Follow a link in the last component (one level). -/
def resolve (fs : FS) (p : Path) : Option Node :=
  match fs.get p with
  | some (.link t) => fs.get (p.dropLast ++ [t])
  | n => n

/-- Content of the regular file at `p`, not following links. -/
def file? (fs : FS) (p : Path) : Option Bytes :=
  match fs.get p with
  | some (.file b _) => some b
  | _ => none

/-- Target of the symbolic link at `p`. -/
def link? (fs : FS) (p : Path) : Option Name :=
  match fs.get p with
  | some (.link t) => some t
  | _ => none

/-- Something exists strictly below `p`. -/
def hasChild (fs : FS) (p : Path) : Bool :=
  fs.ents.any (fun e => decide (p <+: e.1) && decide (e.1 ≠ p))

/-- `p` is a directory or a link to one (`Path::is_dir`). -/
def isDir (fs : FS) (p : Path) : Bool := fs.resolve p = some .dir

/-- `Path::is_file`. -/
def isFile (fs : FS) (p : Path) : Bool :=
  match fs.resolve p with
  | some (.file _ _) => true
  | _ => false

/-- `Path::exists` (follows links: false for a dangling link). -/
def exists? (fs : FS) (p : Path) : Bool := (fs.resolve p).isSome

/-- The paths at or below `p`. -/
def tree (fs : FS) (p : Path) : List Path :=
  (fs.ents.map (·.1)).filter (fun q => decide (p <+: q))

/-- Move everything at or below `src` to `dst` (which is removed first). -/
def moveTree (fs : FS) (src dst : Path) : FS :=
  ⟨(fs.ents.filter (fun e => decide (src <+: e.1))).map
      (fun e => (dst ++ e.1.drop src.length, e.2)) ++
   fs.ents.filter (fun e => ¬ src <+: e.1 ∧ ¬ dst <+: e.1)⟩

end FS
end KSync
