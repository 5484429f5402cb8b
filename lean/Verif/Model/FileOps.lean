import Verif.Model.World

/-! # src/file_ops.rs -/

namespace KSync

/-- `create_path_for_file` (src/file_ops.rs:27-39). -/
def createPathForFile (p : Path) : M Unit :=
  if p = [] then M.throw .io else createDirAll p.dropLast

/-- `create_file` (src/file_ops.rs:20-24). -/
def createFile (p : Path) : M Unit := do
  createPathForFile p
  fileCreate p

/-- `write_buf` (src/file_ops.rs:11-17). -/
def writeBuf (p : Path) (b : Bytes) : M Unit := do
  createFile p
  writeAll p b

/-- `move_file` (src/file_ops.rs:44-76): rename, or copy and delete if that fails. -/
def moveFile (sourceBase targetBase : Path) (relative : Str) : M Unit := do
  let original := joinPath sourceBase relative
  let target := joinPath targetBase relative
  createPathForFile target
  let fs ← getFs
  if fs.exists? original = false then M.throw .missing
  else do
    let r ← M.attempt (rename original target)
    match r with
    | .ok _ => pure ()
    | .error _ => do
      copyFile original target
      removeFile original

/-- `remove_file_and_empty_parent_dirs` (src/file_ops.rs:78-95), by recursion on the
number of components.  Failures in the parents are ignored. -/
def removeUp : Nat → Path → M Unit
  | 0, p => do
    let fs ← getFs
    if fs.isFile p then removeFile p
    else if fs.isDir p then removeDir p
    else pure ()
  | n + 1, p => do
    let fs ← getFs
    (if fs.isFile p then removeFile p
     else if fs.isDir p then removeDir p
     else pure ())
    let _ ← M.attempt (removeUp n p.dropLast)
    pure ()

/-- src/file_ops.rs:78-95. -/
def removeFileAndEmptyParents (p : Path) : M Unit := removeUp p.length p

end KSync
