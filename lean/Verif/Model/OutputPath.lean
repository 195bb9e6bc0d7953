import Verif.Model.Files

/-!
# The validator of the output path

`src/cli/main/validators.cpp`. The option is registered with `check` (main.cpp 40-42), which makes CLI11 call the validator with a copy of the
path: what it assigns to the path is lost, and the tool opens the path as it was given.
-/

namespace DRAMPower

/-- `ResolveSymlinkResult` (validators.cpp 10-18). -/
inductive Resolved
  | file (p : FPath)
  | directory (p : FPath)
  | notFound (p : FPath)
deriving DecidableEq, Repr

namespace Files

variable (fs : Files)

/-- The loop of `resolve_symlink` (validators.cpp 28-63). -/
def resolveLoop : Nat → FPath → Except Err (Option Resolved)
  | 0, _ => .ok none
  | n + 1, p => do
    let r ← fs.readSymlink p
    if !(← fs.exists' r) then return some (.notFound r)
    if ← fs.isRegularFile r then return some (.file r)
    if ← fs.isDirectory r then return some (.directory r)
    if ← fs.isSymlink r then resolveLoop n r else return none

/-- `resolve_symlink` (validators.cpp 20-64). -/
def resolveSymlink (p : FPath) (maxIter : Nat) : Except Err (Option Resolved) := do
  if !(← fs.isSymlink p) then return none
  fs.resolveLoop maxIter p

/-- `std::ofstream file{filepath}` and the checks after it (validators.cpp 84-104). -/
def createFile (p : FPath) : String × Files :=
  match fs.openWrite p with
  | some (_, fs') => ("", fs')
  | none => ("Could not create the file", fs)

/-- `createFileInParentDirectory` (validators.cpp 66-105). -/
def createFileInParentDirectory (p : FPath) : Except Err (String × Files) := do
  let path := if p.parent.absolute = false ∧ p.parent.comps = [] then fs.currentPath else p.parent
  if !(← fs.exists' path) then return ("Parent directory does not exist", fs)
  if !(← fs.isDirectory path) then return ("Invlid path", fs)
  return fs.createFile p

/-- `EnsureFileExists_t` (validators.cpp 107-142, MAX_SYMLINK_RESOLVE_ITERATIONS: validators.h 10): the message, empty if the path is accepted,
and the file system afterwards. -/
def ensureFileExists (p : FPath) : Except Err (String × Files) := do
  if ← fs.isSymlink p then
    match ← fs.resolveSymlink p 10 with
    | none => return ("Could not resolve the symlink", fs)
    | some (.file _) => return ("", fs)
    | some (.directory _) => return ("Path is a directory", fs)
    | some (.notFound r) => fs.createFileInParentDirectory r
  else if ← fs.isRegularFile p then return ("", fs)
  else if ← fs.exists' p then return ("Path is not a file", fs)
  else fs.createFileInParentDirectory p

end Files
end DRAMPower
