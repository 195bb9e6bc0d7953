import Verif.Model.Core

/-!
# The file system

What the operating system and `std::filesystem` do with a path, as far as `src/cli/main/validators.cpp` depends on it. This is not code of
the repository; it follows the path resolution of Linux and the library.

Simplifications: a path has no `.` and no trailing separator; the only permission is whether a file can be created in a directory, files that
exist can be opened; nobody else changes the file system.
-/

namespace DRAMPower

/-- A component of a path. -/
inductive Comp
  | up
  | name (n : String)
deriving DecidableEq, Repr

/-- A path: absolute or relative to the current directory. -/
structure FPath where
  absolute : Bool
  comps : List Comp
deriving DecidableEq, Repr

/-- `std::filesystem::path::parent_path`: without the last component. -/
def FPath.parent (p : FPath) : FPath := { p with comps := p.comps.dropLast }

/-- What is at a place: a directory, a regular file, a symbolic link, or something else (a device, a pipe, ...). -/
inductive Node
  | dir
  | file (content : String)
  | link (target : FPath)
  | other
deriving DecidableEq, Repr

/-- A place: the names from the root. -/
abbrev Place := List String

/-- The file system the program runs on: the node at each place and the current directory. -/
structure Files where
  node : Place → Option Node
  /-- Whether files can be created in a directory. -/
  writable : Place → Bool
  cwd : Place

/-- The result of following a path: something at a place, nothing but in an existing directory, nothing, or too many symbolic links. -/
inductive Look
  | found (at' : Place) (x : Node)
  | missing (dir : Place) (name : String)
  | none
  | loop
deriving DecidableEq, Repr

namespace Files

variable (fs : Files)

/-- Where a path starts, seen from a directory. -/
def start (dir : Place) (p : FPath) : Place := if p.absolute then [] else dir

/-- Following the components from a directory; `k` follows a symbolic link. The last component is followed only if `follow`. -/
def go (follow : Bool) (k : Place → List Comp → Look) (dir : Place) : List Comp → Look
  | [] => .found dir .dir
  | .up :: rest => go follow k dir.dropLast rest
  | .name n :: rest => match fs.node (dir ++ [n]) with
    | none => if rest = [] then .missing dir n else .none
    | some .dir => go follow k (dir ++ [n]) rest
    | some (.link t) => if rest = [] ∧ follow = false then .found (dir ++ [n]) (.link t) else k (start dir t) (t.comps ++ rest)
    | some x => if rest = [] then .found (dir ++ [n]) x else .none

/-- The same with at most `fuel` symbolic links. -/
def walk (follow : Bool) : Nat → Place → List Comp → Look
  | 0 => fs.go follow fun _ _ => .loop
  | fuel + 1 => fs.go follow (walk follow fuel)

/-- `stat` (or `lstat`) of a path; Linux follows at most 40 symbolic links. -/
def look (follow : Bool) (p : FPath) : Look :=
  if p.absolute = false ∧ p.comps = [] then .none else fs.walk follow 40 (start fs.cwd p) p.comps

/-- `stat`, which follows a link at the end of the path. -/
def stat (p : FPath) : Look := fs.look true p
/-- `lstat`, which does not. -/
def lstat (p : FPath) : Look := fs.look false p

/-- Another content of a place. -/
def set (q : Place) (x : Node) : Files := { fs with node := fun r => if r = q then some x else fs.node r }

/-- `std::ofstream{p}`: opens and empties a file, or creates it. The result is the place and the new file system. -/
def openWrite (p : FPath) : Option (Place × Files) :=
  match fs.stat p with
  | .found q (.file _) => some (q, fs.set q (.file ""))
  | .found q .other => some (q, fs)
  | .missing d n => if fs.writable d then some (d ++ [n], fs.set (d ++ [n]) (.file "")) else none
  | _ => none

/-- `std::filesystem::exists`: throws if the path cannot be followed. -/
def exists' (p : FPath) : Except Err Bool :=
  match fs.stat p with
  | .loop => .error (.exception "filesystem_error")
  | .found _ _ => .ok true
  | _ => .ok false

/-- `std::filesystem::is_regular_file`. -/
def isRegularFile (p : FPath) : Except Err Bool :=
  match fs.stat p with
  | .loop => .error (.exception "filesystem_error")
  | .found _ (.file _) => .ok true
  | _ => .ok false

/-- `std::filesystem::is_directory`. -/
def isDirectory (p : FPath) : Except Err Bool :=
  match fs.stat p with
  | .loop => .error (.exception "filesystem_error")
  | .found _ .dir => .ok true
  | _ => .ok false

/-- `std::filesystem::is_symlink`. -/
def isSymlink (p : FPath) : Except Err Bool :=
  match fs.lstat p with
  | .loop => .error (.exception "filesystem_error")
  | .found _ (.link _) => .ok true
  | _ => .ok false

/-- `std::filesystem::read_symlink`: the target as it is stored. -/
def readSymlink (p : FPath) : Except Err FPath :=
  match fs.lstat p with
  | .found _ (.link t) => .ok t
  | _ => .error (.exception "filesystem_error")

/-- `std::filesystem::current_path`. -/
def currentPath : FPath := { absolute := true, comps := fs.cwd.map .name }

end Files
end DRAMPower
