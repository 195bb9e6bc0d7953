import Verif.Model.Files

/-! # What a check of an output path promises -/

namespace DRAMPower.Spec

/-- A regular file can be written through the path, and this is its place. -/
def Writes (fs : Files) (p : FPath) (q : Place) : Prop := ∃ fs', fs.openWrite p = some (q, fs') ∧ ∃ c, fs'.node q = some (.file c)

/-- The check is honest: an accepted path leads to a regular file, which is new and empty if there was none (and then its directory
allows new files), a refused path does not; nothing else is changed. -/
def Honest (fs : Files) (p : FPath) (accepted : Bool) (fs' : Files) : Prop :=
  if accepted then
    ∃ q c, Writes fs' p q ∧ fs'.node q = some (.file c) ∧
      (fs' = fs ∨ fs.node q = none ∧ fs.writable q.dropLast = true ∧ c = "" ∧ fs'.writable = fs.writable ∧ fs'.cwd = fs.cwd ∧ ∀ r, r ≠ q → fs'.node r = fs.node r)
  else fs' = fs ∧ ∀ q, ¬ Writes fs p q

/-- The file system is a tree, the current directory is a directory in it, and no symbolic link is empty. -/
structure Tree (fs : Files) : Prop where
  root : fs.node [] = some .dir
  parent : ∀ d n x, fs.node (d ++ [n]) = some x → fs.node d = some .dir
  cwd : fs.node fs.cwd = some .dir
  link : ∀ q t, fs.node q = some (.link t) → t.absolute = false → t.comps ≠ []

end DRAMPower.Spec
