import Verif.Lemmas.OutputPath
import Verif.Lemmas.FilesExample

/-!
# C63: the output path

The full claim: for every path and every state of the file system the check of the command line's output path ends with an answer, an accepted
path leads to a regular file into which the report is written, a refused path does not, and nothing but this file is created or changed.

It is false for symbolic links with a relative target in another directory, and for symbolic links that lead in a circle. What is missing
in `C63_partial`: those, links to special files (through chains with relative targets), and paths with more symbolic links than the system
follows.
-/

namespace DRAMPower

open Spec

/-- The answer is honest for each path the system can follow, if it is not a symbolic link, or a link in the current directory, or a link with
an absolute target, and does not lead to a special file. -/
theorem C63_partial (fs : Files) (ht : Tree fs) (p : FPath) (hs : fs.stat p ≠ .loop)
    (hl : ∀ q t, fs.lstat p = .found q (.link t) → (t.absolute = true ∨ q.dropLast = fs.cwd) ∧ ∀ r, fs.stat p ≠ .found r .other) :
    ∃ message fs', fs.ensureFileExists p = .ok (message, fs') ∧ Honest fs p (message = "") fs' := by
  by_cases hlink : ∃ q t, fs.lstat p = .found q (.link t)
  · obtain ⟨q, t, h⟩ := hlink
    obtain ⟨hd, ho⟩ := hl q t h
    have hst := Files.stat_link ht h hs hd
    have hsym : fs.isSymlink p = .ok true := by simp only [Files.isSymlink, h]
    have hread : fs.readSymlink p = .ok t := by simp only [Files.readSymlink, h]
    have hrun : fs.ensureFileExists p = (do
        match ← fs.resolveLoop 10 p with
        | none => return ("Could not resolve the symlink", fs)
        | some (.file _) => return ("", fs)
        | some (.directory _) => return ("Path is a directory", fs)
        | some (.notFound r) => fs.createFileInParentDirectory r) := by
      simp only [Files.ensureFileExists, Files.resolveSymlink, hsym]; rfl
    rw [hrun]
    rw [hst] at hs ho
    cases hx : fs.stat t with
    | loop => exact absurd hx hs
    | none =>
      have hr : fs.resolveLoop 10 p = .ok (some (.notFound t)) := by simp only [Files.resolveLoop, hread, Files.exists', bind, Except.bind, hx]; rfl
      obtain ⟨m, fs', hc, hcr⟩ := Files.create ht (p := t) (by simp [hx]) hs
      exact ⟨m, fs', by rw [hr]; exact hc, Files.honest_created hst hcr⟩
    | missing d n =>
      have hr : fs.resolveLoop 10 p = .ok (some (.notFound t)) := by simp only [Files.resolveLoop, hread, Files.exists', bind, Except.bind, hx]; rfl
      obtain ⟨m, fs', hc, hcr⟩ := Files.create ht (p := t) (by simp [hx]) hs
      exact ⟨m, fs', by rw [hr]; exact hc, Files.honest_created hst hcr⟩
    | found r x =>
      cases x with
      | file c =>
        have hr : fs.resolveLoop 10 p = .ok (some (.file t)) := by
          simp only [Files.resolveLoop, hread, Files.exists', Files.isRegularFile, bind, Except.bind, hx]; rfl
        exact ⟨"", fs, by rw [hr]; rfl, by simpa using Files.honest_file (hst.trans hx)⟩
      | dir =>
        have hr : fs.resolveLoop 10 p = .ok (some (.directory t)) := by
          simp only [Files.resolveLoop, hread, Files.exists', Files.isRegularFile, Files.isDirectory, bind, Except.bind, hx]; rfl
        exact ⟨"Path is a directory", fs, by rw [hr]; rfl, by simpa using Files.honest_refused (hst.trans hx) (by simp) (by simp)⟩
      | other => exact absurd hx (ho r)
      | link u => exact absurd hx (Files.stat_not_link r u)
  · have hl' : ∀ q t, fs.lstat p ≠ .found q (.link t) := fun q t h => hlink ⟨q, t, h⟩
    have hst := Files.stat_plain hl'
    have hsym : fs.isSymlink p = .ok false := by
      unfold Files.isSymlink
      split
      · rename_i h; exact absurd (hst.trans h) hs
      · rename_i h; exact absurd h (hl' _ _)
      · rfl
    have hrun : fs.ensureFileExists p = (do
        if ← fs.isRegularFile p then return ("", fs)
        else if ← fs.exists' p then return ("Path is not a file", fs)
        else fs.createFileInParentDirectory p) := by
      simp only [Files.ensureFileExists, hsym]; rfl
    rw [hrun]
    cases hx : fs.stat p with
    | loop => exact absurd hx hs
    | none =>
      obtain ⟨m, fs', hc, hcr⟩ := Files.create ht (p := p) (by simp [hx]) hs
      exact ⟨m, fs', by simp only [Files.isRegularFile, Files.exists', hx]; exact hc, Files.honest_created rfl hcr⟩
    | missing d n =>
      obtain ⟨m, fs', hc, hcr⟩ := Files.create ht (p := p) (by simp [hx]) hs
      exact ⟨m, fs', by simp only [Files.isRegularFile, Files.exists', hx]; exact hc, Files.honest_created rfl hcr⟩
    | found r x =>
      cases x with
      | file c => exact ⟨"", fs, by simp only [Files.isRegularFile, hx]; rfl, by simpa using Files.honest_file hx⟩
      | dir =>
        exact ⟨"Path is not a file", fs, by simp only [Files.isRegularFile, Files.exists', hx]; rfl,
          by simpa using Files.honest_refused hx (by simp) (by simp)⟩
      | other =>
        exact ⟨"Path is not a file", fs, by simp only [Files.isRegularFile, Files.exists', hx]; rfl,
          by simpa using Files.honest_refused hx (by simp) fun _ => Files.stat_found (by simp) hx⟩
      | link u => exact absurd hx (Files.stat_not_link r u)

/-- A symbolic link in the current directory to a file that does not exist yet: the hypotheses hold, and the file is created. -/
example :
    let fs := Files.ofList [([], .dir), (["work"], .dir), (["out"], .dir), (["work", "link"], .link ⟨false, [.up, .name "out", .name "new.json"]⟩)] ["work"]
    let p : FPath := ⟨false, [.name "link"]⟩
    Tree fs ∧ fs.stat p ≠ .loop ∧
      (∀ q t, fs.lstat p = .found q (.link t) → (t.absolute = true ∨ q.dropLast = fs.cwd) ∧ ∀ r, fs.stat p ≠ .found r .other) ∧
      (fs.ensureFileExists p).toOption.map (fun r => (r.1, r.2.node ["out", "new.json"])) = some ("", some (.file "")) := by
  refine ⟨Files.tree_ofList (by decide +kernel), by decide +kernel, ?_, by decide +kernel⟩
  intro q t h
  have h1 : Look.found ["work", "link"] (.link ⟨false, [.up, .name "out", .name "new.json"]⟩) = .found q (.link t) := by
    rw [← h]; decide +kernel
  injection h1 with h1 h2
  subst h1
  refine ⟨.inr rfl, fun r hr => ?_⟩
  have h3 : Look.missing ["out"] "new.json" = .found r .other := by rw [← hr]; decide +kernel
  cases h3

/-- A plain path to an existing file is accepted, one to a directory is refused. -/
example :
    let fs := Files.ofList [([], .dir), (["work"], .dir), (["work", "out.json"], .file "old")] ["work"]
    (fs.ensureFileExists ⟨false, [.name "out.json"]⟩).toOption.map (fun r => (r.1, r.2.node ["work", "out.json"])) = some ("", some (.file "old")) ∧
      (fs.ensureFileExists ⟨true, [.name "work"]⟩).toOption.map (·.1) = some "Path is not a file" := by
  decide +kernel

namespace C63

/-- `/out/link` leads to `real.json`, in `/out`; the tool is started in `/work`. -/
def stray : Files :=
  .ofList [([], .dir), (["work"], .dir), (["out"], .dir), (["out", "link"], .link ⟨false, [.name "real.json"]⟩), (["out", "real.json"], .file "old")]
    ["work"]

/-- `/out/link` leads to `sub/real.json`, in `/out`. -/
def refused : Files :=
  .ofList [([], .dir), (["work"], .dir), (["out"], .dir), (["out", "link"], .link ⟨false, [.name "sub", .name "real.json"]⟩),
    (["out", "sub"], .dir), (["out", "sub", "real.json"], .file "old")] ["work"]

/-- The same, but the directory `sub` is in `/work`. -/
def lost : Files :=
  .ofList [([], .dir), (["work"], .dir), (["out"], .dir), (["out", "link"], .link ⟨false, [.name "sub", .name "real.json"]⟩),
    (["work", "sub"], .dir)] ["work"]

/-- `/out/link` leads to itself. -/
def circle : Files :=
  .ofList [([], .dir), (["work"], .dir), (["out"], .dir), (["out", "link"], .link ⟨true, [.name "out", .name "link"]⟩)] ["work"]

/-- `/out/link`. -/
def path : FPath := ⟨true, [.name "out", .name "link"]⟩

end C63

/-- The full claim is false. A link to an existing file in its own directory is accepted, but a file of the same name appears in the current
directory; such a link is refused though it leads to a file; one that leads to nothing is accepted, and the report cannot be written; and a
link in a circle ends the program with an exception. -/
theorem C63_violation :
    (Tree C63.stray ∧ (∃ fs', C63.stray.ensureFileExists C63.path = .ok ("", fs') ∧ C63.stray.node ["work", "real.json"] = none ∧
        fs'.node ["work", "real.json"] = some (.file "") ∧ Writes fs' C63.path ["out", "real.json"])) ∧
      (Tree C63.refused ∧ C63.refused.ensureFileExists C63.path = .ok ("Parent directory does not exist", C63.refused) ∧
        Writes C63.refused C63.path ["out", "sub", "real.json"]) ∧
      (Tree C63.lost ∧ (∃ fs', C63.lost.ensureFileExists C63.path = .ok ("", fs') ∧ fs'.openWrite C63.path = none)) ∧
      (Tree C63.circle ∧ C63.circle.ensureFileExists C63.path = .error (.exception "filesystem_error")) ∧
      ¬ ∀ (fs : Files) (p : FPath), Tree fs → ∃ message fs', fs.ensureFileExists p = .ok (message, fs') ∧ Honest fs p (message = "") fs' := by
  have hc : C63.circle.ensureFileExists C63.path = .error (.exception "filesystem_error") := by rfl
  have ht : Tree C63.circle := Files.tree_ofList (by decide +kernel)
  refine ⟨⟨Files.tree_ofList (by decide +kernel), _, rfl, by decide +kernel, by decide +kernel, ⟨_, rfl, "", by decide +kernel⟩⟩,
    ⟨Files.tree_ofList (by decide +kernel), rfl, ⟨_, rfl, "", by decide +kernel⟩⟩,
    ⟨Files.tree_ofList (by decide +kernel), _, rfl, ?_⟩, ⟨ht, hc⟩, ?_⟩
  · rfl
  · intro h
    obtain ⟨m, fs', hr, -⟩ := h _ C63.path ht
    rw [hc] at hr
    cases hr

end DRAMPower
