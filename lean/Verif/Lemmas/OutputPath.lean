import Verif.Lemmas.Files

/-! # The validator of the output path -/

namespace DRAMPower.Files

open Spec

variable {fs : Files}

theorem exists_of {p : FPath} (h : fs.stat p ≠ .loop) : fs.exists' p = .ok (match fs.stat p with | .found _ _ => true | _ => false) := by
  unfold exists'; split <;> simp_all

theorem isRegularFile_of {p : FPath} (h : fs.stat p ≠ .loop) :
    fs.isRegularFile p = .ok (match fs.stat p with | .found _ (.file _) => true | _ => false) := by
  unfold isRegularFile; split <;> simp_all

theorem isDirectory_of {p : FPath} (h : fs.stat p ≠ .loop) :
    fs.isDirectory p = .ok (match fs.stat p with | .found _ .dir => true | _ => false) := by
  unfold isDirectory; split <;> simp_all

/-- What `createFileInParentDirectory` does with a path that leads to nothing. -/
def Created (fs : Files) (p : FPath) (m : String) (fs' : Files) : Prop :=
  (m = "" ∧ ∃ d n, fs.stat p = .missing d n ∧ fs.writable d = true ∧ fs' = fs.set (d ++ [n]) (.file "")) ∨ (m ≠ "" ∧ fs' = fs ∧ fs.openWrite p = none)

theorem createFile_created {p : FPath} (hf : ∀ q x, fs.stat p ≠ .found q x) :
    Created fs p (fs.createFile p).1 (fs.createFile p).2 := by
  unfold createFile
  cases ho : fs.openWrite p with
  | none => exact .inr ⟨by simp, rfl, ho⟩
  | some r =>
    left
    unfold openWrite at ho
    split at ho
    · rename_i h; exact absurd h (hf _ _)
    · rename_i h; exact absurd h (hf _ _)
    · rename_i d n h
      split at ho
      · rename_i hw; injection ho with ho; subst ho; exact ⟨rfl, d, n, h, hw, rfl⟩
      · cases ho
    · cases ho

theorem create (ht : Tree fs) {p : FPath} (hf : ∀ q x, fs.stat p ≠ .found q x) (hl : fs.stat p ≠ .loop) :
    ∃ m fs', fs.createFileInParentDirectory p = .ok (m, fs') ∧ Created fs p m fs' := by
  unfold createFileInParentDirectory
  by_cases hp : p.parent.absolute = false ∧ p.parent.comps = []
  · rw [if_pos hp]
    have hs := stat_currentPath ht
    simp only [exists', isDirectory, hs]
    exact ⟨_, _, rfl, createFile_created hf⟩
  · rw [if_neg hp]
    have hc : p.comps ≠ [] := by
      intro hc
      by_cases ha : p.absolute = true
      · exact hf [] .dir (by simp [stat, look, hc, ha, walk, go, start])
      · exact hp ⟨by simpa [FPath.parent] using ha, by simp [FPath.parent, hc]⟩
    have hsplit := List.dropLast_concat_getLast hc
    have hpar : fs.stat p.parent = fs.walk true 40 (start fs.cwd p) p.comps.dropLast := by
      unfold stat look; rw [if_neg hp]; rfl
    have hst : fs.stat p = fs.walk true 40 (start fs.cwd p) (p.comps.dropLast ++ [p.comps.getLast hc]) := by
      unfold stat look; rw [if_neg (fun h => hc h.2), hsplit]
    have ho := onward_walk (fs := fs) (p.comps.getLast hc) 40 (start fs.cwd p) p.comps.dropLast
    rw [← hpar, ← hst] at ho
    have hno : ∀ m : String, m ≠ "" → fs.stat p = .none → Created fs p m fs := fun m hm h => .inr ⟨hm, rfl, by simp [openWrite, h]⟩
    cases hq : fs.stat p.parent with
    | loop => rw [hq] at ho; exact absurd ho hl
    | none => rw [hq] at ho; exact ⟨"Parent directory does not exist", fs, by simp only [exists', hq]; rfl, hno _ (by simp) ho⟩
    | missing d n => rw [hq] at ho; exact ⟨"Parent directory does not exist", fs, by simp only [exists', hq]; rfl, hno _ (by simp) ho⟩
    | found q x =>
      cases x with
      | dir => exact ⟨_, _, by simp only [exists', isDirectory, hq]; rfl, createFile_created hf⟩
      | file c => rw [hq] at ho; exact ⟨"Invlid path", fs, by simp only [exists', isDirectory, hq]; rfl, hno _ (by simp) ho⟩
      | link t => rw [hq] at ho; exact ⟨"Invlid path", fs, by simp only [exists', isDirectory, hq]; rfl, hno _ (by simp) ho⟩
      | other => rw [hq] at ho; exact ⟨"Invlid path", fs, by simp only [exists', isDirectory, hq]; rfl, hno _ (by simp) ho⟩

theorem openWrite_file {p : FPath} {q : Place} {c : String} (h : fs.stat p = .found q (.file c)) :
    fs.openWrite p = some (q, fs.set q (.file "")) := by unfold openWrite; rw [h]

/-- The promise after an attempt to create the file through `r`, if `p` leads where `r` leads. -/
theorem honest_created {p r : FPath} (hpr : fs.stat p = fs.stat r) {m : String} {fs' : Files} (h : Created fs r m fs') :
    Honest fs p (m = "") fs' := by
  rcases h with ⟨hm, d, n, hs, hwr, hf⟩ | ⟨hm, hf, ho⟩
  · subst hf
    have hs' := hpr.trans hs
    have hc := stat_created hs'
    simp only [Honest, hm, decide_true, if_true]
    refine ⟨d ++ [n], "", ⟨_, openWrite_file hc, "", by simp [set]⟩, by simp [set], .inr ⟨stat_missing hs, by rw [List.dropLast_concat]; exact hwr, rfl, rfl, rfl, ?_⟩⟩
    intro r hr
    simp [set, hr]
  · rw [hf]
    simp only [Honest, hm, decide_false, Bool.false_eq_true, if_false, true_and]
    rintro q ⟨fs', h, -⟩
    have hw : ∀ a b, fs.stat a = fs.stat b → fs.openWrite a = fs.openWrite b := fun a b hab => by unfold openWrite; rw [hab]
    rw [hw p r hpr, ho] at h
    cases h

theorem honest_file {p : FPath} {q : Place} {c : String} (h : fs.stat p = .found q (.file c)) : Honest fs p true fs := by
  rw [Honest, if_pos rfl]
  exact ⟨q, c, ⟨_, openWrite_file h, "", by simp [set]⟩, stat_file h, .inl rfl⟩

theorem honest_refused {p : FPath} {q : Place} {x : Node} (h : fs.stat p = .found q x) (hx : ∀ c, x ≠ .file c)
    (ho : x = .other → fs.node q = some .other) : Honest fs p false fs := by
  rw [Honest, if_neg (by simp)]
  refine ⟨rfl, ?_⟩
  rintro r ⟨fs', hw, c, hc⟩
  unfold openWrite at hw
  rw [h] at hw
  cases x with
  | file c => exact hx c rfl
  | other =>
    injection hw with hw; injection hw with h1 h2; subst h1; subst h2
    rw [ho rfl] at hc; cases hc
  | dir => cases hw
  | link t => cases hw

end DRAMPower.Files
