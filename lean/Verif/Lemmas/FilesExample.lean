import Verif.Spec.OutputPath

/-! # File systems given by a list -/

namespace DRAMPower.Files

open Spec

/-- The file system with the given contents, where each directory is writable. -/
def ofList (l : List (Place × Node)) (cwd : Place) : Files := ⟨fun q => l.lookup q, fun _ => true, cwd⟩

theorem lookup_mem {l : List (Place × Node)} {q : Place} {x : Node} (h : l.lookup q = some x) : (q, x) ∈ l := by
  induction l with
  | nil => cases h
  | cons a l ih =>
    obtain ⟨k, v⟩ := a
    rw [List.lookup_cons] at h
    by_cases hk : (q == k) = true
    · rw [hk] at h
      injection h with h
      subst h
      rw [eq_of_beq hk]
      exact List.mem_cons_self
    · rw [Bool.not_eq_true] at hk
      rw [hk] at h
      exact List.mem_cons_of_mem _ (ih h)

/-- A check that a list is a tree. -/
def isTree (l : List (Place × Node)) (cwd : Place) : Bool :=
  l.lookup [] == some .dir && l.lookup cwd == some .dir &&
    l.all (fun a => a.1.isEmpty || l.lookup a.1.dropLast == some .dir) &&
    l.all fun a => match a.2 with
      | .link t => t.absolute || !t.comps.isEmpty
      | _ => true

theorem tree_ofList {l : List (Place × Node)} {cwd : Place} (h : isTree l cwd = true) : Tree (ofList l cwd) := by
  simp only [isTree, Bool.and_eq_true, beq_iff_eq, List.all_eq_true] at h
  obtain ⟨⟨⟨h1, h2⟩, h3⟩, h4⟩ := h
  refine ⟨h1, ?_, h2, ?_⟩
  · intro d n x hx
    have := h3 _ (lookup_mem hx)
    simpa [ofList] using this
  · intro q t hq ha hc
    have := h4 _ (lookup_mem hq)
    simp [ha, hc] at this

end DRAMPower.Files
