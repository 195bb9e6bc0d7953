import Mathlib.Data.List.Induction
import Verif.Model.OutputPath
import Verif.Spec.OutputPath

/-! # Following paths -/

namespace DRAMPower.Files

open Spec

variable {fs : Files}

theorem go_mono {f : Bool} {k k' : Place → List Comp → Look} (h : ∀ d cs, k d cs ≠ .loop → k' d cs = k d cs) :
    ∀ cs d, fs.go f k d cs ≠ .loop → fs.go f k' d cs = fs.go f k d cs
  | [], _, _ => rfl
  | .up :: rest, d, hl => go_mono h rest _ hl
  | .name n :: rest, d, hl => by
    simp only [go] at hl ⊢
    cases hn : fs.node (d ++ [n]) with
    | none => simp [hn]
    | some x =>
      simp only [hn] at hl ⊢
      cases x with
      | dir => exact go_mono h rest _ hl
      | link t =>
        simp only at hl ⊢
        by_cases hc : rest = [] ∧ f = false
        · simp only [hc, and_self, if_true]
        · rw [if_neg hc] at hl
          rw [if_neg hc, if_neg hc]
          exact h _ _ hl
      | file c => rfl
      | other => rfl

theorem walk_succ {f : Bool} : ∀ n d cs, fs.walk f n d cs ≠ .loop → fs.walk f (n + 1) d cs = fs.walk f n d cs
  | 0, _, cs, h => go_mono (k := fun _ _ => .loop) (fun _ _ hl => absurd rfl hl) cs _ h
  | n + 1, _, cs, h => go_mono (fun d cs hl => walk_succ n d cs hl) cs _ h

theorem walk_le {f : Bool} {n m : Nat} (hnm : n ≤ m) {d cs} (h : fs.walk f n d cs ≠ .loop) : fs.walk f m d cs = fs.walk f n d cs := by
  induction hnm with
  | refl => rfl
  | step _ ih => rw [walk_succ _ _ _ (ih ▸ h), ih]

/-- Following the last component as well changes nothing unless it is a symbolic link. -/
def Same (m : Nat) (fs : Files) (a b : Look) : Prop :=
  match a with
  | .loop => b = .loop
  | .found q (.link t) => fs.node q = some (.link t) ∧ (b = .loop ∨ ∃ j, j < m ∧ b = fs.walk true j (start q.dropLast t) t.comps)
  | a => b = a

theorem same_go {m : Nat} {k k' : Place → List Comp → Look} (h : ∀ d cs, Same m fs (k d cs) (k' d cs))
    (hk : ∀ d cs, k' d cs = .loop ∨ ∃ j, j < m ∧ k' d cs = fs.walk true j d cs) :
    ∀ cs d, Same m fs (fs.go false k d cs) (fs.go true k' d cs)
  | [], _ => rfl
  | .up :: rest, d => same_go h hk rest _
  | .name n :: rest, d => by
    simp only [go]
    cases hn : fs.node (d ++ [n]) with
    | none => by_cases hr : rest = [] <;> simp [hr, Same]
    | some x =>
      cases x with
      | dir => exact same_go h hk rest _
      | link t =>
        by_cases hr : rest = []
        · subst hr
          simp only [and_self, if_true, Bool.true_eq_false, and_false, if_false, List.append_nil, Same, hn, true_and]
          have := hk (start d t) t.comps
          simpa using this
        · simp only [hr, false_and, if_false]
          exact h _ _
      | file c => by_cases hr : rest = [] <;> simp [hr, Same]
      | other => by_cases hr : rest = [] <;> simp [hr, Same]

theorem Same.mono {m m' : Nat} (hm : m ≤ m') {a b : Look} (h : Same m fs a b) : Same m' fs a b := by
  unfold Same at h ⊢
  split
  · exact h
  · obtain ⟨h1, h2⟩ := h
    exact ⟨h1, h2.imp id fun ⟨j, hj, e⟩ => ⟨j, by omega, e⟩⟩
  · rename_i h1 h2
    split at h
    · exact absurd rfl h1
    · exact absurd rfl (h2 _ _)
    · exact h

theorem same_walk : ∀ n d cs, Same n fs (fs.walk false n d cs) (fs.walk true n d cs)
  | 0, d, cs => same_go (k := fun _ _ => .loop) (k' := fun _ _ => .loop) (fun _ _ => rfl) (fun _ _ => .inl rfl) cs d
  | n + 1, d, cs => same_go (fun d cs => (same_walk n d cs).mono (by omega)) (fun d cs => .inr ⟨n, by omega, rfl⟩) cs d

/-- One more component than something that is not a directory leads nowhere. -/
def Onward (a b : Look) : Prop :=
  match a with
  | .loop => b = .loop
  | .found _ .dir => True
  | _ => b = .none

theorem onward_go {k : Place → List Comp → Look} (c : Comp) (h : ∀ d cs, Onward (k d cs) (k d (cs ++ [c]))) :
    ∀ cs d, Onward (fs.go true k d cs) (fs.go true k d (cs ++ [c]))
  | [], _ => trivial
  | .up :: rest, d => onward_go c h rest _
  | .name n :: rest, d => by
    simp only [List.cons_append, go]
    have hne : rest ++ [c] ≠ [] := by simp
    cases hn : fs.node (d ++ [n]) with
    | none => by_cases hr : rest = [] <;> simp [hr, Onward]
    | some x =>
      cases x with
      | dir => exact onward_go c h rest _
      | link t =>
        simp only [Bool.true_eq_false, and_false, if_false]
        have := h (start d t) (t.comps ++ rest)
        simpa [List.append_assoc] using this
      | file c => by_cases hr : rest = [] <;> simp [hr, Onward]
      | other => by_cases hr : rest = [] <;> simp [hr, Onward]

theorem onward_walk (c : Comp) : ∀ n d cs, Onward (fs.walk true n d cs) (fs.walk true n d (cs ++ [c]))
  | 0, d, cs => onward_go (k := fun _ _ => .loop) c (fun _ _ => rfl) cs d
  | n + 1, d, cs => onward_go c (fun d cs => onward_walk c n d cs) cs d

theorem go_missing {k : Place → List Comp → Look} {e : Place} {m : String} (h : ∀ d cs, k d cs = .missing e m → fs.node (e ++ [m]) = none) :
    ∀ cs d, fs.go true k d cs = .missing e m → fs.node (e ++ [m]) = none
  | [], _, hm => by cases hm
  | .up :: rest, d, hm => go_missing h rest _ hm
  | .name n :: rest, d, hm => by
    simp only [go] at hm
    cases hn : fs.node (d ++ [n]) with
    | none =>
      simp only [hn] at hm
      split at hm
      · injection hm with h1 h2; subst h1; subst h2; exact hn
      · cases hm
    | some x =>
      simp only [hn] at hm
      cases x with
      | dir => exact go_missing h rest _ hm
      | link t =>
        simp only [Bool.true_eq_false, and_false, if_false] at hm
        exact h _ _ hm
      | file c => simp only at hm; split at hm <;> cases hm
      | other => simp only at hm; split at hm <;> cases hm

theorem walk_missing {e : Place} {m : String} : ∀ n d cs, fs.walk true n d cs = .missing e m → fs.node (e ++ [m]) = none
  | 0, d, cs, h => go_missing (k := fun _ _ => .loop) (fun _ _ h => by cases h) cs d h
  | n + 1, d, cs, h => go_missing (fun d cs => walk_missing n d cs) cs d h

theorem go_found {k : Place → List Comp → Look} {q : Place} {x : Node} (hx : x ≠ .dir) (h : ∀ d cs, k d cs = .found q x → fs.node q = some x) :
    ∀ cs d, fs.go true k d cs = .found q x → fs.node q = some x
  | [], _, hm => by injection hm with h1 h2; exact absurd h2.symm hx
  | .up :: rest, d, hm => go_found hx h rest _ hm
  | .name n :: rest, d, hm => by
    simp only [go] at hm
    cases hn : fs.node (d ++ [n]) with
    | none => simp only [hn] at hm; split at hm <;> cases hm
    | some y =>
      simp only [hn] at hm
      cases y with
      | dir => exact go_found hx h rest _ hm
      | link t =>
        simp only [Bool.true_eq_false, and_false, if_false] at hm
        exact h _ _ hm
      | file c => simp only at hm; split at hm <;> cases hm; exact hn
      | other => simp only at hm; split at hm <;> cases hm; exact hn

theorem walk_found {q : Place} {x : Node} (hx : x ≠ .dir) : ∀ n d cs, fs.walk true n d cs = .found q x → fs.node q = some x
  | 0, d, cs, h => go_found (k := fun _ _ => .loop) hx (fun _ _ h => by cases h) cs d h
  | n + 1, d, cs, h => go_found hx (fun d cs => walk_found hx n d cs) cs d h

theorem go_created {k k' : Place → List Comp → Look} {e : Place} {m : String} (hq : fs.node (e ++ [m]) = none)
    (h : ∀ d cs, k d cs = .missing e m → k' d cs = .found (e ++ [m]) (.file "")) :
    ∀ cs d, fs.go true k d cs = .missing e m → (fs.set (e ++ [m]) (.file "")).go true k' d cs = .found (e ++ [m]) (.file "")
  | [], _, hm => by cases hm
  | .up :: rest, d, hm => go_created hq h rest _ hm
  | .name n :: rest, d, hm => by
    simp only [go] at hm ⊢
    by_cases hd : d ++ [n] = e ++ [m]
    · simp only [hd, set, if_true]
      rw [hd, hq] at hm
      simp only at hm
      split at hm
      · rename_i hr; simp [hr]
      · cases hm
    · have hset : (fs.set (e ++ [m]) (.file "")).node (d ++ [n]) = fs.node (d ++ [n]) := by simp only [set, hd, if_false]
      rw [hset]
      cases hn : fs.node (d ++ [n]) with
      | none =>
        simp only [hn] at hm
        split at hm
        · injection hm with h1 h2; subst h1; subst h2; exact absurd rfl hd
        · cases hm
      | some x =>
        simp only [hn] at hm
        cases x with
        | dir => exact go_created hq h rest _ hm
        | link t =>
          simp only [Bool.true_eq_false, and_false, if_false] at hm ⊢
          exact h _ _ hm
        | file c => simp only at hm; split at hm <;> cases hm
        | other => simp only at hm; split at hm <;> cases hm

theorem walk_created {e : Place} {m : String} (hq : fs.node (e ++ [m]) = none) :
    ∀ n d cs, fs.walk true n d cs = .missing e m → (fs.set (e ++ [m]) (.file "")).walk true n d cs = .found (e ++ [m]) (.file "")
  | 0, d, cs, h => go_created (k := fun _ _ => .loop) hq (fun _ _ h => by cases h) cs d h
  | n + 1, d, cs, h => go_created hq (fun d cs => walk_created hq n d cs) cs d h

theorem stat_missing {p : FPath} {e : Place} {m : String} (h : fs.stat p = .missing e m) : fs.node (e ++ [m]) = none := by
  unfold stat look at h
  split at h
  · cases h
  · exact walk_missing _ _ _ h

theorem stat_found {p : FPath} {q : Place} {x : Node} (hx : x ≠ .dir) (h : fs.stat p = .found q x) : fs.node q = some x := by
  unfold stat look at h
  split at h
  · cases h
  · exact walk_found hx _ _ _ h

theorem go_not_link {k : Place → List Comp → Look} {q : Place} {t : FPath} (h : ∀ d cs, k d cs ≠ .found q (.link t)) :
    ∀ cs d, fs.go true k d cs ≠ .found q (.link t)
  | [], _, hm => by cases hm
  | .up :: rest, d, hm => go_not_link h rest _ hm
  | .name n :: rest, d, hm => by
    simp only [go] at hm
    cases hn : fs.node (d ++ [n]) with
    | none => simp only [hn] at hm; split at hm <;> cases hm
    | some y =>
      simp only [hn] at hm
      cases y with
      | dir => exact go_not_link h rest _ hm
      | link u =>
        simp only [Bool.true_eq_false, and_false, if_false] at hm
        exact h _ _ hm
      | file c => simp only at hm; split at hm <;> cases hm
      | other => simp only at hm; split at hm <;> cases hm

theorem walk_not_link {q : Place} {t : FPath} : ∀ n d cs, fs.walk true n d cs ≠ .found q (.link t)
  | 0, d, cs => go_not_link (k := fun _ _ => .loop) (fun _ _ h => by cases h) cs d
  | n + 1, d, cs => go_not_link (fun d cs => walk_not_link n d cs) cs d

theorem stat_not_link {p : FPath} (q : Place) (t : FPath) : fs.stat p ≠ .found q (.link t) := by
  unfold stat look
  split
  · simp
  · exact walk_not_link _ _ _

theorem stat_file {p : FPath} {q : Place} {c : String} (h : fs.stat p = .found q (.file c)) : fs.node q = some (.file c) :=
  stat_found (by simp) h

/-- A created file is found. -/
theorem stat_created {p : FPath} {e : Place} {m : String} (h : fs.stat p = .missing e m) :
    (fs.set (e ++ [m]) (.file "")).stat p = .found (e ++ [m]) (.file "") := by
  have hq := stat_missing h
  unfold stat look at h ⊢
  split at h
  · cases h
  · rename_i hp
    rw [if_neg hp]
    exact walk_created hq _ _ _ h

theorem prefix_dir (ht : Tree fs) (d l : Place) (h : fs.node (d ++ l) = some .dir) : fs.node d = some .dir := by
  induction l using List.reverseRecOn with
  | nil => simpa using h
  | append_singleton l n ih =>
    rw [← List.append_assoc] at h
    exact ih (ht.parent _ _ _ h)

theorem go_names (ht : Tree fs) {f k} : ∀ (l d : Place), fs.node (d ++ l) = some .dir → fs.go f k d (l.map .name) = .found (d ++ l) .dir
  | [], d, _ => by simp [go]
  | n :: l, d, h => by
    have h' : fs.node ((d ++ [n]) ++ l) = some .dir := by simpa using h
    simp only [List.map_cons, go, prefix_dir ht _ _ h']
    simpa using go_names ht l (d ++ [n]) h'

theorem stat_currentPath (ht : Tree fs) : fs.stat fs.currentPath = .found fs.cwd .dir := by
  have := go_names (f := true) (k := fs.walk true 39) ht fs.cwd [] (by simpa using ht.cwd)
  simpa [stat, look, currentPath, start, walk] using this

/-- A path that is not a symbolic link. -/
theorem stat_plain {p : FPath} (hl : ∀ q t, fs.lstat p ≠ .found q (.link t)) : fs.stat p = fs.lstat p := by
  unfold stat lstat look at *
  split
  · rfl
  · rename_i hp
    simp only [hp, if_false] at hl
    have := same_walk (fs := fs) 40 (start fs.cwd p) p.comps
    revert this
    generalize fs.walk false 40 (start fs.cwd p) p.comps = a at hl
    unfold Same
    split
    · exact id
    · rename_i q t
      exact absurd rfl (hl q t)
    · exact id

/-- A path that is a symbolic link leads where its target leads. -/
theorem stat_link (ht : Tree fs) {p t : FPath} {q : Place} (hl : fs.lstat p = .found q (.link t)) (hs : fs.stat p ≠ .loop)
    (hd : t.absolute = true ∨ q.dropLast = fs.cwd) : fs.stat p = fs.stat t := by
  unfold stat lstat look at *
  split at hl
  · cases hl
  · rename_i hp
    rw [if_neg hp] at hs ⊢
    have h := same_walk (fs := fs) 40 (start fs.cwd p) p.comps
    rw [hl] at h
    obtain ⟨hn, h⟩ := h
    rcases h with h | ⟨j, hj, h⟩
    · exact absurd h hs
    · have hstart : start q.dropLast t = start fs.cwd t := by
        unfold start
        rcases hd with hd | hd
        · simp [hd]
        · rw [hd]
      rw [hstart] at h
      have hne : ¬ (t.absolute = false ∧ t.comps = []) := fun ⟨h1, h2⟩ => ht.link _ _ hn h1 h2
      rw [if_neg hne, h, ← walk_le (m := 40) (by omega) (h ▸ hs)]

end DRAMPower.Files
