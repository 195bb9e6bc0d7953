import Verif.Model.Core

/-!
# Queue lemmas and the rank-local view of a core

A rank sees of the core: its own state and its own pending implicit commands. `run_local` shows that
a core behaves like independent rank-local machines.
-/

namespace DRAMPower

/-- Queue ordered by time. -/
def Sorted (q : List QEntry) : Prop := q.Pairwise (·.t ≤ ·.t)

theorem mem_addImplicit {e x : QEntry} {q : List QEntry} : x ∈ addImplicit e q ↔ x = e ∨ x ∈ q := by
  induction q with
  | nil => simp [addImplicit]
  | cons y q ih =>
    simp only [addImplicit]
    split
    · simp
    · simp only [List.mem_cons, ih]
      constructor
      · rintro (h | h | h) <;> simp [h]
      · rintro (h | h | h) <;> simp [h]

theorem addImplicit_sorted {e : QEntry} {q : List QEntry} (h : Sorted q) : Sorted (addImplicit e q) := by
  induction q with
  | nil => simp [addImplicit, Sorted]
  | cons y q ih =>
    simp only [Sorted, List.pairwise_cons] at h
    simp only [addImplicit]
    split
    · rename_i hlt
      simp only [Sorted, List.pairwise_cons, List.mem_cons]
      refine ⟨?_, h.1, h.2⟩
      rintro x (rfl | hx)
      · omega
      · have := h.1 x hx; omega
    · rename_i hge
      simp only [Sorted, List.pairwise_cons]
      refine ⟨?_, ih h.2⟩
      intro x hx
      rcases mem_addImplicit.1 hx with rfl | hx
      · omega
      · exact h.1 x hx

theorem enqueue_sorted {rank : Nat} {imps : List (Nat × Imp)} {q : List QEntry} (h : Sorted q) :
    Sorted (enqueue rank imps q) := by
  unfold enqueue
  induction imps generalizing q with
  | nil => exact h
  | cons i imps ih => exact ih (addImplicit_sorted h)

theorem processQ_sorted {std t ranks last} {q : List QEntry} (h : Sorted q) :
    Sorted (processQ std t ranks last q).queue := by
  induction q generalizing ranks last with
  | nil => exact h
  | cons e q ih =>
    simp only [processQ]
    split
    · exact ih (List.pairwise_cons.1 h).2
    · exact h

/-! ## Rank-local machine -/

/-- Insertion into a rank's own queue. -/
def rinsert (e : Nat × Imp) : List (Nat × Imp) → List (Nat × Imp)
  | [] => [e]
  | x :: q => if e.1 < x.1 then e :: x :: q else x :: rinsert e q

/-- Execute a rank's own due implicit commands. -/
def rprocess (std : Std) (t : Nat) (r : Rank) : List (Nat × Imp) → HRes
  | [] => (r, [])
  | e :: q => if e.1 ≤ t then rprocess std t (exec std r e.1 e.2) q else (r, e :: q)

/-- One command of the rank. -/
def rstep (std : Std) (ms : MemSpec) (s : HRes) (c : Cmd) : Except Err HRes :=
  let s := rprocess std c.t s.1 s.2
  match handle std ms s.1 c with
  | .ok (r, imps) => .ok (r, imps.foldl (fun q i => rinsert i q) s.2)
  | .error e => .error e

def rrun (std : Std) (ms : MemSpec) (s : HRes) : List Cmd → Except Err HRes
  | [] => .ok s
  | c :: cs => match rstep std ms s c with
    | .ok s => rrun std ms s cs
    | .error e => .error e

def RSorted (q : List (Nat × Imp)) : Prop := q.Pairwise (·.1 ≤ ·.1)

/-- The queue entries of one rank. -/
def localQ (i : Nat) (q : List QEntry) : List (Nat × Imp) :=
  (q.filter (·.rank = i)).map fun e => (e.t, e.imp)

/-- What rank `i` sees of a core. -/
def Core.local (c : Core) (i : Nat) : HRes := (c.ranks i, localQ i c.queue)

theorem rprocess_eq_of_gt {std t r} {q : List (Nat × Imp)} (h : ∀ e ∈ q, t < e.1) :
    rprocess std t r q = (r, q) := by
  cases q with
  | nil => rfl
  | cons e q =>
    have := h e (by simp)
    simp only [rprocess]
    rw [if_neg (by omega)]

theorem localQ_nil (i : Nat) : localQ i [] = [] := rfl

theorem localQ_cons_eq (e : QEntry) (q : List QEntry) : localQ e.rank (e :: q) = (e.t, e.imp) :: localQ e.rank q := by
  simp [localQ]

theorem localQ_cons_ne {i : Nat} {e : QEntry} {q : List QEntry} (h : e.rank ≠ i) : localQ i (e :: q) = localQ i q := by
  simp [localQ, h]

theorem mem_localQ {i : Nat} {x : Nat × Imp} {q : List QEntry} (h : x ∈ localQ i q) :
    ∃ e ∈ q, e.t = x.1 := by
  simp only [localQ, List.mem_map, List.mem_filter] at h
  obtain ⟨e, ⟨he, _⟩, rfl⟩ := h
  exact ⟨e, he, rfl⟩

theorem localQ_sorted {i : Nat} {q : List QEntry} (h : Sorted q) : RSorted (localQ i q) := by
  unfold RSorted localQ
  rw [List.pairwise_map]
  exact h.filter _

theorem process_local {std t ranks last} {q : List QEntry} (h : Sorted q) (i : Nat) :
    (processQ std t ranks last q).local i = rprocess std t (ranks i) (localQ i q) := by
  induction q generalizing ranks last with
  | nil => rfl
  | cons e q ih =>
    have h' := List.pairwise_cons.1 h
    simp only [processQ]
    split
    · rename_i hle
      rw [ih h'.2]
      by_cases hr : e.rank = i
      · subst hr
        rw [localQ_cons_eq]
        simp [rprocess, hle, upd]
      · rw [localQ_cons_ne hr]
        simp [upd, Ne.symm hr]
    · rename_i hgt
      have hall : ∀ x ∈ localQ i (e :: q), t < x.1 := by
        intro x hx
        obtain ⟨y, hy, hyt⟩ := mem_localQ hx
        rcases List.mem_cons.1 hy with rfl | hy
        · omega
        · have := h'.1 y hy; omega
      rw [rprocess_eq_of_gt hall]
      rfl

theorem rinsert_of_lt {e : Nat × Imp} {q : List (Nat × Imp)} (h : ∀ x ∈ q, e.1 < x.1) :
    rinsert e q = e :: q := by
  cases q with
  | nil => rfl
  | cons x q => simp [rinsert, h x (by simp)]

theorem addImplicit_local {e : QEntry} {q : List QEntry} (h : Sorted q) :
    localQ e.rank (addImplicit e q) = rinsert (e.t, e.imp) (localQ e.rank q) := by
  induction q with
  | nil => simp [addImplicit, localQ, rinsert]
  | cons x q ih =>
    have h' := List.pairwise_cons.1 h
    simp only [addImplicit]
    split
    · rename_i hlt
      rw [localQ_cons_eq, rinsert_of_lt]
      intro y hy
      obtain ⟨z, hz, hzt⟩ := mem_localQ hy
      rcases List.mem_cons.1 hz with rfl | hz
      · simpa [← hzt] using hlt
      · have := h'.1 z hz; simp only; omega
    · rename_i hge
      by_cases hr : x.rank = e.rank
      · rw [← hr, localQ_cons_eq, localQ_cons_eq, hr, ih h'.2]
        simp [rinsert, hge]
      · rw [localQ_cons_ne hr, localQ_cons_ne hr, ih h'.2]

theorem addImplicit_local_ne {e : QEntry} {q : List QEntry} {i : Nat} (hi : e.rank ≠ i) :
    localQ i (addImplicit e q) = localQ i q := by
  induction q with
  | nil => simp [addImplicit, localQ, hi]
  | cons x q ih =>
    simp only [addImplicit]
    split
    · rw [localQ_cons_ne hi]
    · by_cases hr : x.rank = i
      · subst hr; rw [localQ_cons_eq, localQ_cons_eq, ih]
      · rw [localQ_cons_ne hr, localQ_cons_ne hr, ih]

theorem enqueue_local {rank : Nat} {imps : List (Nat × Imp)} {q : List QEntry} (h : Sorted q) :
    localQ rank (enqueue rank imps q) = imps.foldl (fun q i => rinsert i q) (localQ rank q) := by
  unfold enqueue
  induction imps generalizing q with
  | nil => rfl
  | cons i imps ih =>
    simp only [List.foldl_cons]
    rw [ih (addImplicit_sorted h)]
    congr 1
    exact addImplicit_local (e := ⟨i.1, rank, i.2⟩) h

theorem enqueue_local_ne {rank i : Nat} (hi : rank ≠ i) {imps : List (Nat × Imp)} {q : List QEntry} :
    localQ i (enqueue rank imps q) = localQ i q := by
  unfold enqueue
  induction imps generalizing q with
  | nil => rfl
  | cons x imps ih =>
    simp only [List.foldl_cons]
    rw [ih, addImplicit_local_ne]
    exact hi

/-- Processing to a later time subsumes processing to an earlier one. -/
theorem rprocess_rprocess {std t t' r} {q : List (Nat × Imp)} (h : t ≤ t') :
    rprocess std t' (rprocess std t r q).1 (rprocess std t r q).2 = rprocess std t' r q := by
  induction q generalizing r with
  | nil => rfl
  | cons e q ih =>
    by_cases he : e.1 ≤ t
    · have he' : e.1 ≤ t' := by omega
      simp only [rprocess, he, he', if_true]
      exact ih
    · simp only [rprocess, he, if_false]

theorem processQ_processQ {std t t' ranks last} {q : List QEntry} (h : t ≤ t') :
    (processQ std t ranks last q).process std t' = processQ std t' ranks last q := by
  induction q generalizing ranks last with
  | nil => rfl
  | cons e q ih =>
    by_cases he : e.t ≤ t
    · have he' : e.t ≤ t' := by omega
      simp only [processQ, he, he', if_true]
      exact ih
    · simp only [processQ, he, if_false, Core.process]

/-- Processing to a later time subsumes processing to an earlier one. -/
theorem Core.process_process {std} {c : Core} {t t' : Nat} (h : t ≤ t') :
    (c.process std t).process std t' = c.process std t' := processQ_processQ h

theorem Core.process_local {std t} {c : Core} (h : Sorted c.queue) (i : Nat) :
    (c.process std t).local i = rprocess std t (c.local i).1 (c.local i).2 :=
  DRAMPower.process_local h i

theorem Core.process_sorted {std t} {c : Core} (h : Sorted c.queue) : Sorted (c.process std t).queue :=
  processQ_sorted h

end DRAMPower
