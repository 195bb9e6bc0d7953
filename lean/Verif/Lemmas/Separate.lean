import Verif.Props.C25

/-!
# Telling the patterns of two commands apart

A check on two patterns (compared from their last position on) that implies that no two coordinates
are encoded to the same word.
-/

namespace DRAMPower

/-- The level a descriptor always has, if it has one, when `V` and `X` are sent as `v`. -/
def constBit (v : Bool) : Desc → Option Bool
  | .H => some true
  | .L => some false
  | .V => some v
  | .X => some v
  | .CID _ => some true
  | _ => none

/-- The same for LPDDR6. -/
def constBit6 : Desc6 → Option Bool
  | .H => some true
  | .L => some false
  | .V => some false
  | .X => some false
  | .PAR => some false
  | _ => none

/-- Both levels are fixed and different. -/
def conflict : Option Bool → Option Bool → Bool
  | some x, some y => x != y
  | _, _ => false

/-- The fixed level at a position; beyond the pattern the word is low. -/
def caLevel {D : Type} (k : D → Option Bool) : Option D → Option Bool
  | some d => k d
  | none => some false

/-- Some position is fixed to different levels; a position beyond the shorter pattern is low. -/
def separate {D : Type} (k : D → Option Bool) : List D → List D → Bool
  | d :: p, e :: q => conflict (k d) (k e) || separate k p q
  | [], q => q.any fun d => k d == some true
  | p, [] => p.any fun d => k d == some true

theorem separate_spec {D : Type} (k : D → Option Bool) : ∀ (p q : List D), separate k p q = true →
    ∃ i : Nat, conflict (caLevel k p[i]?)
      (caLevel k q[i]?) = true
  | d :: p, e :: q, h => by
    rw [separate, Bool.or_eq_true] at h
    rcases h with h | h
    · exact ⟨0, by simpa [caLevel] using h⟩
    · obtain ⟨i, hi⟩ := separate_spec k p q h
      exact ⟨i + 1, by simpa using hi⟩
  | [], q, h => by
    rw [separate, List.any_eq_true] at h
    obtain ⟨d, hd, hk⟩ := h
    obtain ⟨i, hi, rfl⟩ := List.getElem_of_mem hd
    exact ⟨i, by simp [List.getElem?_eq_getElem hi, conflict, caLevel, eq_of_beq hk]⟩
  | d :: p, [], h => by
    rw [separate, List.any_eq_true] at h
    · obtain ⟨x, hd, hk⟩ := h
      obtain ⟨i, hi, hx⟩ := List.getElem_of_mem hd
      refine ⟨i, ?_⟩
      rw [List.getElem?_eq_getElem hi, hx]
      simp [conflict, caLevel, eq_of_beq hk]
    · simp

/-- Words whose bits are those of separate patterns differ. -/
theorem words_differ {D : Type} (k : D → Option Bool) (p q : List D) (w w' : BitVec 64)
    (f f' : Nat → D → Option Bool)
    (hw : ∀ i, w.getLsbD i = if h : i < p.length then (f i (p[p.length - 1 - i]'(by omega))).getD false
      else false)
    (hw' : ∀ i, w'.getLsbD i = if h : i < q.length then (f' i (q[q.length - 1 - i]'(by omega))).getD false
      else false)
    (hf : ∀ i d v, k d = some v → (f i d).getD false = v)
    (hf' : ∀ i d v, k d = some v → (f' i d).getD false = v)
    (h : separate k p.reverse q.reverse = true) : w ≠ w' := by
  obtain ⟨i, hi⟩ := separate_spec k _ _ h
  have level : ∀ (p : List D) (w : BitVec 64) (f : Nat → D → Option Bool),
      (∀ i, w.getLsbD i = if h : i < p.length then (f i (p[p.length - 1 - i]'(by omega))).getD false
        else false) → (∀ i d v, k d = some v → (f i d).getD false = v) →
      ∀ v, caLevel k p.reverse[i]? = some v →
        w.getLsbD i = v := by
    intro p w f hw hf v hv
    rw [hw i]
    by_cases hl : i < p.length
    · rw [dif_pos hl]
      rw [List.getElem?_eq_getElem (by simpa using hl)] at hv
      simp only [caLevel, List.getElem_reverse] at hv
      exact hf _ _ _ hv
    · rw [dif_neg hl]
      rw [List.getElem?_eq_none (by simpa using Nat.not_lt.1 hl)] at hv
      simpa [caLevel] using hv
  intro e
  generalize hp : caLevel k p.reverse[i]? = a at hi
  generalize hq : caLevel k q.reverse[i]? = b at hi
  cases a with
  | none => simp [conflict] at hi
  | some x =>
    cases b with
    | none => simp [conflict] at hi
    | some y =>
      have h1 := level p w f hw hf x hp
      have h2 := level q w' f' hw' hf' y hq
      rw [e] at h1
      simp [conflict, ← h1, ← h2] at hi

end DRAMPower
