import Verif.Model.QueueSearch
import Verif.Lemmas.Locality

/-!
# The binary search finds the place of the insertion
-/

namespace DRAMPower

/-- The search ends at the border, if there is one. -/
theorem upperBound_border {later : Nat → Bool} {k : Nat} (hlo : ∀ i, i < k → later i = false) : ∀ {first len : Nat}, first ≤ k → k ≤ first + len →
    (∀ i, k ≤ i → i < first + len → later i = true) → upperBound later first len = k := by
  intro first len
  induction len using Nat.strongRecOn generalizing first with
  | _ len ih =>
    intro h1 h2 hhi
    rw [upperBound]
    split
    · omega
    · rename_i hn
      split
      · rename_i hl
        have : k ≤ first + len / 2 := by
          apply Classical.byContradiction
          intro hc
          rw [hlo _ (by omega)] at hl
          cases hl
        exact ih _ (by omega) h1 (by omega) fun i a b => hhi i a (by omega)
      · rename_i hl
        have : first + len / 2 < k := by
          apply Classical.byContradiction
          intro hc
          exact hl (hhi _ (by omega) (by omega))
        exact ih _ (by omega) (by omega) (by omega) fun i a b => hhi i a (by omega)

theorem addImplicit_split (e : QEntry) : ∀ q : List QEntry, Sorted q → ∃ k, k ≤ q.length ∧ addImplicit e q = q.take k ++ e :: q.drop k ∧
    (∀ i, i < k → ∀ x, q[i]? = some x → ¬ e.t < x.t) ∧ ∀ i, k ≤ i → ∀ x, q[i]? = some x → e.t < x.t
  | [], _ => ⟨0, by simp, rfl, by simp, by simp⟩
  | y :: q, h => by
    have hc := List.pairwise_cons.1 h
    by_cases hy : e.t < y.t
    · refine ⟨0, by simp, by simp [addImplicit, hy], by simp, ?_⟩
      intro i _ x hx
      cases i with
      | zero => cases hx; exact hy
      | succ i =>
        have := hc.1 x (List.mem_of_getElem? hx)
        omega
    · obtain ⟨k, h1, h2, h3, h4⟩ := addImplicit_split e q hc.2
      refine ⟨k + 1, by simpa using h1, by simp [addImplicit, hy, h2], ?_, ?_⟩
      · intro i hi x hx
        cases i with
        | zero => cases hx; exact hy
        | succ i => exact h3 i (by omega) x hx
      · intro i hi x hx
        cases i with
        | zero => omega
        | succ i => exact h4 i (by omega) x hx

theorem addSearched_eq {e : QEntry} {q : List QEntry} (h : Sorted q) : addSearched e q = addImplicit e q := by
  obtain ⟨k, h1, h2, h3, h4⟩ := addImplicit_split e q h
  unfold addSearched
  dsimp only
  rw [upperBound_border (k := k) ?_ (Nat.zero_le _) (by simpa using h1) ?_, h2]
  · intro i hi
    have hl : i < q.length := by omega
    rw [List.getElem?_eq_getElem hl]
    simpa using h3 i hi _ (List.getElem?_eq_getElem hl)
  · intro i hi hl
    split
    · rename_i x hx
      simpa using h4 i hi x hx
    · rfl

theorem enqueueSearched_eq {rank : Nat} : ∀ {imps : List (Nat × Imp)} {q : List QEntry}, Sorted q → enqueueSearched rank imps q = enqueue rank imps q
  | [], _, _ => rfl
  | i :: imps, q, h => by
    have h1 : Sorted (addImplicit { t := i.1, rank := rank, imp := i.2 } q) := enqueue_sorted (imps := [i]) (rank := rank) h
    show enqueueSearched rank imps (addSearched _ q) = enqueue rank imps (addImplicit _ q)
    rw [addSearched_eq h]
    exact enqueueSearched_eq h1

theorem doCommandSearched_eq {std : Std} {ms : MemSpec} {c : Core} {cmd : Cmd} (h : Sorted c.queue) :
    c.doCommandSearched std ms cmd = c.doCommand std ms cmd := by
  unfold Core.doCommandSearched Core.doCommand
  dsimp only
  split
  · rfl
  split
  · cases handle std ms _ cmd with
    | error e => rfl
    | ok r =>
      obtain ⟨r, imps⟩ := r
      dsimp only
      rw [enqueueSearched_eq (Core.process_sorted (std := std) (t := cmd.t) h)]
  · rfl

theorem sessionSearched_eq {std : Std} {ms : MemSpec} : ∀ {ops : List Op} {c : Core}, Sorted c.queue →
    c.sessionSearched std ms ops = c.session std ms ops
  | [], _, _ => rfl
  | .cmd cmd :: ops, c, h => by
    simp only [Core.sessionSearched, Core.session, doCommandSearched_eq h]
    cases hc : c.doCommand std ms cmd with
    | error e => rfl
    | ok c1 => exact sessionSearched_eq (doCommand_sorted h hc)
  | .query t :: ops, c, h => by
    simp only [Core.sessionSearched, Core.session]
    rw [sessionSearched_eq (c := (c.getWindowStats std ms t).1) (Core.process_sorted (std := std) (t := t) h)]
    cases Core.session std ms (c.getWindowStats std ms t).1 ops <;> rfl

end DRAMPower
