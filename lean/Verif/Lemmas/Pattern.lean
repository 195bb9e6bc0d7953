import Verif.Model.Pattern
import Verif.Spec.Encoding
import Verif.Lemmas.BusStats

/-!
# Helper lemmas about the command encoders
-/

namespace DRAMPower

theorem writeBit_getLsbD (b : BitVec 64) (n : Nat) (o : Option Bool) (k : Nat) (hn : n < 64) :
    (writeBit b n o).getLsbD k = if k = n then o.getD (b.getLsbD k) else b.getLsbD k := by
  cases o with
  | none => simp [writeBit]
  | some v =>
    rw [writeBit, getLsbD_setBit _ _ _ _ hn]
    simp

theorem encodeLoop_getLsbD {D : Type} (f : Nat → D → Option Bool) :
    ∀ (p : List D) (n : Nat) (b : BitVec 64) (k : Nat), n < 64 → p.length ≤ n + 1 →
      (encodeLoop f p n b).getLsbD k =
        if h : k ≤ n ∧ n < k + p.length then
          (f k (p[n - k]'(by omega))).getD (b.getLsbD k)
        else b.getLsbD k
  | [], n, b, k, _, _ => by
    rw [dif_neg (by simp)]
    rfl
  | d :: ds, n, b, k, hn, hl => by
    have hl' : ds.length ≤ n := by simpa using hl
    rw [encodeLoop]
    by_cases hds : ds = []
    · subst hds
      rw [encodeLoop, writeBit_getLsbD _ _ _ _ hn]
      by_cases hk : k = n
      · subst hk
        rw [dif_pos (by simp)]
        simp
      · rw [dif_neg (by simp; omega), if_neg hk]
    · have hpos : 0 < ds.length := by
        rcases ds with _ | ⟨_, _⟩
        · exact absurd rfl hds
        · simp
      rw [encodeLoop_getLsbD f ds (n - 1) _ k (by omega) (by omega), writeBit_getLsbD _ _ _ _ hn]
      by_cases hk : k = n
      · subst hk
        rw [dif_neg (by omega), dif_pos (by simp)]
        simp
      · rw [if_neg hk]
        by_cases hr : k ≤ n - 1 ∧ n - 1 < k + ds.length
        · rw [dif_pos hr, dif_pos (by simp; omega)]
          have : n - k = (n - 1 - k) + 1 := by omega
          simp [this]
        · rw [dif_neg hr, dif_neg (by simp; omega)]

/-- The whole loop: bit `k` belongs to the descriptor `k` places before the end. -/
theorem encodeLoop_bit {D : Type} (f : Nat → D → Option Bool) (p : List D) (hp : p ≠ [])
    (hl : p.length ≤ 64) (k : Nat) :
    (encodeLoop f p (p.length - 1) 0#64).getLsbD k =
      if h : k < p.length then (f k (p[p.length - 1 - k]'(by omega))).getD false else false := by
  have hpos := List.length_pos_iff.2 hp
  rw [encodeLoop_getLsbD f p _ _ k (by omega) (by omega)]
  by_cases h : k < p.length
  · rw [dif_pos ⟨by omega, by omega⟩, dif_pos h]; simp
  · rw [dif_neg (by omega), dif_neg h]; simp

theorem usub_one {n : Nat} (h : 0 < n) : usub n 1 = n - 1 := if_pos h

theorem encode_ok (co : Coord) (p : List Desc) (s : Overrides) (last : BitVec 64) (hp : p ≠ [])
    (hl : p.length ≤ 64) : encode co p s last
      = .ok (encodeLoop (fun n => encodeBit co s (last.getLsbD n)) p (p.length - 1) 0#64) := by
  have hpos := List.length_pos_iff.2 hp
  simp only [encode, usub_one hpos]
  rw [if_pos (by omega)]

/-- A pattern of a usable size is encoded, and this is every bit of the word. -/
theorem encode_bits (co : Coord) (p : List Desc) (s : Overrides) (last : BitVec 64) (hp : p ≠ [])
    (hl : p.length ≤ 64) : ∃ w, encode co p s last = .ok w ∧
      (∀ i, (h : i < p.length) → w.getLsbD (p.length - 1 - i)
        = (encodeBit co s (last.getLsbD (p.length - 1 - i)) p[i]).getD false) ∧
      (∀ k, p.length ≤ k → w.getLsbD k = false) := by
  refine ⟨_, encode_ok co p s last hp hl, fun i h => ?_, fun k h => ?_⟩
  · rw [encodeLoop_bit _ p hp hl, dif_pos (by omega)]
    have : p.length - 1 - (p.length - 1 - i) = i := by omega
    simp [this]
  · rw [encodeLoop_bit _ p hp hl, dif_neg (by omega)]

/-! ## Overrides -/

theorem Overrides.get_cons (e : Desc × BitSpec) (s : Overrides) (d : Desc) :
    Overrides.get (e :: s) d = if e.1 = d then e.2 else s.get d := by
  unfold Overrides.get
  by_cases h : e.1 = d <;> simp [h]

theorem Overrides.get_erase (s : Overrides) (x d : Desc) :
    (s.erase x).get d = if d = x then .INVALID else s.get d := by
  induction s with
  | nil => simp [Overrides.erase, Overrides.get]
  | cons e s ih =>
    unfold Overrides.erase at *
    by_cases hx : e.1 = x
    · simp only [List.filter_cons, hx, bne_self_eq_false, Bool.false_eq_true, if_false, ih,
        Overrides.get_cons]
      by_cases hd : d = x
      · simp [hd]
      · simp [hd, Ne.symm hd]
    · simp only [List.filter_cons, bne_iff_ne, ne_eq, hx, not_false_eq_true, if_true,
        Overrides.get_cons, ih]
      by_cases hd : d = x
      · subst hd; simp [hx]
      · simp [hd]

theorem Overrides.get_set (s : Overrides) (x : Desc) (b : BitSpec) (d : Desc) :
    (s.set x b).get d = if d = x then b else s.get d := by
  rw [Overrides.set, Overrides.get_cons, Overrides.get_erase]
  by_cases h : d = x
  · simp [h]
  · simp [h, Ne.symm h]

theorem Overrides.get_update_other (l : List (Desc × BitSpec)) (d : Desc) :
    ∀ s : Overrides, (∀ e ∈ l, e.1 ≠ d) → (s.update l).get d = s.get d := by
  induction l with
  | nil => intro s _; rfl
  | cons e l ih =>
    intro s h
    have h1 : (s.update (e :: l)) = (s.set e.1 e.2).update l := rfl
    rw [h1, ih _ fun x hx => h x (by simp [hx]), Overrides.get_set,
      if_neg fun hd => h e (by simp) hd.symm]

/-- A data transfer leaves every other descriptor's override alone. -/
theorem handleOverrides_get (std : Std) (s : Overrides) (n : Nat) (r : Bool) (d : Desc)
    (h : d ∉ Spec.burstBits std) : (handleOverrides s n r std).get d = s.get d := by
  cases std <;> simp only [Spec.burstBits, List.mem_cons, not_or] at h <;>
    simp only [handleOverrides] <;> repeat' split
  all_goals try rw [Overrides.get_update_other]
  all_goals try rw [Overrides.get_erase, if_neg (by simp_all)]
  all_goals
    simp only [List.mem_cons, forall_eq_or_imp, List.not_mem_nil, false_implies, implies_true,
      and_true, ne_eq]
    simp_all [eq_comm]

theorem settingsAfter_get (std : Std) (calls : List (Nat × Bool)) (d : Desc)
    (h : d ∉ Spec.burstBits std) :
    (Spec.settingsAfter std calls).get d = (caInit std).settings.get d := by
  unfold Spec.settingsAfter
  generalize (caInit std).settings = s
  induction calls generalizing s with
  | nil => rfl
  | cons c calls ih => rw [List.foldl_cons, ih, handleOverrides_get _ _ _ _ _ h]

end DRAMPower
