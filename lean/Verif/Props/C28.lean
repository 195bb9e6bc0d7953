import Verif.Props.C25

/-!
# C28: LPDDR6 command parity

Full statement: with CA parity checking enabled, every encoded LPDDR6 command word has even parity
over the command bits and the parity bit.

* `C28_partial`: it holds for every pattern whose third position is its only parity position.
* `C28_never`: no registered pattern is of this kind (the parity position is the fourth one), so for
  the registered commands enabling the parity check changes nothing.
* `C28_violation`: words of odd parity for a precharge, an activate and a read.
-/

namespace DRAMPower

theorem countP_range_point (p q : Nat → Bool) (k : Nat) (hk : q k = false)
    (h : ∀ j, j ≠ k → p j = q j) : ∀ n, (List.range n).countP p
      = (List.range n).countP q + (if k < n ∧ p k = true then 1 else 0) := by
  intro n
  induction n with
  | zero => simp
  | succ n ih =>
    rw [List.range_succ, List.countP_append, List.countP_append, ih]
    by_cases hn : n = k
    · subst hn
      cases hp : p n <;> simp [hp, hk]
    · have : (k < n + 1 ∧ p k = true) ↔ (k < n ∧ p k = true) := by
        constructor <;> rintro ⟨h1, h2⟩ <;> exact ⟨by omega, h2⟩
      simp only [this, List.countP_singleton, h n hn]
      omega

theorem popcount_setBit {N : Nat} (b : BitVec N) (k : Nat) (v : Bool) (hk : k < N)
    (hb : b.getLsbD k = false) : popcount (setBit b k v) = popcount b + if v = true then 1 else 0 := by
  unfold popcount
  rw [countP_range_point (setBit b k v).getLsbD b.getLsbD k hb]
  · rw [getLsbD_setBit _ _ _ _ hk]
    simp [hk]
  · intro j hj
    rw [getLsbD_setBit _ _ _ _ hk, if_neg hj]

/-- Where the encoder generates the parity bit, the word has even parity. -/
theorem C28_partial (p : List Desc6) (x : Extra6) (co : Coord6) (hx : x.parityCheckMode = true)
    (ha : Accepts6 x p co) (hl : p.length ≤ 64) (hp : p[2]? = some .PAR) :
    ∃ w, encode6 co p x = .ok w ∧ Spec.even w := by
  obtain ⟨h1, h2, h3⟩ := ha
  obtain ⟨h3l, hpar⟩ := List.getElem?_eq_some_iff.1 hp
  have hne : p ≠ [] := by rintro rfl; simp at h3l
  refine ⟨setBit (encodeLoop (fun _ => encodeBit6 co x) p (p.length - 1) 0#64) (p.length - 3)
    (1 == popcount (encodeLoop (fun _ => encodeBit6 co x) p (p.length - 1) 0#64) % 2), ?_, ?_⟩
  · unfold encode6
    rw [if_neg h1, if_neg (by simpa using h2)]
    simp only [usub_one (show 0 < p.length by omega)]
    rw [if_neg (by omega), if_neg fun h => h.2 ((h3 h.1).imp Eq.symm Eq.symm), if_pos hx, hp]
    simp
  · have hz : (encodeLoop (fun _ => encodeBit6 co x) p (p.length - 1) 0#64).getLsbD (p.length - 3)
        = false := by
      rw [encodeLoop_bit _ p hne hl, dif_pos (by omega)]
      have : p.length - 1 - (p.length - 3) = 2 := by omega
      simp [this, hpar, encodeBit6]
    unfold Spec.even
    rw [popcount_setBit _ _ _ (by omega) hz]
    generalize popcount (encodeLoop (fun _ => encodeBit6 co x) p (p.length - 1) 0#64) = n
    rcases Nat.mod_two_eq_zero_or_one n with h | h <;> simp [h]
    omega

example : ([.H, .C 1, .PAR, .BA 0] : List Desc6)[2]? = some .PAR ∧
    Accepts6 { parityCheckMode := true } [.H, .C 1, .PAR, .BA 0] {} := by
  unfold Accepts6; decide

/-- For the registered commands enabling the parity check changes nothing. -/
theorem C28_never (c : CmdType) (x : Extra6) (co : Coord6) (hc : lpddr6Patterns c ≠ []) :
    (lpddr6Patterns c)[2]? ≠ some .PAR ∧
    encode6 co (lpddr6Patterns c) { x with parityCheckMode := true }
      = encode6 co (lpddr6Patterns c) { x with parityCheckMode := false } := by
  obtain ⟨-, hp, hl⟩ := lpddr6_wellformed c
  have hl := hl hc
  refine ⟨hp, ?_⟩
  generalize lpddr6Patterns c = p at *
  have hb : ∀ f : Bool, (fun (_ : Nat) => encodeBit6 co { x with parityCheckMode := f })
      = fun _ => encodeBit6 co x := by
    intro f
    funext _ d
    cases d <;> rfl
  rw [List.getElem?_eq_getElem (by omega)] at hp
  simp only [ne_eq, Option.some.injEq] at hp
  simp only [encode6, hb, if_true, Bool.false_eq_true, if_false,
    List.getElem?_eq_getElem (show 2 < p.length by omega), if_neg hp]

example : lpddr6Patterns .ACT ≠ [] := by decide

/-- With parity enabled these accepted commands are sent with odd parity: a precharge of bank 1, an
activate of row 3 and a read of column 2. -/
theorem C28_violation :
    (∃ w, encode6 { bank := 1 } (lpddr6Patterns .PRE) { parityCheckMode := true } = .ok w ∧
      ¬ Spec.even w) ∧
    (∃ w, encode6 { row := 3 } (lpddr6Patterns .ACT) { parityCheckMode := true } = .ok w ∧
      ¬ Spec.even w) ∧
    (∃ w, encode6 { column := 2 } (lpddr6Patterns .RD)
      { parityCheckMode := true, currentBurstLength := 24 } = .ok w ∧ ¬ Spec.even w) := by
  unfold Spec.even
  refine ⟨⟨_, rfl, by decide +kernel⟩, ⟨_, rfl, by decide +kernel⟩, ⟨_, rfl, by decide +kernel⟩⟩

end DRAMPower
