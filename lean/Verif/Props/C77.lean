import Verif.Lemmas.Double
import Verif.Lemmas.RoundedToggling
import Verif.Props.C22

/-!
# C77: toggling rates in double precision

Reference: the beats of `Spec.Activity` as for C22, and exact products of their number with the rates. -/

namespace DRAMPower

namespace Spec

/-- What is reported if each wire is high, low and falls that often in `n` transferring beats, and is idle in `i` more. -/
def toggleFigures (width : Nat) (idleHigh : Bool) (i ones zeroes falls : Nat) : BusStats where
  ones := width * (ones + if idleHigh then i else 0)
  zeroes := width * (zeroes + if idleHigh then 0 else i)
  onesToZeroes := width * falls
  zeroesToOnes := width * falls
  bitChanges := 2 * (width * falls)

/-- `k` is `x` up to truncation and rounding in `n` beats. -/
def Counts (n k : Nat) (x : Rat) : Prop := |k - x| ≤ 1 + n / 2 ^ 51

end Spec
open Spec

variable {width datarate : Nat} {r d : Rate} {idle : ToggleIdle} {enabled : Bool} {h0 h : Toggling} {ops : List ToggleOp} {fl : Rat → Rat}

/-- The answer in terms of the beats. -/
theorem toggling_answer (hi : Toggling.init width datarate r d idle enabled = .ok h0) (hr : h0.run ops = .ok h)
    (hT : ToggleTimed datarate 0 ops) (t : Nat) (ht : lastCall datarate 0 ops ≤ t * datarate) (A : Arith) :
    A.togglingStats h t = (do
      let n := (Activity.after width datarate enabled ops).beats (some true) (t * datarate)
      let ones ← truncate (A.toggleOnes (finalRates r d idle ops).2.1.value n)
      let zeroes ← truncate (A.toggleZeroes (finalRates r d idle ops).2.1.value n)
      let falls ← truncate (A.toggleFalls (finalRates r d idle ops).1.value n)
      if (finalRates r d idle ops).2.2 = .invalid then .error (.exception "Invalid TogglingRateIdlePattern") else
      .ok (toggleFigures width (decide ((finalRates r d idle ops).2.2 = .H))
        ((Activity.after width datarate enabled ops).beats (some false) (t * datarate)) ones zeroes falls)) := by
  obtain ⟨i0, hw, hd⟩ := toggle_init hi
  have hi0 : h0.togglingRate = r ∧ h0.dutyCycle = d ∧ h0.idle = idle := by
    unfold Toggling.init at hi
    split at hi
    · cases hi
    split at hi
    · cases hi
    cases hi; exact ⟨rfl, rfl, rfl⟩
  have hrates := toggle_rates ops hr
  rw [hi0.1, hi0.2.1, hi0.2.2] at hrates
  rw [← hrates]
  obtain ⟨b, i1, hb, hw1, hd1⟩ := toggle_run ops i0 (Nat.zero_le 0) (by rw [hd]; exact hT) hr
  rw [hw, hd] at i1
  rw [hd] at hb
  have := i1.togglingStats A (t := t) (by rw [hd1, hd]; omega)
  rw [hw1, hw, hd1, hd] at this
  rw [this]
  simp only [toggleFigures, decide_eq_true_eq]
  rfl

/-- Every accepted history and every later query before beat 2^63: the answer exists unless the idle pattern is invalid, and each figure per
wire is the exact product of the rate and the number of transferring beats, up to less than one for truncation and `n / 2^51` for rounding. -/
theorem C77 (hf : Rounds fl) (hi : Toggling.init width datarate r d idle enabled = .ok h0) (hr : h0.run ops = .ok h)
    (hT : ToggleTimed datarate 0 ops) (t : Nat) (ht : lastCall datarate 0 ops ≤ t * datarate) (hb : t * datarate ≤ 2 ^ 63) :
    let n := (Activity.after width datarate enabled ops).beats (some true) (t * datarate)
    let i := (Activity.after width datarate enabled ops).beats (some false) (t * datarate)
    let rates := finalRates r d idle ops
    ((rates.2.2 = .invalid ↔ ¬ ∃ s, (Arith.rounded fl).togglingStats h t = .ok s)) ∧
    ∀ s, (Arith.rounded fl).togglingStats h t = .ok s → ∃ ones zeroes falls, s = toggleFigures width (decide (rates.2.2 = .H)) i ones zeroes falls ∧
      Counts n ones (n * rates.2.1.value) ∧ Counts n zeroes (n * (1 - rates.2.1.value)) ∧ Counts n falls (n * rates.1.value / 2) := by
  intro n i rates
  rw [toggling_answer hi hr hT t ht]
  have hn : n ≤ 2 ^ 63 := by
    have := beats_total (Activity.after width datarate enabled ops) (t * datarate)
    simp only [n]; omega
  have hnq : (n : Rat) ≤ 2 ^ 63 := by exact_mod_cast hn
  have hn0 : (0 : Rat) ≤ n := Nat.cast_nonneg n
  have small : (n : Rat) / 2 ^ 51 ≤ 2 ^ 12 := by
    rw [div_le_iff₀ (by norm_num)]
    linarith
  have v0 := rates.2.1.value_nonneg
  have v1 := rates.2.1.value_le
  have w0 := rates.1.value_nonneg
  have w1 := rates.1.value_le
  have p1 : (n : Rat) * rates.2.1.value ≤ n := by nlinarith
  have p2 : (n : Rat) * (1 - rates.2.1.value) ≤ n := by nlinarith
  have p3 : (n : Rat) * rates.1.value ≤ n := by nlinarith
  obtain ⟨a1, a2, a3⟩ := toggleOnes_near hf rates.2.1 n
  obtain ⟨z1, z2, z3⟩ := toggleZeroes_near hf rates.2.1 n
  obtain ⟨e1, e2, e3⟩ := toggleFalls_near hf rates.1 n
  obtain ⟨a, ha, ha1, ha2, -⟩ := truncate_ok a3 (by linarith)
  obtain ⟨z, hz, hz1, hz2, -⟩ := truncate_ok z3 (by linarith)
  obtain ⟨e, he, he1, he2, -⟩ := truncate_ok e3 (by linarith)
  simp only [n, rates] at ha hz he
  simp only [ha, hz, he, bind, Except.bind]
  constructor
  · by_cases hv : (finalRates r d idle ops).2.2 = .invalid
    · simp [hv, rates]
    · simp [hv, rates]
  · intro s hs
    split at hs
    · cases hs
    cases hs
    refine ⟨a, z, e, rfl, ?_, ?_, ?_⟩ <;>
    · unfold Counts
      rw [abs_le]
      constructor <;> linarith

/-- Up to 2^50 transferring beats: ones and zeroes never exceed the observed beats and miss at most two beats per wire; edges never exceed the
observed beats. -/
theorem C77_bound (hf : Rounds fl) (hi : Toggling.init width datarate r d idle enabled = .ok h0) (hr : h0.run ops = .ok h)
    (hT : ToggleTimed datarate 0 ops) (t : Nat) (ht : lastCall datarate 0 ops ≤ t * datarate)
    (hn : (Activity.after width datarate enabled ops).beats (some true) (t * datarate) < 2 ^ 50) (s : BusStats)
    (hs : (Arith.rounded fl).togglingStats h t = .ok s) :
    let observed := t * datarate - (Activity.after width datarate enabled ops).beats none (t * datarate)
    s.ones + s.zeroes ≤ width * observed ∧ width * observed ≤ s.ones + s.zeroes + 2 * width ∧
      s.bitChanges = s.onesToZeroes + s.zeroesToOnes ∧ s.bitChanges ≤ width * observed := by
  intro observed
  rw [toggling_answer hi hr hT t ht] at hs
  have tot := beats_total (Activity.after width datarate enabled ops) (t * datarate)
  have ho : observed = (Activity.after width datarate enabled ops).beats (some true) (t * datarate)
      + (Activity.after width datarate enabled ops).beats (some false) (t * datarate) := by
    simp only [observed]; omega
  rw [ho]
  generalize (Activity.after width datarate enabled ops).beats (some true) (t * datarate) = n at *
  generalize (Activity.after width datarate enabled ops).beats (some false) (t * datarate) = i at *
  generalize finalRates r d idle ops = rates at *
  have hnq : (n : Rat) < 2 ^ 50 := by exact_mod_cast hn
  have hn0 : (0 : Rat) ≤ n := Nat.cast_nonneg n
  have small : (n : Rat) / 2 ^ 51 < 1 / 2 := by
    rw [div_lt_iff₀ (by norm_num)]
    linarith
  have v0 := rates.2.1.value_nonneg
  have v1 := rates.2.1.value_le
  have w0 := rates.1.value_nonneg
  have w1 := rates.1.value_le
  have p1 : (n : Rat) * rates.2.1.value ≤ n := by nlinarith
  have p2 : (n : Rat) * (1 - rates.2.1.value) ≤ n := by nlinarith
  have p3 : (n : Rat) * rates.1.value ≤ n := by nlinarith
  obtain ⟨a1, a2, a3⟩ := toggleOnes_near hf rates.2.1 n
  obtain ⟨z1, z2, z3⟩ := toggleZeroes_near hf rates.2.1 n
  obtain ⟨e1, e2, e3⟩ := toggleFalls_near hf rates.1 n
  obtain ⟨a, ha, ha1, ha2, -⟩ := truncate_ok a3 (by linarith)
  obtain ⟨z, hz, hz1, hz2, -⟩ := truncate_ok z3 (by linarith)
  obtain ⟨e, he, he1, he2, -⟩ := truncate_ok e3 (by linarith)
  simp only [ha, hz, he, bind, Except.bind] at hs
  split at hs
  · cases hs
  cases hs
  have b1 : a + z ≤ n := by
    have : ((a + z : Nat) : Rat) < ((n + 1 : Nat) : Rat) := by push_cast; nlinarith
    have : a + z < n + 1 := by exact_mod_cast this
    omega
  have b2 : n ≤ a + z + 2 := by
    have : ((n : Nat) : Rat) < ((a + z + 3 : Nat) : Rat) := by push_cast; nlinarith
    have : n < a + z + 3 := by exact_mod_cast this
    omega
  have b3 : 2 * e ≤ n := by
    have : ((2 * e : Nat) : Rat) < ((n + 1 : Nat) : Rat) := by push_cast; linarith
    have : 2 * e < n + 1 := by exact_mod_cast this
    omega
  refine ⟨?_, ?_, ?_, ?_⟩
  · simp only [toggleFigures]
    rw [← Nat.mul_add]
    apply Nat.mul_le_mul_left
    split <;> omega
  · simp only [toggleFigures]
    rw [← Nat.mul_add, Nat.mul_comm 2 width, ← Nat.mul_add]
    apply Nat.mul_le_mul_left
    split <;> omega
  · simp only [toggleFigures]; omega
  · simp only [toggleFigures]
    rw [Nat.mul_left_comm]
    apply Nat.mul_le_mul_left
    omega

/-- How the transferred beats are split into commands makes no difference, whatever the arithmetic. -/
theorem C77_split (A : Arith) (hi : Toggling.init width datarate r d idle enabled = .ok h0) (before after : List ToggleOp) (t t' m n : Nat)
    (hm : t' * datarate = t * datarate + m) (hw : 0 < width)
    (hT : ToggleTimed datarate 0 (before ++ .transfer t (m * width) :: .transfer t' (n * width) :: after))
    (hr : h0.run (before ++ .transfer t ((m + n) * width) :: after) = .ok h) :
    ∃ h2, h0.run (before ++ .transfer t (m * width) :: .transfer t' (n * width) :: after) = .ok h2 ∧
      ∀ q, lastCall datarate 0 (before ++ .transfer t (m * width) :: .transfer t' (n * width) :: after) ≤ q * datarate →
        A.togglingStats h2 q = A.togglingStats h q := by
  obtain ⟨h2, hrs, hTo, hl, ea, er⟩ := toggle_split hi before after t t' m n hm hw hT hr
  refine ⟨h2, hrs, fun q hq => ?_⟩
  rw [toggling_answer hi hrs hT q hq, toggling_answer hi hr hTo q (Nat.le_trans hl hq), ea, er]

theorem floor_mono {x y : Rat} (h : x ≤ y) : x.floor ≤ y.floor := Rat.le_floor_iff.2 (le_trans (Rat.floor_le x) h)

theorem truncate_mono {x y : Rat} {a b : Nat} (h : x ≤ y) (ha : truncate x = .ok a) (hb : truncate y = .ok b) : a ≤ b := by
  unfold truncate at ha hb
  split at ha
  · cases ha
  split at hb
  · cases hb
  cases ha; cases hb
  have := floor_mono h
  omega

theorem beats_mono (a : Activity) (w : Option Bool) {T U : Nat} (h : T ≤ U) : a.beats w T ≤ a.beats w U := by
  induction U with
  | zero => rw [Nat.le_zero.1 h]
  | succ U ih =>
    rcases Nat.eq_or_lt_of_le h with rfl | hlt
    · exact Nat.le_refl _
    · exact Nat.le_trans (ih (by omega)) (Nat.le_add_right _ _)

/-- For every rounding that keeps the order: a later query never reports less. -/
theorem C77_monotone (hf : Rounds fl) (hm : ∀ x y, x ≤ y → fl x ≤ fl y) (hi : Toggling.init width datarate r d idle enabled = .ok h0)
    (hr : h0.run ops = .ok h) (hT : ToggleTimed datarate 0 ops) (t t' : Nat) (ht : lastCall datarate 0 ops ≤ t * datarate) (htt : t ≤ t')
    (s s' : BusStats) (hs : (Arith.rounded fl).togglingStats h t = .ok s) (hs' : (Arith.rounded fl).togglingStats h t' = .ok s') :
    s.ones ≤ s'.ones ∧ s.zeroes ≤ s'.zeroes ∧ s.onesToZeroes ≤ s'.onesToZeroes ∧ s.zeroesToOnes ≤ s'.zeroesToOnes ∧
      s.bitChanges ≤ s'.bitChanges := by
  have hT' : t * datarate ≤ t' * datarate := Nat.mul_le_mul_right _ htt
  rw [toggling_answer hi hr hT t ht] at hs
  rw [toggling_answer hi hr hT t' (Nat.le_trans ht hT')] at hs'
  have m1 := beats_mono (Activity.after width datarate enabled ops) (some true) hT'
  have m2 := beats_mono (Activity.after width datarate enabled ops) (some false) hT'
  generalize (Activity.after width datarate enabled ops).beats (some true) (t * datarate) = n at *
  generalize (Activity.after width datarate enabled ops).beats (some false) (t * datarate) = i at *
  generalize (Activity.after width datarate enabled ops).beats (some true) (t' * datarate) = n' at *
  generalize (Activity.after width datarate enabled ops).beats (some false) (t' * datarate) = i' at *
  generalize finalRates r d idle ops = rates at *
  have c : fl n ≤ fl n' := hm _ _ (by exact_mod_cast m1)
  have v0 := rates.2.1.value_nonneg
  have v1 := rates.2.1.value_le
  have w0 := rates.1.value_nonneg
  have d0 : 0 ≤ fl (1 - rates.2.1.value) := (rounds_bounds hf (by linarith)).2.2
  have k1 : (Arith.rounded fl).toggleOnes rates.2.1.value n ≤ (Arith.rounded fl).toggleOnes rates.2.1.value n' :=
    hm _ _ (mul_le_mul_of_nonneg_right c v0)
  have k2 : (Arith.rounded fl).toggleZeroes rates.2.1.value n ≤ (Arith.rounded fl).toggleZeroes rates.2.1.value n' :=
    hm _ _ (mul_le_mul_of_nonneg_right c d0)
  have k3 : (Arith.rounded fl).toggleFalls rates.1.value n ≤ (Arith.rounded fl).toggleFalls rates.1.value n' :=
    hm _ _ (by
      have : fl (fl n * rates.1.value) ≤ fl (fl n' * rates.1.value) := hm _ _ (mul_le_mul_of_nonneg_right c w0)
      show fl (fl n * rates.1.value) / 2 ≤ fl (fl n' * rates.1.value) / 2
      linarith)
  rcases e1 : truncate ((Arith.rounded fl).toggleOnes rates.2.1.value n) with _ | a
  · simp [e1, bind, Except.bind] at hs
  rcases e2 : truncate ((Arith.rounded fl).toggleZeroes rates.2.1.value n) with _ | z
  · simp [e1, e2, bind, Except.bind] at hs
  rcases e3 : truncate ((Arith.rounded fl).toggleFalls rates.1.value n) with _ | e
  · simp [e1, e2, e3, bind, Except.bind] at hs
  rcases f1 : truncate ((Arith.rounded fl).toggleOnes rates.2.1.value n') with _ | a'
  · simp [f1, bind, Except.bind] at hs'
  rcases f2 : truncate ((Arith.rounded fl).toggleZeroes rates.2.1.value n') with _ | z'
  · simp [f1, f2, bind, Except.bind] at hs'
  rcases f3 : truncate ((Arith.rounded fl).toggleFalls rates.1.value n') with _ | e'
  · simp [f1, f2, f3, bind, Except.bind] at hs'
  have q1 := truncate_mono k1 e1 f1
  have q2 := truncate_mono k2 e2 f2
  have q3 := truncate_mono k3 e3 f3
  by_cases hv : rates.2.2 = .invalid
  · simp [e1, e2, e3, bind, Except.bind, hv] at hs
  simp only [e1, e2, e3, f1, f2, f3, bind, Except.bind, hv, if_false, Except.ok.injEq] at hs hs'
  subst hs; subst hs'
  refine ⟨?_, ?_, Nat.mul_le_mul_left _ q3, Nat.mul_le_mul_left _ q3, Nat.mul_le_mul_left _ (Nat.mul_le_mul_left _ q3)⟩
  · exact Nat.mul_le_mul_left _ (by split <;> omega)
  · exact Nat.mul_le_mul_left _ (by split <;> omega)

theorem truncate_div (a b : Nat) (hb : 0 < b) (h : (a : Rat) / b < 2 ^ 64) : truncate ((a : Rat) / b) = .ok (a / b) := by
  have h0 : (0 : Rat) ≤ (a : Rat) / b := by positivity
  obtain ⟨n, hn, -, -, h3⟩ := truncate_ok h0 h
  rw [hn, h3]
  have h1 : ((a : Rat) / b).floor = ((a / b : Nat) : Int) := Rat.floor_natCast_div_natCast a b
  rw [h1]; rfl

/-- Without rounding it is the calculation of C22. -/
theorem C77_exact (hi : Toggling.init width datarate r d idle enabled = .ok h0) (hr : h0.run ops = .ok h)
    (hT : ToggleTimed datarate 0 ops) (t : Nat) (ht : lastCall datarate 0 ops ≤ t * datarate) (hb : t * datarate < 2 ^ 64) :
    ∀ s, Arith.exact.togglingStats h t = .ok s ↔ h.getStats t = .ok s := by
    intro s
    rw [toggling_answer hi hr hT t ht, C22 hi hr hT t ht]
    have tot := beats_total (Activity.after width datarate enabled ops) (t * datarate)
    generalize (Activity.after width datarate enabled ops).beats (some true) (t * datarate) = n at *
    generalize (Activity.after width datarate enabled ops).beats (some false) (t * datarate) = i at *
    generalize finalRates r d idle ops = rates at *
    have hnq : (n : Rat) < 2 ^ 64 := by exact_mod_cast (by omega : n < 2 ^ 64)
    have hn0 : (0 : Rat) ≤ n := Nat.cast_nonneg n
    have v0 := rates.2.1.value_nonneg
    have v1 := rates.2.1.value_le
    have w0 := rates.1.value_nonneg
    have w1 := rates.1.value_le
    have dq : (0 : Rat) < rates.2.1.den := by exact_mod_cast rates.2.1.pos
    have rq : (0 : Rat) < rates.1.den := by exact_mod_cast rates.1.pos
    have x1 : Arith.exact.toggleOnes rates.2.1.value n = ((n * rates.2.1.num : Nat) : Rat) / (rates.2.1.den : Nat) := by
      show (n : Rat) * (_ / _) = _
      push_cast
      ring
    have x2 : Arith.exact.toggleZeroes rates.2.1.value n = ((n * (rates.2.1.den - rates.2.1.num) : Nat) : Rat) / (rates.2.1.den : Nat) := by
      show (n : Rat) * (1 - _ / _) = _
      rw [Nat.cast_mul, Nat.cast_sub rates.2.1.le]
      field_simp
    have x3 : Arith.exact.toggleFalls rates.1.value n = ((n * rates.1.num : Nat) : Rat) / ((2 * rates.1.den : Nat) : Rat) := by
      show (n : Rat) * (_ / _) / 2 = _
      push_cast
      field_simp
    have y1 : Arith.exact.toggleOnes rates.2.1.value n < 2 ^ 64 := by
      show (n : Rat) * rates.2.1.value < _
      nlinarith
    have y2 : Arith.exact.toggleZeroes rates.2.1.value n < 2 ^ 64 := by
      show (n : Rat) * (1 - rates.2.1.value) < _
      nlinarith
    have y3 : Arith.exact.toggleFalls rates.1.value n < 2 ^ 64 := by
      show (n : Rat) * rates.1.value / 2 < _
      nlinarith
    rw [x1] at y1
    rw [x2] at y2
    rw [x3] at y3
    simp only [x1, x2, x3, truncate_div _ _ rates.2.1.pos y1, truncate_div _ _ rates.2.1.pos y2,
      truncate_div _ _ (Nat.mul_pos two_pos rates.1.pos) y3, bind, Except.bind]
    by_cases hv : rates.2.2 = .invalid
    · simp [hv]
    · rw [if_neg hv]
      have : (rates.2.2 == ToggleIdle.H) = decide (rates.2.2 = .H) := rfl
      simp only [Except.ok.injEq, hv, ne_eq, not_false_eq_true, true_and, this]
      exact eq_comm

/-- The `double` nearest to 0.3 (`5404319552844595 / 2^54`, a little less). -/
def rate03 : Rate := ⟨5404319552844595, 2 ^ 54, by decide, by decide⟩

/-- The `double` nearest to 0.29 (`5224175567749775 / 2^54`, a little less). -/
def rate029 : Rate := ⟨5224175567749775, 2 ^ 54, by decide, by decide⟩

/-- The ones reported for `n` beats of one wire that idles low, with duty cycle `d`: computed exactly and in `double`. -/
def c77Ones (d : Rate) (n : Nat) : Option (Nat × Nat) :=
  match Toggling.init 1 1 d d .L with
  | .ok h0 => match h0.run [.transfer 0 n] with
    | .ok h => match h.getStats n, (Arith.rounded Arith.double).togglingStats h n with
      | .ok a, .ok b => some (a.ones, b.ones)
      | _, _ => none
    | .error _ => none
  | .error _ => none

/-- The truncated products of C22 are not met exactly: ten beats with duty cycle 0.3, where the product of the `double` is less than three,
are reported as three ones, since the product is rounded before it is truncated. A hundred beats with duty cycle 0.29 are reported as 28 ones. -/
theorem C77_notTruncated : rate03.value = Arith.double (3 / 10) ∧ rate029.value = Arith.double (29 / 100) ∧
    c77Ones rate03 10 = some (2, 3) ∧ c77Ones rate029 100 = some (28, 28) := by
  decide +kernel

/-- Two transfers, a pause, a change of rates, a transfer. -/
def c77Ops : List ToggleOp :=
  [.transfer 1 80, .transfer 6 160, .disable 20, .enable 30, .rates rate029 rate03 .H, .transfer 31 64]

/-- The hypotheses of C77 are met by this history, and this is the answer. -/
example : ToggleTimed 2 0 c77Ops ∧ lastCall 2 0 c77Ops ≤ 40 * 2 ∧ Rounds Arith.double ∧
    (match Toggling.init 8 2 rate03 rate029 .L true with
      | .ok h0 => match h0.run c77Ops with
        | .ok h => (Arith.rounded Arith.double).togglingStats h 40
        | .error e => .error e
      | .error e => .error e) = .ok { ones := 264, zeroes := 208, bitChanges := 80, onesToZeroes := 40, zeroesToOnes := 40 } :=
  ⟨by simp [c77Ops, ToggleTimed], by decide, Arith.double_rounds, by decide +kernel⟩

end DRAMPower
