import Verif.Lemmas.Toggling

/-!
# C22: toggling-rate statistics

Reference: `Spec.Activity`, the state (off, idle, transferring) of every beat of the bus. -/

namespace DRAMPower

namespace Spec

/-- The rates in force at the end: those of the last change, if any. -/
def finalRates (r d : Rate) (i : ToggleIdle) : List ToggleOp → Rate × Rate × ToggleIdle
  | [] => (r, d, i)
  | .rates r d i :: ops => finalRates r d i ops
  | _ :: ops => finalRates r d i ops

/-- A history is acceptable iff every transfer is a whole number of beats and finds the bus not transferring. -/
def acceptable (width datarate : Nat) (a : Activity) : List ToggleOp → Prop
  | [] => True
  | .transfer t bits :: ops => bits % width = 0 ∧ a (t * datarate) ≠ some true ∧
      acceptable width datarate (a.drive width datarate (.transfer t bits)) ops
  | op :: ops => acceptable width datarate (a.drive width datarate op) ops

/-- Bits transferred by a history. -/
def transferred : List ToggleOp → Nat
  | [] => 0
  | .transfer _ bits :: ops => bits + transferred ops
  | _ :: ops => transferred ops

/-- Beat at which the last transfer ends. -/
def transfersEnd (width datarate : Nat) : List ToggleOp → Nat
  | [] => 0
  | .transfer t bits :: ops => max (t * datarate + bits / width) (transfersEnd width datarate ops)
  | _ :: ops => transfersEnd width datarate ops

end Spec
open Spec

section
variable {h : Toggling} {a : Activity} {base : Nat}

theorem toggle_accepts (i : ToggleInv h a base) {t bits : Nat} (ht : base ≤ t * h.datarate) :
    (∃ h', h.incBits t bits = .ok h') ↔ bits % h.width = 0 ∧ a (t * h.datarate) ≠ some true := by
  unfold Toggling.incBits
  rw [if_neg (by have := i.wpos; omega)]
  by_cases hb : bits % h.width = 0
  rotate_left
  · simp [hb]
  rw [if_neg (by simp [hb])]
  unfold Toggling.incBurst
  cases hen : h.enabled with
  | false =>
    obtain ⟨hh, _, hn⟩ := i.off hen
    simp [hb, hn _ ht, hh]
  | true =>
    rw [i.on hen _ ht]
    cases hh : h.handled with
    | true => simp [hb]
    | false =>
      by_cases hc : t * h.datarate < h.lastLength + h.lastLoad
      · have : t * h.datarate < h.lastLoad + h.lastLength := by omega
        simp [hc, this]
      · have : ¬ t * h.datarate < h.lastLoad + h.lastLength := by omega
        simp [hc, this, hb]

theorem toggle_run_accepts : ∀ (ops : List ToggleOp) {h : Toggling} {a : Activity} {base lo : Nat}, ToggleInv h a base → base ≤ lo →
    ToggleTimed h.datarate lo ops → ((∃ h', h.run ops = .ok h') ↔ acceptable h.width h.datarate a ops) := by
  intro ops
  induction ops with
  | nil => intros; simp [Toggling.run, acceptable]
  | cons op ops ih =>
    intro h a base lo i hb ht
    cases op with
    | transfer t bits =>
      have acc := toggle_accepts i (t := t) (bits := bits) (by have := ht.1; omega)
      unfold Toggling.run acceptable
      simp only [Toggling.step]
      cases hr : h.incBits t bits with
      | error e =>
        rw [hr] at acc
        simp only [reduceCtorEq, exists_false, false_iff] at acc ⊢
        intro hc; exact acc ⟨hc.1, hc.2.1⟩
      | ok h1 =>
        rw [hr] at acc
        obtain ⟨b1, i1, h2, h3, h4⟩ := toggle_transfer i (by have := ht.1; omega) hr
        have := ih i1 h2 (by rw [h4]; exact ht.2)
        rw [h3, h4] at this
        simp only
        rw [this]
        have := acc.1 ⟨_, rfl⟩
        exact ⟨fun x => ⟨this.1, this.2, x⟩, fun x => x.2.2⟩
    | disable t =>
      obtain ⟨b1, i1, h2, h3, h4⟩ := toggle_disable i (t := t) (by have := ht.1; omega)
      have := ih i1 h2 (by rw [h4]; exact ht.2)
      rw [h3, h4] at this
      exact this
    | enable t =>
      obtain ⟨b1, i1, h2, h3, h4⟩ := toggle_enable i (t := t) (by have := ht.1; omega)
      have := ih i1 h2 (by rw [h4]; exact ht.2)
      rw [h3, h4] at this
      exact this
    | rates r d j =>
      exact ih (h := h.setRates r d j) (a := a) (base := base) (lo := lo) { wpos := i.wpos, dpos := i.dpos, load := i.load, off := i.off, on := i.on, cnt := i.cnt, dis := i.dis } hb ht

theorem toggle_rates : ∀ (ops : List ToggleOp) {h h' : Toggling}, h.run ops = .ok h' →
    (h'.togglingRate, h'.dutyCycle, h'.idle) = finalRates h.togglingRate h.dutyCycle h.idle ops := by
  intro ops
  induction ops with
  | nil => intro h h' hr; cases hr; rfl
  | cons op ops ih =>
    intro h h' hr
    unfold Toggling.run at hr
    split at hr
    rotate_left
    · cases hr
    rename_i h1 hs
    have := ih hr
    rw [this]
    cases op with
    | transfer t bits =>
      simp only [finalRates]
      have : h1.togglingRate = h.togglingRate ∧ h1.dutyCycle = h.dutyCycle ∧ h1.idle = h.idle := by
        simp only [Toggling.step, Toggling.incBits, Toggling.incBurst] at hs
        repeat' (split at hs)
        all_goals first
          | cases hs; exact ⟨rfl, rfl, rfl⟩
          | cases hs
      rw [this.1, this.2.1, this.2.2]
    | disable t =>
      cases hs
      simp only [finalRates, Toggling.disable]
      cases h.enabled <;> simp
    | enable t =>
      cases hs
      simp only [finalRates, Toggling.enable]
      cases h.enabled <;> simp
    | rates r d j => cases hs; rfl

end

variable {width datarate : Nat} {r d : Rate} {idle : ToggleIdle} {enabled : Bool} {h0 h : Toggling} {ops : List ToggleOp}

/-- For every accepted history of transfers, phases and rate changes and every query at or after its last call: the
answer is the closed form of the rates in force and of the numbers of transferring and idle beats. -/
theorem C22 (hi : Toggling.init width datarate r d idle enabled = .ok h0) (hr : h0.run ops = .ok h)
    (hT : ToggleTimed datarate 0 ops) (t : Nat) (ht : lastCall datarate 0 ops ≤ t * datarate) (s : BusStats) :
    h.getStats t = .ok s ↔ (finalRates r d idle ops).2.2 ≠ .invalid ∧
      s = toggleStats width (finalRates r d idle ops).1 (finalRates r d idle ops).2.1 ((finalRates r d idle ops).2.2 == .H)
        ((Activity.after width datarate enabled ops).beats (some true) (t * datarate))
        ((Activity.after width datarate enabled ops).beats (some false) (t * datarate)) := by
  obtain ⟨i0, hw, hd⟩ := toggle_init hi
  have hi0 : h0.togglingRate = r ∧ h0.dutyCycle = d ∧ h0.idle = idle := by
    unfold Toggling.init at hi
    split at hi
    · cases hi
    split at hi
    · cases hi
    cases hi; exact ⟨rfl, rfl, rfl⟩
  have hrates := toggle_rates ops hr
  rw [hi0.1, hi0.2.1, hi0.2.2] at hrates
  rw [← hrates]
  obtain ⟨b, i1, hb, hw1, hd1⟩ := toggle_run ops i0 (Nat.zero_le 0) (by rw [hd]; exact hT) hr
  rw [hw, hd] at i1
  rw [hd] at hb
  have key : ∀ s, h.getStats t = .ok s → h.idle ≠ .invalid ∧ s = toggleStats width h.togglingRate h.dutyCycle (h.idle == .H)
      ((Activity.after width datarate enabled ops).beats (some true) (t * datarate))
      ((Activity.after width datarate enabled ops).beats (some false) (t * datarate)) := by
    intro s hs
    have := i1.getStats (t := t) (by rw [hd1, hd]; omega) hs
    rw [hw1, hw, hd1, hd] at this
    exact this
  constructor
  · exact key s
  · rintro ⟨h1, rfl⟩
    have : ∃ s, h.getStats t = .ok s := by
      unfold Toggling.getStats
      cases e : h.idle with
      | invalid => exact absurd e h1
      | L => exact ⟨_, rfl⟩
      | H => exact ⟨_, rfl⟩
    obtain ⟨s, hs⟩ := this
    rw [hs, (key s hs).2]

/-- A history is accepted iff every transfer is a whole number of beats and starts while no transfer is going on. -/
theorem C22_accept (hi : Toggling.init width datarate r d idle enabled = .ok h0) (hT : ToggleTimed datarate 0 ops) :
    (∃ h, h0.run ops = .ok h) ↔ acceptable width datarate (fun _ => if enabled then some false else none) ops := by
  obtain ⟨i0, hw, hd⟩ := toggle_init hi
  have := toggle_run_accepts ops i0 (Nat.zero_le 0) (by rw [hd]; exact hT)
  rw [hw, hd] at this
  exact this

theorem lastCall_append (dr lo : Nat) (xs ys : List ToggleOp) : lastCall dr lo (xs ++ ys) = lastCall dr (lastCall dr lo xs) ys := by
  induction xs generalizing lo with
  | nil => rfl
  | cons x xs ih => cases x <;> exact ih _

theorem toggleTimed_append (dr lo : Nat) (xs ys : List ToggleOp) :
    ToggleTimed dr lo (xs ++ ys) ↔ ToggleTimed dr lo xs ∧ ToggleTimed dr (lastCall dr lo xs) ys := by
  induction xs generalizing lo with
  | nil => simp [ToggleTimed, lastCall]
  | cons x xs ih => cases x <;> simp [ToggleTimed, lastCall, ih, and_assoc]

theorem finalRates_append (r d : Rate) (i : ToggleIdle) (xs ys : List ToggleOp) :
    finalRates r d i (xs ++ ys) = finalRates (finalRates r d i xs).1 (finalRates r d i xs).2.1 (finalRates r d i xs).2.2 ys := by
  induction xs generalizing r d i with
  | nil => rfl
  | cons x xs ih => cases x <;> exact ih _ _ _

theorem acceptable_append (a : Activity) (xs ys : List ToggleOp) : acceptable width datarate a (xs ++ ys) ↔
    acceptable width datarate a xs ∧ acceptable width datarate (xs.foldl (Activity.drive width datarate) a) ys := by
  induction xs generalizing a with
  | nil => simp [acceptable]
  | cons x xs ih => cases x <;> simp [acceptable, ih, and_assoc]

/-- From the last call on the model stays off or stays on. -/
theorem off_stays (hi : Toggling.init width datarate r d idle enabled = .ok h0) (hr : h0.run ops = .ok h)
    (hT : ToggleTimed datarate 0 ops) {k k' : Nat} (hk : lastCall datarate 0 ops ≤ k) (hk' : lastCall datarate 0 ops ≤ k') :
    Activity.after width datarate enabled ops k = none ↔ Activity.after width datarate enabled ops k' = none := by
  obtain ⟨i0, hw, hd⟩ := toggle_init hi
  obtain ⟨b, i1, hb, hw1, hd1⟩ := toggle_run ops i0 (Nat.zero_le 0) (by rw [hd]; exact hT) hr
  rw [hw, hd] at i1
  rw [hd] at hb
  cases hen : h.enabled with
  | false =>
    have := (i1.off hen).2.2
    exact ⟨fun _ => this k' (by omega), fun _ => this k (by omega)⟩
  | true =>
    have := i1.on hen
    have e1 := this k (by omega)
    have e2 := this k' (by omega)
    unfold Activity.after
    rw [e1, e2]; simp

/-- The split history is accepted and has the same activity, the same rates and no earlier last call. -/
theorem toggle_split (hi : Toggling.init width datarate r d idle enabled = .ok h0) (before after : List ToggleOp) (t t' m n : Nat)
    (hm : t' * datarate = t * datarate + m) (hw : 0 < width)
    (hT : ToggleTimed datarate 0 (before ++ .transfer t (m * width) :: .transfer t' (n * width) :: after))
    (hr : h0.run (before ++ .transfer t ((m + n) * width) :: after) = .ok h) :
    ∃ h2, h0.run (before ++ .transfer t (m * width) :: .transfer t' (n * width) :: after) = .ok h2 ∧
      ToggleTimed datarate 0 (before ++ .transfer t ((m + n) * width) :: after) ∧
      lastCall datarate 0 (before ++ .transfer t ((m + n) * width) :: after) ≤
        lastCall datarate 0 (before ++ .transfer t (m * width) :: .transfer t' (n * width) :: after) ∧
      Activity.after width datarate enabled (before ++ .transfer t (m * width) :: .transfer t' (n * width) :: after)
        = Activity.after width datarate enabled (before ++ .transfer t ((m + n) * width) :: after) ∧
      finalRates r d idle (before ++ .transfer t (m * width) :: .transfer t' (n * width) :: after)
        = finalRates r d idle (before ++ .transfer t ((m + n) * width) :: after) := by
  have hT1 := (toggleTimed_append _ _ _ _).1 hT
  obtain ⟨hTb, h1, h2, hTa⟩ := hT1
  have timedMono : ∀ {lo lo'} (xs : List ToggleOp), lo' ≤ lo → ToggleTimed datarate lo xs → ToggleTimed datarate lo' xs := by
    intro lo lo' xs
    induction xs with
    | nil => intros; trivial
    | cons x xs ih => intro h1 h2; cases x <;> first | exact ⟨by have := h2.1; omega, h2.2⟩ | exact ih h1 h2
  have lastMono : ∀ {lo lo'} (xs : List ToggleOp), lo' ≤ lo → lastCall datarate lo' xs ≤ lastCall datarate lo xs := by
    intro lo lo' xs
    induction xs with
    | nil => intro h; exact h
    | cons x xs ih => intro h; cases x <;> first | exact Nat.le_refl _ | exact ih h
  have hTo : ToggleTimed datarate 0 (before ++ .transfer t ((m + n) * width) :: after) :=
    (toggleTimed_append _ _ _ _).2 ⟨hTb, h1, timedMono _ h2 hTa⟩
  have acc := (C22_accept hi hTo).1 ⟨h, hr⟩
  rw [acceptable_append] at acc
  obtain ⟨accB, -, acc1, accA⟩ := acc
  obtain ⟨hb, hrb⟩ := (C22_accept hi hTb).2 accB
  have off := off_stays hi hrb hTb (k := t * datarate) (k' := t' * datarate) h1 (by rw [hm]; omega)
  have htr : ∀ k, t * datarate ≤ k → Activity.after width datarate enabled before k ≠ some true := by
    obtain ⟨i0, hw0, hd0⟩ := toggle_init hi
    obtain ⟨b, i1, hbb, hw1, hd1⟩ := toggle_run before i0 (Nat.zero_le 0) (by rw [hd0]; exact hTb) hrb
    rw [hw0, hd0] at i1
    rw [hd0] at hbb
    intro k hk
    cases hen : hb.enabled with
    | false => unfold Activity.after; rw [(i1.off hen).2.2 k (by omega)]; simp
    | true =>
      have e1 := i1.on hen (t * datarate) (by omega)
      have e2 := i1.on hen k (by omega)
      rw [e1] at acc1
      unfold Activity.after
      rw [e2]
      intro hc
      apply acc1
      simp only [Option.some.injEq, Bool.and_eq_true, decide_eq_true_eq] at hc ⊢
      exact ⟨hc.1, by omega⟩
  have hact : ((Activity.after width datarate enabled before).drive width datarate (.transfer t (m * width))).drive width datarate (.transfer t' (n * width))
      = (Activity.after width datarate enabled before).drive width datarate (.transfer t ((m + n) * width)) := by
    generalize Activity.after width datarate enabled before = a at *
    funext k
    simp only [Activity.drive, Nat.mul_div_cancel _ hw]
    by_cases ha : a (t * datarate) = none
    · have := off.1 ha
      simp [ha, this]
    · have ha' : a (t' * datarate) ≠ none := fun h => ha (off.2 h)
      simp only [ne_eq, ha, not_false_eq_true, true_and, hm] at ha' ⊢
      rw [if_neg (by omega : ¬ (t * datarate ≤ t * datarate + m ∧ t * datarate + m < t * datarate + m))]
      simp only [ha', not_false_eq_true, true_and]
      by_cases h1 : t * datarate + m ≤ k ∧ k < t * datarate + m + n
      · rw [if_pos h1, if_pos (by omega)]
      · rw [if_neg h1]
        by_cases h2 : t * datarate ≤ k ∧ k < t * datarate + m
        · rw [if_pos h2, if_pos (by omega)]
        · rw [if_neg h2, if_neg (by omega)]
  obtain ⟨hs, hrs⟩ := (C22_accept hi hT).2 (by
    rw [acceptable_append]
    refine ⟨accB, by simp, acc1, by simp, ?_, ?_⟩
    · simp only [Activity.drive]
      rw [if_neg (by rw [hm, Nat.mul_div_cancel _ hw]; omega)]
      exact htr _ (by omega)
    · have : acceptable width datarate ((Activity.after width datarate enabled before).drive width datarate (.transfer t ((m + n) * width))) after := accA
      rw [← hact] at this
      exact this)
  refine ⟨hs, hrs, hTo, ?_, ?_, ?_⟩
  · rw [lastCall_append, lastCall_append]
    exact lastMono after h2
  · unfold Activity.after at hact ⊢
    rw [List.foldl_append, List.foldl_append, List.foldl_cons, List.foldl_cons, List.foldl_cons, hact]
  · rw [finalRates_append, finalRates_append]; rfl

/-- Transferring `m + n` beats at once or as two adjacent transfers makes no difference: anywhere in any history, the
split history is accepted if the original one is, and every later query gets the same answer. -/
theorem C22_split (hi : Toggling.init width datarate r d idle enabled = .ok h0) (before after : List ToggleOp) (t t' m n : Nat)
    (hm : t' * datarate = t * datarate + m) (hw : 0 < width)
    (hT : ToggleTimed datarate 0 (before ++ .transfer t (m * width) :: .transfer t' (n * width) :: after))
    (hr : h0.run (before ++ .transfer t ((m + n) * width) :: after) = .ok h) :
    ∃ h2, h0.run (before ++ .transfer t (m * width) :: .transfer t' (n * width) :: after) = .ok h2 ∧
      ∀ q, lastCall datarate 0 (before ++ .transfer t (m * width) :: .transfer t' (n * width) :: after) ≤ q * datarate →
        ∀ s, h2.getStats q = .ok s ↔ h.getStats q = .ok s := by
  obtain ⟨h2, hrs, hTo, hl, ea, er⟩ := toggle_split hi before after t t' m n hm hw hT hr
  refine ⟨h2, hrs, fun q hq s => ?_⟩
  rw [C22 hi hrs hT q hq, C22 hi hr hTo q (Nat.le_trans hl hq), ea, er]

/-- Ones plus zeroes never exceed the observed beats times the width, and truncation loses at most one beat per wire. -/
theorem C22_bound (hi : Toggling.init width datarate r d idle enabled = .ok h0) (hr : h0.run ops = .ok h)
    (hT : ToggleTimed datarate 0 ops) (t : Nat) (ht : lastCall datarate 0 ops ≤ t * datarate) (s : BusStats) (hs : h.getStats t = .ok s) :
    let observed := t * datarate - (Activity.after width datarate enabled ops).beats none (t * datarate)
    s.ones + s.zeroes ≤ width * observed ∧ width * observed ≤ s.ones + s.zeroes + width ∧
      s.bitChanges = s.onesToZeroes + s.zeroesToOnes ∧ s.bitChanges ≤ width * observed := by
  intro observed
  obtain ⟨-, rfl⟩ := (C22 hi hr hT t ht s).1 hs
  have tot := beats_total (Activity.after width datarate enabled ops) (t * datarate)
  have ho : observed = (Activity.after width datarate enabled ops).beats (some true) (t * datarate)
      + (Activity.after width datarate enabled ops).beats (some false) (t * datarate) := by
    simp only [observed]; omega
  rw [ho]
  generalize (Activity.after width datarate enabled ops).beats (some true) (t * datarate) = n
  generalize (Activity.after width datarate enabled ops).beats (some false) (t * datarate) = i
  generalize (finalRates r d idle ops).1 = R
  generalize (finalRates r d idle ops).2.1 = D
  have hD := D.pos
  have hle := D.le
  have sum : n * D.num / D.den + n * (D.den - D.num) / D.den ≤ n ∧ n ≤ n * D.num / D.den + n * (D.den - D.num) / D.den + 1 := by
    have e : n * D.num + n * (D.den - D.num) = n * D.den := by rw [← Nat.mul_add, Nat.add_sub_cancel' hle]
    have m1 := Nat.div_add_mod (n * D.num) D.den
    have m2 := Nat.div_add_mod (n * (D.den - D.num)) D.den
    have l1 := Nat.mod_lt (n * D.num) hD
    have l2 := Nat.mod_lt (n * (D.den - D.num)) hD
    generalize n * D.num / D.den = x at *
    generalize n * (D.den - D.num) / D.den = y at *
    constructor
    · have : D.den * (x + y) ≤ D.den * n := by rw [Nat.mul_add, Nat.mul_comm D.den n]; omega
      exact Nat.le_of_mul_le_mul_left this hD
    · have : D.den * n < D.den * (x + y + 2) := by
        rw [Nat.mul_add, Nat.mul_add, Nat.mul_comm D.den n]; omega
      have := Nat.lt_of_mul_lt_mul_left this
      omega
  have tog : 2 * (n * R.num / (2 * R.den)) ≤ n := by
    have hR := R.pos
    have h1 : n * R.num ≤ n * R.den := Nat.mul_le_mul_left _ R.le
    have m1 := Nat.div_mul_le_self (n * R.num) (2 * R.den)
    generalize n * R.num / (2 * R.den) = x at *
    have : R.den * (2 * x) ≤ R.den * n := by
      calc R.den * (2 * x) = x * (2 * R.den) := by
            rw [Nat.mul_left_comm, Nat.mul_comm R.den x, Nat.mul_left_comm]
        _ ≤ n * R.num := m1
        _ ≤ n * R.den := h1
        _ = R.den * n := Nat.mul_comm _ _
    exact Nat.le_of_mul_le_mul_left this hR
  refine ⟨?_, ?_, ?_, ?_⟩
  · simp only [toggleStats]
    rw [← Nat.mul_add]
    apply Nat.mul_le_mul_left
    split <;> omega
  · simp only [toggleStats]
    rw [← Nat.mul_add, ← Nat.mul_succ]
    apply Nat.mul_le_mul_left
    split <;> omega
  · simp only [toggleStats]; omega
  · simp only [toggleStats]
    rw [Nat.mul_left_comm]
    apply Nat.mul_le_mul_left
    omega

/-- Only transfers and rate changes (no phase change). -/
def ToggleOp.noSwitch : ToggleOp → Prop
  | .disable _ => False
  | .enable _ => False
  | _ => True

/-- While never switched off, a query after the end of all transfers sees exactly `transferred bits / width` transferring
beats; the rest is idle. -/
theorem C22_all_bits (hi : Toggling.init width datarate r d idle true = .ok h0) (hr : h0.run ops = .ok h)
    (hT : ToggleTimed datarate 0 ops) (hsw : ∀ op ∈ ops, op.noSwitch) (T : Nat) (hend : transfersEnd width datarate ops ≤ T) :
    width * (Activity.after width datarate true ops).beats (some true) T = transferred ops ∧
      (Activity.after width datarate true ops).beats none T = 0 := by
  have hw : 0 < width := by have := (toggle_init hi).1.wpos; rwa [(toggle_init hi).2.1] at this
  have acc := (C22_accept hi hT).1 ⟨h, hr⟩
  -- generalise over the activity: nothing but idle from `lo` on, or up to the end of the current transfer
  have key : ∀ (ops : List ToggleOp) (a : Activity) (lo e : Nat), (∀ k, a k ≠ none) → (∀ k, lo ≤ k → (a k = some true ↔ k < e)) →
      ToggleTimed datarate lo ops → (∀ op ∈ ops, op.noSwitch) → acceptable width datarate a ops → e ≤ T → transfersEnd width datarate ops ≤ T →
      width * (ops.foldl (Activity.drive width datarate) a).beats (some true) T = width * a.beats (some true) T + transferred ops ∧
        ∀ k, ops.foldl (Activity.drive width datarate) a k ≠ none := by
    intro ops
    induction ops with
    | nil => intro a lo e hn _ _ _ _ _ _; exact ⟨rfl, hn⟩
    | cons op ops ih =>
      intro a lo e hn hact hT hsw hacc he hend
      cases op with
      | disable t => exact absurd (hsw (.disable t) (by simp)) (by simp [ToggleOp.noSwitch])
      | enable t => exact absurd (hsw (.enable t) (by simp)) (by simp [ToggleOp.noSwitch])
      | rates r d j => exact ih a lo e hn hact hT (fun o ho => hsw o (by simp [ho])) hacc he hend
      | transfer t bits =>
        obtain ⟨hb, hna, hacc⟩ := hacc
        obtain ⟨hlo, hT⟩ := hT
        obtain ⟨L, hL⟩ : ∃ L, bits / width = L := ⟨_, rfl⟩
        have hend1 : t * datarate + L ≤ T := by rw [← hL]; exact Nat.le_trans (Nat.le_max_left _ _) hend
        have hend2 : transfersEnd width datarate ops ≤ T := Nat.le_trans (Nat.le_max_right _ _) hend
        have hne : ¬ t * datarate < e := fun hc => hna ((hact _ hlo).2 hc)
        have d1 : ∀ k, a.drive width datarate (.transfer t bits) k = if t * datarate ≤ k ∧ k < t * datarate + L then some true else a k := by
          intro k; rw [← hL]; simp [Activity.drive, hn]
        obtain ⟨r1, r2⟩ := ih (a.drive width datarate (.transfer t bits)) (t * datarate) (t * datarate + L)
          (fun k => by rw [d1]; split <;> simp [hn])
          (fun k hk => by
            rw [d1]
            by_cases hk2 : k < t * datarate + L
            · simp [hk, hk2]
            · rw [if_neg (by omega), hact k (by omega)]; omega)
          hT (fun o ho => hsw o (by simp [ho])) hacc hend1 hend2
        refine ⟨?_, r2⟩
        rw [List.foldl_cons, r1]
        simp only [transferred]
        have c1 : (a.drive width datarate (.transfer t bits)).beats (some true) (t * datarate) = a.beats (some true) (t * datarate) :=
          beats_congr fun k hk => by rw [d1, if_neg (by omega)]
        have c2 := beats_span (a := a.drive width datarate (.transfer t bits)) (w := some true) (v := some true) (lo := t * datarate)
          (hi := t * datarate + L) (by omega) fun k h1 h2 => by rw [d1, if_pos ⟨h1, h2⟩]
        have afalse : ∀ k, t * datarate ≤ k → a k = some false := by
          intro k hk
          have h1 : ¬ a k = some true := by rw [hact k (by omega)]; omega
          have h2 := hn k
          rcases hk : a k with _ | _ | _
          · exact absurd hk h2
          · rfl
          · exact absurd hk h1
        have c3 := beats_span (a := a.drive width datarate (.transfer t bits)) (w := some true) (v := some false) (lo := t * datarate + L)
          (hi := T) hend1 fun k h1 h2 => by rw [d1, if_neg (by omega), afalse k (by omega)]
        have c4 := beats_span (a := a) (w := some true) (v := some false) (lo := t * datarate) (hi := T) (by omega) fun k h1 h2 => afalse k h1
        simp only [reduceCtorEq, if_false, if_true, Option.some.injEq, Nat.add_zero, Bool.false_eq_true] at c2 c3 c4
        rw [c3, c2, c1, c4, Nat.mul_add]
        have := Nat.div_add_mod bits width
        rw [hb, hL] at this
        have e2 : t * datarate + L - t * datarate = L := by omega
        rw [e2]
        omega
  have := key ops (fun _ => some false) 0 0 (by simp) (by simp) hT hsw acc (Nat.zero_le _) hend
  constructor
  · have h1 := this.1
    have h0 := beats_span (a := fun _ => some false) (w := some true) (v := some false) (lo := 0) (hi := T) (Nat.zero_le _) fun _ _ _ => rfl
    simp only [reduceCtorEq, if_false, Option.some.injEq, Activity.beats, Nat.add_zero, Bool.false_eq_true] at h0
    rw [h0] at h1
    show width * (ops.foldl (Activity.drive width datarate) fun _ => some false).beats (some true) T = _
    rw [h1]; simp
  · have h2 := this.2
    have : ∀ T, (Activity.after width datarate true ops).beats none T = 0 := by
      intro T
      induction T with
      | zero => rfl
      | succ T ih =>
        rw [Activity.beats, ih]
        have : Activity.after width datarate true ops T ≠ none := h2 T
        simp [this]
    exact this T

/-- Half the time ones, toggling every fourth beat, idle low. -/
def exampleRates : Rate × Rate := (⟨1, 4, by decide, by decide⟩, ⟨1, 2, by decide, by decide⟩)

/-- A history with a phase switched off and a transfer cut by it. -/
def exampleToggles : List ToggleOp :=
  [.transfer 1 32, .transfer 3 32, .disable 4, .transfer 5 64, .enable 8, .transfer 10 48]

example : ∃ h0 h s, Toggling.init 8 2 exampleRates.1 exampleRates.2 .L true = .ok h0 ∧ h0.run exampleToggles = .ok h ∧
    ToggleTimed 2 0 exampleToggles ∧ lastCall 2 0 exampleToggles ≤ 20 * 2 ∧ h.getStats 20 = .ok s ∧
    s = { ones := 48, zeroes := 208, onesToZeroes := 8, zeroesToOnes := 8, bitChanges := 16 } :=
  ⟨_, _, _, rfl, rfl, by simp [ToggleTimed, exampleToggles], by decide, rfl, by decide⟩

/-- A case of `C22_split`: eight beats from clock 1 on, or four and four. -/
example : ∃ h0 h, Toggling.init 8 2 exampleRates.1 exampleRates.2 .L true = .ok h0 ∧
    h0.run ([.transfer 0 16] ++ .transfer 1 ((4 + 4) * 8) :: [.disable 7]) = .ok h ∧
    ToggleTimed 2 0 ([.transfer 0 16] ++ .transfer 1 (4 * 8) :: .transfer 3 (4 * 8) :: [.disable 7]) ∧ 3 * 2 = 1 * 2 + 4 :=
  ⟨_, _, rfl, rfl, by simp [ToggleTimed], by decide⟩

/-- A case of `C22_all_bits`. -/
example : ∃ h0 h, Toggling.init 8 2 exampleRates.1 exampleRates.2 .L true = .ok h0 ∧
    h0.run [.transfer 0 16, .transfer 1 64, .transfer 9 8] = .ok h ∧ ToggleTimed 2 0 [.transfer 0 16, .transfer 1 64, .transfer 9 8] ∧
    transfersEnd 8 2 [.transfer 0 16, .transfer 1 64, .transfer 9 8] ≤ 20 ∧ transferred [.transfer 0 16, .transfer 1 64, .transfer 9 8] = 88 :=
  ⟨_, _, rfl, rfl, by simp [ToggleTimed], by decide, rfl⟩

end DRAMPower
