import Verif.Spec.Activity

/-! # The toggling-rate model refines the activity of the bus -/

namespace DRAMPower
open Spec

theorem beats_congr {a a' : Activity} {w : Option Bool} : ∀ {T : Nat}, (∀ k < T, a k = a' k) → a.beats w T = a'.beats w T
  | 0, _ => rfl
  | T + 1, h => by rw [Activity.beats, Activity.beats, beats_congr fun k hk => h k (by omega), h T (by omega)]

theorem beats_const {a : Activity} {w v : Option Bool} {lo : Nat} : ∀ m, (∀ k, lo ≤ k → k < lo + m → a k = v) →
    a.beats w (lo + m) = a.beats w lo + if v = w then m else 0
  | 0, _ => by simp
  | m + 1, h => by
    rw [← Nat.add_assoc, Activity.beats, beats_const m (fun k h1 h2 => h k h1 (by omega)), h (lo + m) (by omega) (by omega)]
    by_cases e : v = w <;> simp [e]; omega

theorem beats_span {a : Activity} {w v : Option Bool} {lo hi : Nat} (hle : lo ≤ hi) (h : ∀ k, lo ≤ k → k < hi → a k = v) :
    a.beats w hi = a.beats w lo + if v = w then hi - lo else 0 := by
  obtain ⟨m, rfl⟩ : ∃ m, hi = lo + m := ⟨hi - lo, by omega⟩
  rw [beats_const m h]; simp

/-- Relation between the model's state and the activity so far; `base` is the beat since which nothing but the last
burst has happened. -/
structure ToggleInv (h : Toggling) (a : Activity) (base : Nat) : Prop where
  wpos : 0 < h.width
  dpos : 0 < h.datarate
  load : h.handled = false → h.lastLoad = base
  off : h.enabled = false → h.handled = true ∧ h.disableTimestamp = base ∧ ∀ k, base ≤ k → a k = none
  on : h.enabled = true → ∀ k, base ≤ k → a k = some (!h.handled && decide (k < h.lastLoad + h.lastLength))
  cnt : h.count = a.beats (some true) base
  dis : h.disableTime = a.beats none base

section
variable {h : Toggling} {a : Activity} {base : Nat}

/-- Transfers up to beat `T`. -/
theorem ToggleInv.transfers (i : ToggleInv h a base) {T : Nat} (hT : base ≤ T) :
    a.beats (some true) T = h.count + if h.enabled ∧ h.handled = false then min T (h.lastLoad + h.lastLength) - h.lastLoad else 0 := by
  rw [i.cnt]
  cases hen : h.enabled with
  | false =>
    rw [beats_span hT fun k hk _ => (i.off hen).2.2 k hk]
    simp
  | true =>
    have hon := i.on hen
    cases hh : h.handled with
    | true => rw [beats_span (v := some false) hT fun k hk _ => by rw [hon k hk, hh]; rfl]; simp
    | false =>
      have hl := i.load hh
      rw [hl]
      by_cases hc : T ≤ base + h.lastLength
      · rw [beats_span (v := some true) hT fun k hk hk2 => by
          rw [hon k hk, hh, hl]; simp; omega]
        simp [Nat.min_eq_left hc]
      · have e1 := beats_span (a := a) (w := some true) (v := some true) (lo := base) (hi := base + h.lastLength) (by omega) fun k hk hk2 => by
          rw [hon k hk, hh, hl]; simp; omega
        rw [beats_span (lo := base + h.lastLength) (v := some false) (by omega) fun k hk _ => by
          rw [hon k (by omega), hh, hl]; simp; omega, e1]
        simp [Nat.min_eq_right (by omega : base + h.lastLength ≤ T)]

/-- Beats switched off up to beat `T`. -/
theorem ToggleInv.offs (i : ToggleInv h a base) {T : Nat} (hT : base ≤ T) :
    a.beats none T = h.disableTime + if h.enabled then 0 else T - base := by
  rw [i.dis]
  cases hen : h.enabled with
  | false => rw [beats_span hT fun k hk _ => (i.off hen).2.2 k hk]; simp
  | true =>
    have hon := i.on hen
    have : ∀ m, a.beats none (base + m) = a.beats none base := by
      intro m
      induction m with
      | zero => rfl
      | succ m ih => rw [← Nat.add_assoc, Activity.beats, ih, hon (base + m) (by omega)]; simp
    obtain ⟨m, rfl⟩ : ∃ m, T = base + m := ⟨T - base, by omega⟩
    rw [this]; simp

theorem toggle_transfer (i : ToggleInv h a base) {t bits : Nat} (ht : base ≤ t * h.datarate) {h' : Toggling}
    (hr : h.incBits t bits = .ok h') :
    ∃ base', ToggleInv h' (a.drive h.width h.datarate (.transfer t bits)) base' ∧ base' ≤ t * h.datarate ∧ h'.width = h.width ∧
      h'.datarate = h.datarate := by
  unfold Toggling.incBits at hr
  rw [if_neg (by have := i.wpos; omega)] at hr
  split at hr
  · cases hr
  unfold Toggling.incBurst at hr
  simp only at hr
  split at hr
  · cases hr
  rename_i hov
  cases hen : h.enabled with
  | false =>
    obtain ⟨hh, hd, hn⟩ := i.off hen
    simp only [hh, Bool.not_true, Bool.false_eq_true, if_false, hen] at hr
    cases hr
    refine ⟨base, ?_, ht, rfl, rfl⟩
    have e : a.drive h.width h.datarate (.transfer t bits) = a := by
      funext k; simp only [Activity.drive]; rw [if_neg (by simp [hn _ ht])]
    rw [e]
    exact { wpos := i.wpos, dpos := i.dpos, load := by simp, off := fun _ => ⟨rfl, hd, hn⟩, on := by simp [hen], cnt := i.cnt, dis := i.dis }
  | true =>
    have hon := i.on hen
    have tr := i.transfers ht
    have of := i.offs ht
    have hnn : a (t * h.datarate) ≠ none := by rw [hon _ ht]; simp
    have hcount : (if (!h.handled) = true then h.count + h.lastLength else h.count)
        = a.beats (some true) (t * h.datarate) := by
      rw [tr]
      cases hh : h.handled with
      | true => simp
      | false =>
        rw [hh] at hov
        simp only [Bool.not_false, true_and, Nat.not_lt] at hov
        simp only [Bool.not_false, if_true, hen, and_self]
        rw [Nat.min_eq_right (by omega), Nat.add_sub_cancel_left]
    rw [hcount] at hr
    simp only [hen, if_true] at hr
    cases hr
    refine ⟨t * h.datarate, ?_, Nat.le_refl _, rfl, rfl⟩
    have hprev : ∀ k < t * h.datarate, a.drive h.width h.datarate (.transfer t bits) k = a k := by
      intro k hk; simp only [Activity.drive]; rw [if_neg (by omega)]
    refine { wpos := i.wpos, dpos := i.dpos, load := fun _ => rfl, off := by simp [hen], on := ?_, cnt := ?_, dis := ?_ }
    · intro _ k hk
      simp only [Activity.drive, Bool.not_false, Bool.true_and]
      by_cases hk2 : k < t * h.datarate + bits / h.width
      · rw [if_pos ⟨hnn, hk, hk2⟩]; simp [hk2]
      · rw [if_neg (fun hc => hk2 hc.2.2), hon k (by omega)]
        cases hh : h.handled with
        | true => simp [hk2]
        | false =>
          rw [hh] at hov
          simp only [Bool.not_false, true_and, Nat.not_lt] at hov
          have : ¬ k < h.lastLoad + h.lastLength := by omega
          simp [hk2, this]
    · show a.beats (some true) (t * h.datarate) = _
      exact (beats_congr hprev).symm
    · show h.disableTime = _
      rw [beats_congr hprev, of, hen]; simp

theorem toggle_disable (i : ToggleInv h a base) {t : Nat} (ht : base ≤ t * h.datarate) :
    ∃ base', ToggleInv (h.disable t) (a.drive h.width h.datarate (.disable t)) base' ∧ base' ≤ t * h.datarate ∧
      (h.disable t).width = h.width ∧ (h.disable t).datarate = h.datarate := by
  unfold Toggling.disable
  cases hen : h.enabled with
  | false =>
    simp only [Bool.not_false, if_true]
    obtain ⟨hh, hd, hn⟩ := i.off hen
    have e : a.drive h.width h.datarate (.disable t) = a := by
      funext k; simp only [Activity.drive]; split
      · exact (hn k (by omega)).symm
      · rfl
    rw [e]
    exact ⟨base, i, ht, trivial, trivial⟩
  | true =>
    have tr := i.transfers ht
    have of := i.offs ht
    have hprev : ∀ k < t * h.datarate, a.drive h.width h.datarate (.disable t) k = a k := by
      intro k hk; simp only [Activity.drive]; rw [if_neg (by omega)]
    have hst : (if (!h.handled) = true then
        if h.lastLength + h.lastLoad ≤ t * h.datarate then h.count + h.lastLength
          else h.count + usub (t * h.datarate) h.lastLoad else h.count)
        = a.beats (some true) (t * h.datarate) := by
      rw [tr]
      cases hh : h.handled with
      | true => simp
      | false =>
        have hl := i.load hh
        simp only [Bool.not_false, if_true, hen, and_self]
        by_cases hc : h.lastLength + h.lastLoad ≤ t * h.datarate
        · rw [if_pos hc, Nat.min_eq_right (by omega), Nat.add_sub_cancel_left]
        · rw [if_neg hc, Nat.min_eq_left (by omega), usub, if_pos (by omega)]
    simp only [Bool.not_true, Bool.false_eq_true, if_false]
    rw [hst]
    refine ⟨t * h.datarate, ?_, Nat.le_refl _, trivial, trivial⟩
    refine { wpos := i.wpos, dpos := i.dpos, load := by simp, off := fun _ => ⟨rfl, rfl, ?_⟩, on := by simp, cnt := ?_, dis := ?_ }
    · intro k hk; simp only [Activity.drive]; rw [if_pos hk]
    · exact (beats_congr hprev).symm
    · show h.disableTime = _
      rw [beats_congr hprev, of, hen]; simp

theorem toggle_enable (i : ToggleInv h a base) {t : Nat} (ht : base ≤ t * h.datarate) :
    ∃ base', ToggleInv (h.enable t) (a.drive h.width h.datarate (.enable t)) base' ∧ base' ≤ t * h.datarate ∧
      (h.enable t).width = h.width ∧ (h.enable t).datarate = h.datarate := by
  unfold Toggling.enable
  cases hen : h.enabled with
  | true =>
    simp only [if_true]
    have hon := i.on hen
    have e : a.drive h.width h.datarate (.enable t) = a := by
      funext k; simp only [Activity.drive]; split
      · rename_i hk; rw [hon k (by omega)] at hk; simp at hk
      · rfl
    rw [e]
    exact ⟨base, i, ht, trivial, trivial⟩
  | false =>
    obtain ⟨hh, hd, hn⟩ := i.off hen
    have tr := i.transfers ht
    have of := i.offs ht
    have hprev : ∀ k < t * h.datarate, a.drive h.width h.datarate (.enable t) k = a k := by
      intro k hk; simp only [Activity.drive]; rw [if_neg (by omega)]
    simp only [Bool.false_eq_true, if_false]
    refine ⟨t * h.datarate, ?_, Nat.le_refl _, trivial, trivial⟩
    refine { wpos := i.wpos, dpos := i.dpos, load := by simp [hh], off := by simp, on := ?_, cnt := ?_, dis := ?_ }
    · intro _ k hk; simp only [Activity.drive]; rw [if_pos ⟨hk, hn k (by omega)⟩, hh]; rfl
    · show h.count = _
      rw [beats_congr hprev, tr, hen]; simp
    · show h.disableTime + _ = _
      rw [beats_congr hprev, of, hen, usub, if_pos (by omega), hd]; simp

theorem toggle_run : ∀ (ops : List ToggleOp) {h h' : Toggling} {a : Activity} {base lo : Nat}, ToggleInv h a base → base ≤ lo →
    ToggleTimed h.datarate lo ops → h.run ops = .ok h' →
    ∃ base', ToggleInv h' (ops.foldl (Activity.drive h.width h.datarate) a) base' ∧ base' ≤ lastCall h.datarate lo ops ∧
      h'.width = h.width ∧ h'.datarate = h.datarate := by
  intro ops
  induction ops with
  | nil =>
    intro h h' a base lo i hb _ hr
    cases hr
    exact ⟨base, i, hb, rfl, rfl⟩
  | cons op ops ih =>
    intro h h' a base lo i hb ht hr
    unfold Toggling.run at hr
    split at hr
    rotate_left
    · cases hr
    rename_i h1 hs
    have step : ∃ base1 lo1, ToggleInv h1 (a.drive h.width h.datarate op) base1 ∧ base1 ≤ lo1 ∧ ToggleTimed h.datarate lo1 ops ∧
        lastCall h.datarate lo (op :: ops) = lastCall h.datarate lo1 ops ∧ h1.width = h.width ∧ h1.datarate = h.datarate := by
      cases op with
      | transfer t bits =>
        obtain ⟨b1, i1, h2, h3, h4⟩ := toggle_transfer i (by have := ht.1; omega) hs
        exact ⟨b1, _, i1, h2, ht.2, rfl, h3, h4⟩
      | disable t =>
        obtain ⟨b1, i1, h2, h3, h4⟩ := toggle_disable i (t := t) (by have := ht.1; omega)
        cases hs
        exact ⟨b1, _, i1, h2, ht.2, rfl, h3, h4⟩
      | enable t =>
        obtain ⟨b1, i1, h2, h3, h4⟩ := toggle_enable i (t := t) (by have := ht.1; omega)
        cases hs
        exact ⟨b1, _, i1, h2, ht.2, rfl, h3, h4⟩
      | rates r d j =>
        cases hs
        exact ⟨base, lo, { wpos := i.wpos, dpos := i.dpos, load := i.load, off := i.off, on := i.on, cnt := i.cnt, dis := i.dis }, hb, ht, rfl, rfl, rfl⟩
    obtain ⟨b1, lo1, i1, h2, h3, h4, h5, h6⟩ := step
    obtain ⟨b2, i2, j2, j3, j4⟩ := ih i1 h2 (by rw [h6]; exact h3) hr
    refine ⟨b2, ?_, ?_, j3.trans h5, j4.trans h6⟩
    · rw [h5, h6] at i2; exact i2
    · rw [h4]; rw [h6] at j2; exact j2

theorem beats_total (a : Activity) : ∀ T, a.beats (some true) T + a.beats (some false) T + a.beats none T = T
  | 0 => rfl
  | T + 1 => by
    have := beats_total a T
    simp only [Activity.beats]
    rcases h : a T with _ | _ | _ <;> simp <;> omega

theorem ToggleInv.getStats (i : ToggleInv h a base) {t : Nat} (ht : base ≤ t * h.datarate) {s : BusStats} (hs : h.getStats t = .ok s) :
    h.idle ≠ .invalid ∧ s = toggleStats h.width h.togglingRate h.dutyCycle (h.idle == .H) (a.beats (some true) (t * h.datarate))
      (a.beats (some false) (t * h.datarate)) := by
  have tr := i.transfers ht
  have of := i.offs ht
  have tot := beats_total a (t * h.datarate)
  unfold Toggling.getStats at hs
  simp only at hs
  have hc : (if h.enabled = true ∧ (!h.handled) = true then
      if t * h.datarate < h.lastLength + h.lastLoad then h.count + usub (t * h.datarate) h.lastLoad else h.count + h.lastLength
      else h.count) = a.beats (some true) (t * h.datarate) := by
    rw [tr]
    cases hen : h.enabled <;> cases hh : h.handled <;> simp
    have hl := i.load hh
    by_cases hc : t * h.datarate < h.lastLength + h.lastLoad
    · rw [if_pos hc, Nat.min_eq_left (by omega), usub, if_pos (by omega)]
    · rw [if_neg hc, Nat.min_eq_right (by omega), Nat.add_sub_cancel_left]
  have hd : (if h.enabled = true then h.disableTime else h.disableTime + usub (t * h.datarate) h.disableTimestamp) = a.beats none (t * h.datarate) := by
    rw [of]
    cases hen : h.enabled
    · obtain ⟨_, hd, _⟩ := i.off hen
      simp [usub, hd, ht]
    · simp
  rw [hc, hd] at hs
  have hidle : usub (usub (t * h.datarate) (a.beats none (t * h.datarate))) (a.beats (some true) (t * h.datarate))
      = a.beats (some false) (t * h.datarate) := by
    have e1 : usub (t * h.datarate) (a.beats none (t * h.datarate)) = t * h.datarate - a.beats none (t * h.datarate) := by
      rw [usub, if_pos (by omega)]
    rw [e1, usub, if_pos (by omega)]
    omega
  rw [hidle] at hs
  cases hi : h.idle with
  | invalid => rw [hi] at hs; cases hs
  | L =>
    rw [hi] at hs
    cases hs
    refine ⟨by simp, ?_⟩
    simp [toggleStats, Nat.mul_comm, Nat.two_mul]
  | H =>
    rw [hi] at hs
    cases hs
    refine ⟨by simp, ?_⟩
    simp [toggleStats, Nat.mul_comm, Nat.two_mul]

theorem toggle_init {width datarate : Nat} {r d : Rate} {idle : ToggleIdle} {enabled : Bool}
    (hs : Toggling.init width datarate r d idle enabled = .ok h) :
    ToggleInv h (fun _ => if enabled then some false else none) 0 ∧ h.width = width ∧ h.datarate = datarate := by
  unfold Toggling.init at hs
  split at hs
  · cases hs
  split at hs
  · cases hs
  cases hs
  refine ⟨?_, rfl, rfl⟩
  refine { wpos := ?_, dpos := ?_, load := by simp, off := ?_, on := ?_, cnt := rfl, dis := rfl }
  · simp only; omega
  · simp only; omega
  · intro he; simp only at he; simp [he]
  · intro he; simp only at he; simp [he]

end
end DRAMPower
