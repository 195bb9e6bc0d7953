import Verif.Lemmas.BusStats
import Verif.Spec.PinWave

/-! # The pin refines its waveform -/

namespace DRAMPower
open Spec

/-- Level of a stored bit. -/
def levelOf (b : Bool) : PinState := if b then .H else .L

/-- What `n` consecutive bits contribute, not counting the transition into the first. -/
def bitsStats (f : Nat → Bool) (n : Nat) : BusStats where
  ones := wires n f
  zeroes := n - wires n f
  bitChanges := wires (n - 1) fun j => f j != f (j + 1)
  onesToZeroes := (wires (n - 1) fun j => f j != f (j + 1)) - wires (n - 1) fun j => !f j && f (j + 1)
  zeroesToOnes := wires (n - 1) fun j => !f j && f (j + 1)

theorem wires_succ (n : Nat) (p : Nat → Bool) : wires (n + 1) p = wires n p + if p n then 1 else 0 := by
  simp [wires, List.range_succ, List.countP_append, List.countP_cons]

theorem wires_le (n : Nat) (p : Nat → Bool) : wires n p ≤ n := Nat.le_trans List.countP_le_length (by simp)

theorem wires_mono (n : Nat) {p q : Nat → Bool} (h : ∀ j, p j = true → q j = true) : wires n p ≤ wires n q := by
  induction n with
  | zero => simp [wires]
  | succ n ih =>
    rw [wires_succ, wires_succ]
    have := h n
    cases hp : p n <;> cases hq : q n <;> simp_all <;> omega

theorem mask_get {N n : Nat} (hn : n ≤ N) (j : Nat) : (BitsetContainer.mask N n).getLsbD j = decide (j < n) := by
  unfold BitsetContainer.mask
  by_cases h0 : n = 0
  · simp [h0]
  · simp only [h0, if_false]
    by_cases h : n < N
    · rw [if_pos h, BitVec.getLsbD_ushiftRight, BitVec.getLsbD_allOnes]
      by_cases hj : j < n
      · simp [hj]; omega
      · simp [hj]; omega
    · rw [if_neg h, BitVec.getLsbD_allOnes]
      have : n = N := by omega
      rw [this]

theorem storage_stats {N : Nat} (d : BitsetContainer N) {start stop : Nat} (h1 : d.loadTime = start) (h2 : start < stop) (hc : d.count ≤ N) :
    d.stats start stop = .ok (bitsStats d.bitset.getLsbD (min (stop - start) d.count)) := by
  unfold BitsetContainer.stats
  rw [if_neg (by omega)]
  simp only [h1, Nat.sub_self, Nat.add_zero]
  have hu : usub stop start = stop - start := by rw [usub, if_pos (by omega)]
  rw [hu]
  have hm : (if d.count < stop - start then d.count else stop - start) = min (stop - start) d.count := by
    by_cases h : d.count < stop - start
    · rw [if_pos h]; omega
    · rw [if_neg h]; omega
  rw [hm]
  generalize hn : min (stop - start) d.count = n
  have hnN : n ≤ N := by omega
  rw [if_neg (by omega)]
  have hv : ∀ j, ((d.bitset >>> 0) &&& BitsetContainer.mask N n).getLsbD j = (d.bitset.getLsbD j && decide (j < n)) := by
    intro j
    rw [BitVec.getLsbD_and, mask_get hnN]
    simp
  generalize hV : ((d.bitset >>> 0) &&& BitsetContainer.mask N n) = V at hv
  have pV : popcount V = wires n d.bitset.getLsbD := by
    rw [popcount_narrow hnN (by intro j hj; rw [hv]; simp; omega)]
    refine List.countP_congr ?_
    intro j hj
    have := List.mem_range.mp hj
    simp [hv, this]
  have hT : ∀ j, ((V ^^^ (V >>> 1)) &&& (BitsetContainer.mask N n >>> 1)).getLsbD j
      = (decide (j < n - 1) && (d.bitset.getLsbD j != d.bitset.getLsbD (j + 1))) := by
    intro j
    rw [BitVec.getLsbD_and, BitVec.getLsbD_xor, BitVec.getLsbD_ushiftRight, BitVec.getLsbD_ushiftRight, mask_get hnN, hv, hv, Nat.add_comm 1 j]
    by_cases hj : j + 1 < n
    · have h3 : j < n := by omega
      have h4 : j < n - 1 := by omega
      simp [hj, h3, h4]
    · have h4 : ¬ j < n - 1 := by omega
      simp [hj, h4]
  generalize hTT : ((V ^^^ (V >>> 1)) &&& (BitsetContainer.mask N n >>> 1)) = T at hT
  have pT : popcount T = wires (n - 1) fun j => d.bitset.getLsbD j != d.bitset.getLsbD (j + 1) := by
    rw [popcount_narrow (width := n - 1) (by omega) (by intro j hj; rw [hT]; simp; omega)]
    refine List.countP_congr ?_
    intro j hj
    have := List.mem_range.mp hj
    simp only [hT, this, decide_true, Bool.true_and]
  have pZ : popcount (T &&& (V >>> 1)) = wires (n - 1) fun j => !d.bitset.getLsbD j && d.bitset.getLsbD (j + 1) := by
    have e : ∀ j, (T &&& (V >>> 1)).getLsbD j = (decide (j < n - 1) && (!d.bitset.getLsbD j && d.bitset.getLsbD (j + 1))) := by
      intro j
      rw [BitVec.getLsbD_and, BitVec.getLsbD_ushiftRight, hT, hv, Nat.add_comm 1 j]
      by_cases hj : j < n - 1
      · have : j + 1 < n := by omega
        cases d.bitset.getLsbD j <;> cases d.bitset.getLsbD (j + 1) <;> simp [hj, this]
      · simp [hj]
    rw [popcount_narrow (width := n - 1) (by omega) (by intro j hj; rw [e]; simp; omega)]
    refine List.countP_congr ?_
    intro j hj
    have := List.mem_range.mp hj
    simp only [e, this, decide_true, Bool.true_and]
  rw [pV, pT, pZ]
  congr 1
  have l1 := wires_le n d.bitset.getLsbD
  have l2 : (wires (n - 1) fun j => !d.bitset.getLsbD j && d.bitset.getLsbD (j + 1))
      ≤ wires (n - 1) fun j => d.bitset.getLsbD j != d.bitset.getLsbD (j + 1) :=
    wires_mono _ (by intro j; cases d.bitset.getLsbD j <;> cases d.bitset.getLsbD (j + 1) <;> simp)
  unfold bitsStats usub
  rw [if_pos l1, if_pos l2]

theorem bitsStats_one (f : Nat → Bool) (before : PinState) :
    Pin.change before (levelOf (f 0)) + bitsStats f 1 = pinBeat before (levelOf (f 0)) := by
  cases before <;> cases h : f 0 <;>
    simp [bitsStats, wires, Pin.change, pinBeat, levelOf, h, List.range_succ] <;> rfl

theorem bitsStats_succ (f : Nat → Bool) {n : Nat} (hn : 0 < n) :
    bitsStats f (n + 1) = bitsStats f n + pinBeat (levelOf (f (n - 1))) (levelOf (f n)) := by
  obtain ⟨m, rfl⟩ : ∃ m, n = m + 1 := ⟨n - 1, by omega⟩
  have l1 := wires_le (m + 1) f
  have l2 : (wires m fun j => !f j && f (j + 1)) ≤ wires m fun j => f j != f (j + 1) :=
    wires_mono _ (by intro j; cases f j <;> cases f (j + 1) <;> simp)
  have e1 := wires_succ (m + 1) f
  have e2 := wires_succ m fun j => f j != f (j + 1)
  have e3 := wires_succ m fun j => !f j && f (j + 1)
  apply BusStats.ext' <;>
    simp only [bitsStats, BusStats.add_ones, BusStats.add_zeroes, BusStats.add_bitChanges, BusStats.add_onesToZeroes,
      BusStats.add_zeroesToOnes, pinBeat, levelOf, Nat.add_sub_cancel] <;>
    (try rw [e1]) <;> (try rw [e2]) <;> (try rw [e3]) <;>
    cases h1 : f m <;> cases h2 : f (m + 1) <;> simp <;> omega

section
variable {N : Nat} {p : Pin N} {line : PinLine} {init : PinState}

/-- The state of a pin after at least one burst. -/
structure PinOk (p : Pin N) (line : PinLine) (init : PinState) : Prop where
  pos : 0 < p.storage.count
  fits : p.storage.count ≤ N
  load : p.storage.loadTime = p.lastSet
  notInit : p.initLoad = false
  lines : ∀ k, p.lastSet ≤ k → line k = if k - p.lastSet < p.storage.count then levelOf (p.storage.bitset.getLsbD (k - p.lastSet)) else p.idleState
  pend : p.pending = { timestamp := p.lastSet, stats := (line.before init p.lastSet, line p.lastSet), pending := true }
  stats : p.stats = line.stats init p.lastSet
  last : p.lastState = levelOf (p.storage.bitset.getLsbD (p.storage.count - 1))

theorem duration_succ (before idle : PinState) (n : Nat) (h : before = idle) :
    Pin.duration idle (n + 1) = Pin.duration idle n + pinBeat before idle := by
  subst h
  cases before <;> apply BusStats.ext' <;> simp [Pin.duration, pinBeat]

/-- What a burst and the idle time after it contribute. -/
def tailStats (p : Pin N) (m : Nat) : BusStats :=
  let f := p.storage.bitset.getLsbD
  if m ≤ p.storage.count then bitsStats f m
  else bitsStats f p.storage.count + Pin.change (levelOf (f (p.storage.count - 1))) p.idleState
    + Pin.duration p.idleState (m - p.storage.count)

theorem PinOk.count (h : PinOk p line init) {vt : Nat} (hv : p.lastSet < vt) (s : BusStats) :
    p.count vt p.lastSet p.idleState s = .ok (s + tailStats p (vt - p.lastSet)) := by
  have he : p.storage.endTime = p.lastSet + p.storage.count := by rw [BitsetContainer.endTime, h.load]
  have hp := h.pos
  unfold Pin.count
  rw [if_neg (by omega), if_pos (by omega), storage_stats _ h.load hv h.fits, he]
  simp only [bind, Except.bind, pure, Except.pure, BitsetContainer.last]
  unfold tailStats
  by_cases hc : p.lastSet + p.storage.count < vt
  · rw [if_pos hc, if_neg (by omega), if_neg (by omega), Nat.min_eq_right (by omega)]
    simp only [levelOf, BusStats.add_assoc, Nat.sub_sub]
  · rw [if_neg hc, if_pos (by omega), Nat.min_eq_left (by omega)]

theorem PinOk.tail (h : PinOk p line init) : ∀ m, 
    line.stats init (p.lastSet + (m + 1)) = line.stats init p.lastSet + Pin.change (line.before init p.lastSet) (line p.lastSet)
      + tailStats p (m + 1) := by
  have hp := h.pos
  have h0 : line p.lastSet = levelOf (p.storage.bitset.getLsbD 0) := by
    rw [h.lines _ (Nat.le_refl _), Nat.sub_self, if_pos hp]
  intro m
  induction m with
  | zero =>
    rw [Nat.zero_add, PinLine.stats, tailStats, if_pos (by omega), BusStats.add_assoc, h0, bitsStats_one]
  | succ m ih =>
    rw [show p.lastSet + (m + 1 + 1) = (p.lastSet + (m + 1)) + 1 by omega, PinLine.stats, ih, BusStats.add_assoc]
    congr 1
    have hb : PinLine.before line init (p.lastSet + (m + 1)) = line (p.lastSet + m) := rfl
    have hn : line (p.lastSet + (m + 1)) = if m + 1 < p.storage.count then levelOf (p.storage.bitset.getLsbD (m + 1)) else p.idleState := by
      rw [h.lines _ (by omega), show p.lastSet + (m + 1) - p.lastSet = m + 1 by omega]
    have hm : line (p.lastSet + m) = if m < p.storage.count then levelOf (p.storage.bitset.getLsbD m) else p.idleState := by
      rw [h.lines _ (by omega), show p.lastSet + m - p.lastSet = m by omega]
    rw [hb, hn, hm]
    unfold tailStats
    simp only
    generalize hc : p.storage.count = c at *
    by_cases h1 : m + 1 < c
    · have q1 : m + 1 ≤ c := by omega
      have q2 : m + 1 + 1 ≤ c := by omega
      have q3 : m < c := by omega
      simp only [h1, q1, q2, q3, if_true]
      rw [bitsStats_succ _ (by omega : 0 < m + 1)]
      rfl
    · by_cases h2 : m + 1 = c
      · subst h2
        have q2 : ¬ m + 1 + 1 ≤ m + 1 := by omega
        have q3 : m < m + 1 := by omega
        simp only [Nat.lt_irrefl, Nat.le_refl, q2, q3, if_true, if_false, BusStats.add_assoc]
        congr 1
        rw [show m + 1 + 1 - (m + 1) = 1 by omega, Nat.add_sub_cancel]
        cases p.storage.bitset.getLsbD m <;> cases p.idleState <;>
          simp [levelOf, Pin.change, pinBeat, Pin.duration] <;> rfl
      · have q1 : ¬ m + 1 ≤ c := by omega
        have q2 : ¬ m + 1 + 1 ≤ c := by omega
        have q3 : ¬ m < c := by omega
        simp only [h1, q1, q2, q3, if_false]
        rw [show m + 1 + 1 - c = (m + 1 - c) + 1 by omega, duration_succ p.idleState _ _ rfl]
        simp only [BusStats.add_assoc]

theorem PinOk.stats_at (h : PinOk p line init) {vt : Nat} (hv : p.lastSet < vt) :
    p.count vt p.lastSet p.idleState (Pin.addPending vt p.pending p.stats) = .ok (line.stats init vt) := by
  rw [h.count hv]
  congr 1
  obtain ⟨m, e⟩ : ∃ m, vt - p.lastSet = m + 1 := ⟨vt - p.lastSet - 1, by omega⟩
  rw [e, show vt = p.lastSet + (m + 1) by omega, h.tail]
  unfold Pin.addPending
  rw [if_pos (by rw [h.pend]; exact ⟨rfl, by simp only; omega⟩), h.pend, h.stats]

theorem PinOk.getStats (h : PinOk p line init) {t dr : Nat} (ht : p.lastSet ≤ t * dr) :
    p.getStats t dr = .ok (line.stats init (t * dr)) := by
  unfold Pin.getStats
  simp only
  rw [if_neg (by omega)]
  by_cases he : t * dr = p.lastSet
  · rw [if_pos he, h.stats, he]
  · rw [if_neg he, if_neg (by simp [h.notInit])]
    exact h.stats_at (by omega)

theorem stats_line_congr {l l' : PinLine} {init : PinState} : ∀ {T : Nat}, (∀ k < T, l k = l' k) → l.stats init T = l'.stats init T
  | 0, _ => rfl
  | T + 1, h => by
    rw [PinLine.stats, PinLine.stats, stats_line_congr fun k hk => h k (by omega), h T (by omega)]
    congr 2
    cases T with
    | zero => rfl
    | succ T => exact h T (by omega)

theorem before_congr {l l' : PinLine} {init : PinState} {T : Nat} (h : ∀ k < T, l k = l' k) : l.before init T = l'.before init T := by
  cases T with
  | zero => rfl
  | succ T => exact h T (by omega)

theorem levelOf_eq {s : PinState} (h : s ≠ .Z) : levelOf (s == .H) = s := by cases s <;> simp_all [levelOf]

/-- The next bit of the burst that is being built. -/
theorem PinOk.next (h : PinOk p line init) {s : PinState} (hs : s ≠ .Z) (hN : p.storage.count < N) :
    ∃ p', p.set p.lastSet s = .ok p' ∧
      PinOk p' (fun k => if k = p.lastSet + p.storage.count then s else line k) init ∧ p'.lastSet = p.lastSet ∧
      p'.storage.count = p.storage.count + 1 ∧ p'.idleState = p.idleState := by
  have hp := h.pos
  unfold Pin.set Pin.setInternal
  simp only [Nat.mul_one, Nat.lt_irrefl, if_false, bind, Except.bind, pure, Except.pure, h.notInit, Bool.false_eq_true, false_and,
    Pin.addPending, Pin.count, Nat.le_refl, if_true, BitsetContainer.pushBack, h.load, ne_eq, not_true_eq_false, or_self, h.pend, and_false]
  rw [if_neg (by omega)]
  refine ⟨_, rfl, ?_, rfl, rfl, rfl⟩
  refine { pos := by simp, fits := hN, load := rfl, notInit := rfl, lines := ?_, pend := ?_, stats := ?_, last := ?_ }
  · intro k hk
    simp only at hk ⊢
    rw [getLsbD_setBit _ _ _ _ hN]
    by_cases hk1 : k = p.lastSet + p.storage.count
    · rw [if_pos hk1, if_pos (by omega), if_pos (by omega), levelOf_eq hs]
    · rw [if_neg hk1, h.lines k hk]
      by_cases hk2 : k - p.lastSet < p.storage.count
      · rw [if_pos hk2, if_pos (by omega), if_neg (by omega)]
      · rw [if_neg hk2, if_neg (by omega)]
  · simp only
    have e1 : PinLine.before (fun k => if k = p.lastSet + p.storage.count then s else line k) init p.lastSet = line.before init p.lastSet :=
      before_congr fun k hk => if_neg (by omega)
    rw [e1, if_neg (by omega)]
  · simp only
    rw [h.stats]
    exact stats_line_congr fun k hk => (if_neg (by omega)).symm
  · simp only [Nat.add_sub_cancel]
    rw [getLsbD_setBit _ _ _ _ hN, if_pos rfl, levelOf_eq hs]

/-- The first bit of a burst after an earlier one. -/
theorem PinOk.first (h : PinOk p line init) {t : Nat} {s : PinState} (hs : s ≠ .Z) (ht : p.lastSet + p.storage.count ≤ t) :
    ∃ p', p.set t s = .ok p' ∧ PinOk p' (fun k => if k = t then s else line k) init ∧ p'.lastSet = t ∧
      p'.storage.count = 1 ∧ p'.idleState = p.idleState := by
  have hp := h.pos
  have hN : 0 < N := Nat.lt_of_lt_of_le hp h.fits
  have hst := h.stats_at (vt := t) (by omega)
  unfold Pin.set Pin.setInternal
  simp only [Nat.mul_one, bind, Except.bind, pure, Except.pure, h.notInit, Bool.false_eq_true, false_and, if_false, or_false]
  rw [if_neg (by omega), hst]
  have hpend : p.pending.pending = true ∧ p.pending.timestamp < t := by rw [h.pend]; exact ⟨rfl, by simp only; omega⟩
  simp only [hpend.1, hpend.2, and_self, if_true, BitsetContainer.pushBack, h.load]
  have hne : p.lastSet ≠ t := by omega
  have hne' : t ≠ p.lastSet := by omega
  simp only [ne_eq, hne, not_false_eq_true, if_true, h.load, hne', Nat.zero_add, true_or, Bool.false_eq_true, false_and, or_false]
  rw [if_neg (by omega)]
  refine ⟨_, rfl, ?_, rfl, rfl, rfl⟩
  have hbefore : PinLine.before (fun k => if k = t then s else line k) init t = line.before init t :=
    before_congr fun k hk => if_neg (by omega)
  refine { pos := by simp, fits := hN, load := rfl, notInit := rfl, lines := ?_, pend := ?_, stats := ?_, last := ?_ }
  · intro k hk
    simp only at hk ⊢
    rw [getLsbD_setBit _ _ _ _ hN]
    by_cases hk1 : k = t
    · rw [if_pos hk1, if_pos (by omega), if_pos (by omega), levelOf_eq hs]
    · rw [if_neg hk1, if_neg (by omega), h.lines k (by omega), if_neg (by omega)]
  · simp only [if_true]
    rw [hbefore]
    have : line.before init t = if t = p.lastSet + p.storage.count then p.lastState else p.idleState := by
      obtain ⟨u, rfl⟩ : ∃ u, t = u + 1 := ⟨t - 1, by omega⟩
      show line u = _
      rw [h.lines u (by omega), h.last]
      by_cases hu : u + 1 = p.lastSet + p.storage.count
      · rw [if_pos hu, if_pos (by omega), show u - p.lastSet = p.storage.count - 1 by omega]
      · rw [if_neg hu, if_neg (by omega)]
    rw [this]
  · simp only
    exact stats_line_congr fun k hk => (if_neg (by omega)).symm
  · simp only [Nat.add_sub_cancel, Nat.sub_self]
    rw [getLsbD_setBit _ _ _ _ hN, if_pos rfl, levelOf_eq hs]

/-- The idle waveform before the first burst. -/
theorem idle_stats (init idle : PinState) : ∀ n, PinLine.stats (fun _ => idle) init (n + 1) = Pin.change init idle + Pin.duration idle (n + 1)
  | 0 => by cases init <;> cases idle <;> rfl
  | n + 1 => by
    rw [PinLine.stats, idle_stats init idle n, duration_succ idle idle (n + 1) rfl, BusStats.add_assoc]
    rfl

/-- The first bit of the first burst. -/
theorem init_first {N : Nat} (initial idle : PinState) {t : Nat} {s : PinState} (hs : s ≠ .Z) (hN : 0 < N) :
    ∃ p', (Pin.init N initial idle).set t s = .ok p' ∧ PinOk p' (fun k => if k = t then s else idle) initial ∧ p'.lastSet = t ∧
      p'.storage.count = 1 ∧ p'.idleState = idle := by
  have hbefore : PinLine.before (fun k => if k = t then s else idle) initial t = PinLine.before (fun _ => idle) initial t :=
    before_congr fun k hk => if_neg (by omega)
  have key : ∀ (S : BusStats) (P : Pending (PinState × PinState)) (lt : Nat), S = PinLine.stats (fun _ => idle) initial t →
      P = { timestamp := t, stats := (PinLine.before (fun _ => idle) initial t, s), pending := true } → lt = t →
      PinOk ({ pending := P, stats := S, lastState := s, idleState := idle, initLoad := false, lastSet := t
               storage := { bitset := setBit 0 0 (s == .H), count := 1, loadTime := lt } } : Pin N)
        (fun k => if k = t then s else idle) initial := by
    intro S P lt hS hP hlt
    refine { pos := by simp, fits := hN, load := hlt, notInit := rfl, lines := ?_, pend := ?_, stats := ?_, last := ?_ }
    · intro k hk
      simp only at hk ⊢
      rw [getLsbD_setBit _ _ _ _ hN]
      by_cases hk1 : k = t
      · rw [if_pos hk1, if_pos (by omega), if_pos (by omega), levelOf_eq hs]
      · rw [if_neg hk1, if_neg (by omega)]
    · simp only [hP, if_true]
      rw [hbefore]
    · simp only [hS]
      exact stats_line_congr fun k hk => (if_neg (by omega)).symm
    · simp only [Nat.sub_self]
      rw [getLsbD_setBit _ _ _ _ hN, if_pos rfl, levelOf_eq hs]
  unfold Pin.set Pin.setInternal Pin.init
  simp only [Nat.mul_one, Nat.not_lt_zero, if_false, bind, Except.bind, pure, Except.pure, true_and, Pin.addPending, Bool.false_eq_true, false_and,
    Pin.count, BitsetContainer.endTime, Nat.add_zero, Nat.lt_irrefl, or_true, if_true, BitsetContainer.pushBack, Nat.le_zero_eq]
  by_cases h0 : t = 0
  · subst h0
    simp only [if_true, Nat.lt_irrefl, if_false, ne_eq, not_true_eq_false, true_or, Nat.zero_add, or_self]
    rw [if_neg (by omega)]
    exact ⟨_, rfl, key _ _ _ rfl rfl rfl, rfl, rfl, rfl⟩
  · have h1 : 0 < t := by omega
    simp only [h0, h1, if_true, if_false, ne_eq, not_false_eq_true, Nat.zero_add, or_self]
    rw [if_neg (by omega)]
    refine ⟨_, rfl, key _ _ _ ?_ ?_ rfl, rfl, rfl, rfl⟩
    · obtain ⟨u, rfl⟩ : ∃ u, t = u + 1 := ⟨t - 1, by omega⟩
      rw [idle_stats, BusStats.zero_add]
      rfl
    · obtain ⟨u, rfl⟩ : ∃ u, t = u + 1 := ⟨t - 1, by omega⟩
      rfl

/-- The remaining bits of a burst. -/
theorem PinOk.rest : ∀ (bits : List PinState) {p : Pin N} {line : PinLine}, PinOk p line init → (∀ b ∈ bits, b ≠ .Z) →
    p.storage.count + bits.length ≤ N →
    ∃ p', p.burst p.lastSet bits = .ok p' ∧ PinOk p' (line.burst (p.lastSet + p.storage.count) bits) init ∧
      p'.lastSet = p.lastSet ∧ p'.storage.count = p.storage.count + bits.length ∧ p'.idleState = p.idleState
  | [], p, line, h, _, _ => by
    refine ⟨p, rfl, ?_, rfl, rfl, rfl⟩
    have : line.burst (p.lastSet + p.storage.count) [] = line := by
      funext k; unfold PinLine.burst; rw [if_neg (by simp)]
    rw [this]; exact h
  | b :: bits, p, line, h, hb, hN => by
    simp only [List.length_cons] at hN
    obtain ⟨p1, e1, h1, l1, c1, i1⟩ := h.next (hb b (by simp)) (by omega)
    obtain ⟨p2, e2, h2, l2, c2, i2⟩ := PinOk.rest bits h1 (fun x hx => hb x (by simp [hx])) (by omega)
    refine ⟨p2, ?_, ?_, l2.trans l1, by rw [c2, c1]; simp only [List.length_cons]; omega, i2.trans i1⟩
    · rw [l1] at e2
      unfold Pin.burst at e2 ⊢
      rw [List.foldlM_cons, e1]
      exact e2
    · rw [l1, c1] at h2
      have : PinLine.burst (fun k => if k = p.lastSet + p.storage.count then b else line k) (p.lastSet + (p.storage.count + 1)) bits
          = line.burst (p.lastSet + p.storage.count) (b :: bits) := by
        funext k
        unfold PinLine.burst
        simp only [List.length_cons]
        by_cases hk : k = p.lastSet + p.storage.count
        · subst hk
          rw [if_neg (by omega), if_pos rfl, if_pos (by omega), Nat.sub_self]; rfl
        · by_cases hk2 : p.lastSet + (p.storage.count + 1) ≤ k ∧ k < p.lastSet + (p.storage.count + 1) + bits.length
          · rw [if_pos hk2, if_pos (by omega), show k - (p.lastSet + p.storage.count) = (k - (p.lastSet + (p.storage.count + 1))) + 1 by omega]
            rfl
          · rw [if_neg hk2, if_neg hk, if_neg (by omega)]
      rw [this] at h2
      exact h2

theorem burst_split {line : PinLine} (t : Nat) (b : PinState) (bits : List PinState) :
    PinLine.burst (fun k => if k = t then b else line k) (t + 1) bits = line.burst t (b :: bits) := by
  funext k
  unfold PinLine.burst
  simp only [List.length_cons]
  by_cases hk : k = t
  · subst hk
    rw [if_neg (by omega), if_pos rfl, if_pos (by omega), Nat.sub_self]; rfl
  · by_cases hk2 : t + 1 ≤ k ∧ k < t + 1 + bits.length
    · rw [if_pos hk2, if_pos (by omega), show k - t = (k - (t + 1)) + 1 by omega]; rfl
    · rw [if_neg hk2, if_neg hk, if_neg (by omega)]

/-- A whole burst after an earlier one. -/
theorem PinOk.burst (h : PinOk p line init) {t : Nat} {bits : List PinState} (hne : bits ≠ []) (hb : ∀ b ∈ bits, b ≠ .Z)
    (hN : bits.length ≤ N) (ht : p.lastSet + p.storage.count ≤ t) :
    ∃ p', p.burst t bits = .ok p' ∧ PinOk p' (line.burst t bits) init ∧ p'.lastSet = t ∧
      p'.storage.count = bits.length ∧ p'.idleState = p.idleState := by
  cases bits with
  | nil => exact absurd rfl hne
  | cons b bits =>
    simp only [List.length_cons] at hN
    obtain ⟨p1, e1, h1, l1, c1, i1⟩ := h.first (hb b (by simp)) ht
    obtain ⟨p2, e2, h2, l2, c2, i2⟩ := PinOk.rest bits h1 (fun x hx => hb x (by simp [hx])) (by omega)
    rw [l1] at e2
    rw [l1, c1, burst_split] at h2
    refine ⟨p2, ?_, h2, l2.trans l1, by rw [c2, c1]; simp only [List.length_cons]; omega, i2.trans i1⟩
    unfold Pin.burst at e2 ⊢
    rw [List.foldlM_cons, e1]
    exact e2

theorem init_burst {N : Nat} (initial idle : PinState) {t : Nat} {bits : List PinState} (hne : bits ≠ []) (hb : ∀ b ∈ bits, b ≠ .Z)
    (hN : bits.length ≤ N) :
    ∃ p', (Pin.init N initial idle).burst t bits = .ok p' ∧ PinOk p' (PinLine.burst (fun _ => idle) t bits) initial ∧ p'.lastSet = t ∧
      p'.storage.count = bits.length ∧ p'.idleState = idle := by
  cases bits with
  | nil => exact absurd rfl hne
  | cons b bits =>
    simp only [List.length_cons] at hN
    obtain ⟨p1, e1, h1, l1, c1, i1⟩ := init_first (N := N) initial idle (t := t) (hb b (by simp)) (by omega)
    obtain ⟨p2, e2, h2, l2, c2, i2⟩ := PinOk.rest bits h1 (fun x hx => hb x (by simp [hx])) (by omega)
    rw [l1] at e2
    rw [l1, c1, burst_split] at h2
    refine ⟨p2, ?_, h2, l2.trans l1, by rw [c2, c1]; simp only [List.length_cons]; omega, i2.trans i1⟩
    unfold Pin.burst at e2 ⊢
    rw [List.foldlM_cons, e1]
    exact e2

theorem PinOk.run : ∀ (bursts : List (Nat × List PinState)) {p : Pin N} {line : PinLine}, PinOk p line init →
    PinBursts N (p.lastSet + p.storage.count) bursts →
    ∃ p', p.run bursts = .ok p' ∧ PinOk p' (bursts.foldl (fun l b => l.burst b.1 b.2) line) init ∧
      ∀ t, p.lastSet ≤ t → (∀ b ∈ bursts, b.1 ≤ t) → p'.lastSet ≤ t
  | [], p, line, h, _ => ⟨p, rfl, h, fun t ht _ => ht⟩
  | (t, bits) :: bursts, p, line, h, ⟨a1, a2, a3, a4, a5⟩ => by
    obtain ⟨p1, e1, h1, l1, c1, i1⟩ := h.burst a2 a4 a3 a1
    obtain ⟨p2, e2, h2, l2⟩ := PinOk.run bursts h1 (by rw [l1, c1]; exact a5)
    refine ⟨p2, ?_, h2, fun u hu hall => l2 u (by rw [l1]; exact hall (t, bits) (by simp)) fun b hb => hall b (by simp [hb])⟩
    unfold Pin.run at e2 ⊢
    rw [List.foldlM_cons, e1]
    exact e2

end
end DRAMPower
