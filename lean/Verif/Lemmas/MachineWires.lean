import Verif.Spec.MachineWires
import Verif.Lemmas.Machine

/-!
# The wires over `UInt64` are the image of the wires over the natural numbers
-/

namespace DRAMPower

open Machine (w)
open Spec

theorem w_mul (a b : Nat) : w (a * b) = w a * w b := UInt64.ofNat_mul _ _

theorem w_div {a b : Nat} (ha : a < 2 ^ 64) (hb : b < 2 ^ 64) : w (a / b) = w a / w b := by
  rw [← UInt64.toNat_inj, UInt64.toNat_div, w_toNat ha, w_toNat hb, w_toNat (Nat.lt_of_le_of_lt (Nat.div_le_self _ _) ha)]

theorem w_mod {a b : Nat} (ha : a < 2 ^ 64) (hb : b < 2 ^ 64) : w (a % b) = w a % w b := by
  rw [← UInt64.toNat_inj, UInt64.toNat_mod, w_toNat ha, w_toNat hb, w_toNat (Nat.lt_of_le_of_lt (Nat.mod_le _ _) ha)]

theorem w_min {a b : Nat} (ha : a < 2 ^ 64) (hb : b < 2 ^ 64) : w (min a b) = min (w a) (w b) := by
  by_cases h : a ≤ b
  · have : min (w a) (w b) = w a := if_pos ((w_le ha hb).2 h)
    rw [this, Nat.min_eq_left h]
  · have : min (w a) (w b) = w b := if_neg fun h' => h ((w_le ha hb).1 h')
    rw [this, Nat.min_eq_right (by omega)]

theorem w_eq_zero {a : Nat} (ha : a < 2 ^ 64) : w a = 0 ↔ a = 0 := by
  rw [← w_zero, w_inj ha (by decide)]

theorem zero_lt_w {a : Nat} (ha : a < 2 ^ 64) : 0 < w a ↔ 0 < a := by
  rw [← w_zero, w_lt (by decide) ha]

theorem popcount_le_size {N : Nat} (x : BitVec N) : popcount x ≤ N := by
  unfold popcount
  exact Nat.le_trans List.countP_le_length (by simp)

/-! ## Figures -/

def BusStats.wrap (s : BusStats) : Machine.BusStats where
  ones := w s.ones
  zeroes := w s.zeroes
  bitChanges := w s.bitChanges
  onesToZeroes := w s.onesToZeroes
  zeroesToOnes := w s.zeroesToOnes

theorem BusStats.wrap_add (a b : BusStats) : (a + b).wrap = a.wrap + b.wrap := by
  show BusStats.wrap (BusStats.add a b) = Machine.BusStats.add _ _
  simp only [BusStats.wrap, BusStats.add, Machine.BusStats.add, w_add]

theorem BusStats.wrap_mul (k : Nat) (a : BusStats) : (k * a).wrap = Machine.BusStats.mul (w k) a.wrap := by
  show BusStats.wrap (BusStats.mul k a) = _
  simp only [BusStats.wrap, BusStats.mul, Machine.BusStats.mul, w_mul]

theorem figuresOf_wrap (s : BusStats) : figuresOf s.wrap = figuresMod s := by
  simp only [figuresOf, figuresMod, BusStats.wrap]
  simp only [show ∀ n, (w n).toNat = n % 2 ^ 64 from fun n => UInt64.toNat_ofNat']

theorem figuresMod_exact (s : BusStats) : Exact (figuresMod s) s :=
  ⟨Nat.mod_eq_of_lt, Nat.mod_eq_of_lt, Nat.mod_eq_of_lt, Nat.mod_eq_of_lt, Nat.mod_eq_of_lt⟩

/-! ## Bus -/

def BusContainer.wrap {N : Nat} (d : BusContainer N) : Machine.BusContainer N :=
  { bursts := d.bursts, count := w d.count, loadTime := w d.loadTime }

def Pending.wrapStats (p : Pending BusStats) : Machine.Pending Machine.BusStats :=
  { timestamp := w p.timestamp, stats := p.stats.wrap, pending := p.pending }

def Bus.wrap {N : Nat} (b : Bus N) : Machine.Bus N where
  stats := b.stats.wrap
  storage := b.storage.wrap
  lastLoad := w b.lastLoad
  enabled := b.enabled
  disableTime := w b.disableTime
  width := w b.width
  datarate := w b.datarate
  pending := b.pending.wrapStats
  lastPattern := b.lastPattern
  idleStats := b.idleStats.wrap
  idleWord := b.idleWord

/-- The times of a bus fit into 64 bits. -/
structure Bus.Small {N : Nat} (b : Bus N) : Prop where
  width : b.width < 2 ^ 64
  rate : b.datarate < 2 ^ 64
  load : b.lastLoad + b.storage.count < 2 ^ 64
  stop : b.storage.loadTime + b.storage.count < 2 ^ 64
  pend : b.pending.timestamp < 2 ^ 64
  dis : b.disableTime < 2 ^ 64
  off : b.enabled = false → b.storage.count = 0

variable {N : Nat}

theorem diff_wrap (hN : N < 2 ^ 64) (width : Nat) (x y : BitVec N) :
    (Bus.diff width x y).wrap = Machine.Bus.diff (w width) x y := by
  have := popcount_le_size y
  simp only [Bus.diff, BusStats.wrap, Machine.Bus.diff]
  rw [w_usub (by omega)]

theorem BusContainer.endTime_wrap (d : BusContainer N) : d.wrap.endTime = w d.endTime := (w_add _ _).symm

theorem BusContainer.clear_wrap (d : BusContainer N) : d.wrap.clear = d.clear.wrap := rfl

theorem BusContainer.getBurst_wrap {d : BusContainer N} {n : Nat} (h : n < d.count) (hc : d.count < 2 ^ 64) :
    d.wrap.getBurst (w n) = d.getBurst n := by
  unfold Machine.BusContainer.getBurst BusContainer.getBurst
  have e : (d.wrap.count - 1 - w n) = w (d.count - 1 - n) := by
    rw [w_sub (by omega), w_sub (by omega)]; rfl
  rw [e, w_toNat (by omega)]
  rfl

theorem BusContainer.insertData_wrap (d : BusContainer N) (t : Nat) {width nBits : Nat} (data : List UInt8) (hw : width < 2 ^ 64)
    (hn : nBits < 2 ^ 64) :
    d.wrap.insertData (w t) (w width) data (w nBits) = (d.insertData t width data nBits).map BusContainer.wrap := by
  unfold Machine.BusContainer.insertData BusContainer.insertData
  simp only [← w_div hn hw, w_toNat hw, w_eq_zero hw, ne_eq, w_eq_zero (Nat.lt_of_le_of_lt (Nat.div_le_self nBits width) hn),
    w_toNat (Nat.lt_of_le_of_lt (Nat.div_le_self nBits width) hn)]
  split
  · rfl
  · split
    · rfl
    · split <;> rfl

namespace Bus
variable {b : Bus N}

theorem word_wrap (h : b.Small) {n : Nat} (hl : b.lastLoad ≤ n) (hn : n < 2 ^ 64) : b.wrap.word (w n) = b.word n := by
  have hs := h.load
  unfold Machine.Bus.word Bus.word
  have e : w n - b.wrap.lastLoad = w (n - b.lastLoad) := (w_sub hl).symm
  rw [e]
  have hc : b.wrap.storage.count ≤ w (n - b.lastLoad) ↔ b.storage.count ≤ n - b.lastLoad := w_le (by omega) (by omega)
  by_cases hle : b.storage.count ≤ n - b.lastLoad
  · rw [if_pos (hc.2 hle), if_pos hle]; rfl
  · rw [if_neg (mt hc.1 hle), if_neg hle]
    exact BusContainer.getBurst_wrap (by omega) (by omega)

theorem at_wrap (h : b.Small) {n : Nat} (hn : n < 2 ^ 64) : b.wrap.at? (w n) = b.at? n := by
  have hs := h.load
  unfold Machine.Bus.at? Bus.at?
  have hc : w n < b.wrap.lastLoad ↔ n < b.lastLoad := w_lt hn (by omega)
  by_cases hl : n < b.lastLoad
  · rw [if_pos (hc.2 hl), if_pos hl]
  · rw [if_neg (mt hc.1 hl), if_neg hl, word_wrap h (by omega) hn]

theorem burstLoop_wrap (hN : N < 2 ^ 64) (h : b.Small) {e : Nat} (he : e < 2 ^ 64) (s : BusStats) :
    b.wrap.burstLoop (w e) s.wrap = (b.burstLoop e s).wrap := by
  have hs := h.load
  unfold Machine.Bus.burstLoop Bus.burstLoop
  by_cases h0 : e = 0
  · rw [if_pos ((w_eq_zero he).2 h0), if_pos h0]
  · rw [if_neg (mt (w_eq_zero he).1 h0), if_neg h0]
    have e1 : w e - 1 = w (e - 1) := by rw [w_sub (by omega)]; rfl
    rw [e1]
    have hc : b.wrap.lastLoad < w (e - 1) ↔ b.lastLoad < e - 1 := w_lt (by omega) (by omega)
    by_cases hl : b.lastLoad < e - 1
    · rw [if_pos (hc.2 hl)]
      have e2 : w (e - 1) - b.wrap.lastLoad = w (e - 1 - b.lastLoad) := (w_sub (by omega)).symm
      rw [e2, w_toNat (by omega), List.range'_eq_map_range, List.foldl_map]
      have key : ∀ n, n ≤ e - 1 - b.lastLoad → ∀ s : BusStats,
          (List.range n).foldl (fun s k => s + Machine.Bus.diff b.wrap.width (b.wrap.word (b.wrap.lastLoad + w k))
            (b.wrap.word (b.wrap.lastLoad + w k + 1))) s.wrap =
          ((List.range n).foldl (fun s k => s + diff b.width (b.word (b.lastLoad + k)) (b.word (b.lastLoad + k + 1))) s).wrap := by
        intro n
        induction n with
        | zero => intro _ s; rfl
        | succ n ih =>
          intro hn s
          rw [List.range_succ, List.foldl_append, List.foldl_append, ih (by omega)]
          simp only [List.foldl_cons, List.foldl_nil]
          have a1 : b.wrap.lastLoad + w n = w (b.lastLoad + n) := (w_add _ _).symm
          have a2 : w (b.lastLoad + n) + 1 = w (b.lastLoad + n + 1) := (w_add _ 1).symm
          rw [a1, a2, word_wrap h (by omega) (by omega), word_wrap h (by omega) (by omega), BusStats.wrap_add, diff_wrap hN]
          rfl
      have := key _ (Nat.le_refl _) s
      exact this
    · rw [if_neg (mt hc.1 hl), show e - 1 - b.lastLoad = 0 by omega]
      rfl

theorem advance_wrap (hN : N < 2 ^ 64) (h : b.Small) {vt : Nat} (hv : vt < 2 ^ 64) (s : BusStats) :
    b.wrap.advance (w vt) s.wrap = (b.advance vt s).map BusStats.wrap := by
  have hs := h.stop
  have he : b.storage.endTime < 2 ^ 64 := hs
  unfold Machine.Bus.advance Bus.advance
  have e1 : b.wrap.storage.endTime = w b.storage.endTime := BusContainer.endTime_wrap _
  rw [e1]
  have e2 : b.wrap.burstLoop (min (w b.storage.endTime) (w vt)) s.wrap = (b.burstLoop (min b.storage.endTime vt) s).wrap := by
    rw [← w_min he hv, burstLoop_wrap hN h (by omega)]
  simp only [e2, w_lt he hv, zero_lt_w he]
  generalize hS : b.burstLoop (min b.storage.endTime vt) s = S
  have hm : ∀ S : BusStats, b.storage.endTime < vt →
      S.wrap + Machine.BusStats.mul (w vt - w b.storage.endTime - 1) b.wrap.idleStats =
      (S + (vt - b.storage.endTime - 1) * b.idleStats).wrap := by
    intro S hlt
    rw [BusStats.wrap_add, BusStats.wrap_mul, w_sub (by omega), w_sub (by omega)]
    rfl
  by_cases hlt : b.storage.endTime < vt
  · by_cases h0 : 0 < b.storage.endTime
    · have a1 : w b.storage.endTime - 1 = w (b.storage.endTime - 1) := by rw [w_sub (by omega)]; rfl
      simp only [hlt, h0, and_self, if_true, a1, at_wrap h he, at_wrap h (show b.storage.endTime - 1 < 2 ^ 64 by omega)]
      cases b.at? (b.storage.endTime - 1) with
      | error e => rfl
      | ok high =>
        cases b.at? b.storage.endTime with
        | error e => rfl
        | ok low =>
          show Except.ok _ = Except.ok _
          rw [show b.wrap.width = w b.width from rfl, ← diff_wrap hN, ← BusStats.wrap_add, hm _ hlt]
    · simp only [hlt, h0, and_false, if_true, if_false]
      show Except.ok _ = Except.ok _
      rw [hm _ hlt]
  · simp only [hlt, false_and, if_false]
    rfl

/-- What `add_previous_stats` leaves alone. -/
structure Kept (b b' : Bus N) : Prop where
  storage : b'.storage = b.storage
  lastLoad : b'.lastLoad = b.lastLoad
  enabled : b'.enabled = b.enabled
  disableTime : b'.disableTime = b.disableTime
  width : b'.width = b.width
  datarate : b'.datarate = b.datarate
  pend : b'.pending.timestamp = b.pending.timestamp

theorem Kept.small {b b' : Bus N} (k : Kept b b') (h : b.Small) : b'.Small := by
  obtain ⟨k1, k2, k3, k4, k5, k6, k7⟩ := k
  constructor
  · rw [k5]; exact h.width
  · rw [k6]; exact h.rate
  · rw [k2, k1]; exact h.load
  · rw [k1]; exact h.stop
  · rw [k7]; exact h.pend
  · rw [k4]; exact h.dis
  · rw [k3, k1]; exact h.off

/-- The rest of `add_previous_stats`. -/
theorem previous_wrap (hN : N < 2 ^ 64) (h : b.Small) {vt : Nat} (hv : vt < 2 ^ 64) :
    (do
      let s ← b.wrap.advance (w vt) b.wrap.stats
      let b' := { b.wrap with stats := s }
      if 0 < w vt then do
        let p ← b'.at? (w vt - 1)
        pure { b' with lastPattern := p }
      else pure b' : Except Err (Machine.Bus N)) =
    (do
      let s ← b.advance vt b.stats
      let b' := { b with stats := s }
      if 0 < vt then do
        let p ← b'.at? (vt - 1)
        pure { b' with lastPattern := p }
      else pure b' : Except Err (Bus N)).map Bus.wrap ∧
    ∀ b', (do
      let s ← b.advance vt b.stats
      let b' := { b with stats := s }
      if 0 < vt then do
        let p ← b'.at? (vt - 1)
        pure { b' with lastPattern := p }
      else pure b' : Except Err (Bus N)) = .ok b' → Kept b b' := by
  rw [show b.wrap.stats = b.stats.wrap from rfl, advance_wrap hN h hv]
  cases b.advance vt b.stats with
  | error e => exact ⟨rfl, fun b' hb => by cases hb⟩
  | ok s =>
    show ((if 0 < w vt then _ else _) = Except.map _ (if 0 < vt then _ else _)) ∧ ∀ b', (if 0 < vt then _ else _) = Except.ok b' → _
    by_cases h0 : 0 < vt
    · rw [if_pos ((zero_lt_w hv).2 h0), if_pos h0]
      have h' : ({ b with stats := s } : Bus N).Small := ⟨h.width, h.rate, h.load, h.stop, h.pend, h.dis, h.off⟩
      have e1 : w vt - 1 = w (vt - 1) := by rw [w_sub (by omega)]; rfl
      have e2 := at_wrap h' (show vt - 1 < 2 ^ 64 by omega)
      rw [e1]
      change Machine.Bus.at? { b.wrap with stats := s.wrap } _ = _ at e2
      rw [e2]
      cases hp : ({ b with stats := s } : Bus N).at? (vt - 1) with
      | error e => exact ⟨rfl, fun b' hb => by cases hb⟩
      | ok p => exact ⟨rfl, fun b' hb => by cases hb; exact ⟨rfl, rfl, rfl, rfl, rfl, rfl, rfl⟩⟩
    · rw [if_neg (mt (zero_lt_w hv).1 h0), if_neg h0]
      exact ⟨rfl, fun b' hb => by cases hb; exact ⟨rfl, rfl, rfl, rfl, rfl, rfl, rfl⟩⟩

theorem addPrevious_wrap (hN : N < 2 ^ 64) (h : b.Small) {vt : Nat} (hv : vt < 2 ^ 64) :
    b.wrap.addPrevious (w vt) = (b.addPrevious vt).map Bus.wrap ∧ ∀ b', b.addPrevious vt = .ok b' → Kept b b' := by
  unfold Machine.Bus.addPrevious Bus.addPrevious
  have hc : w vt < b.wrap.pending.timestamp ↔ vt < b.pending.timestamp := w_lt hv h.pend
  have hc' : b.wrap.pending.timestamp < w vt ↔ b.pending.timestamp < vt := w_lt h.pend hv
  by_cases h1 : vt < b.pending.timestamp
  · rw [if_pos (hc.2 h1), if_pos h1]
    exact ⟨rfl, fun b' hb => by cases hb⟩
  · rw [if_neg (mt hc.1 h1), if_neg h1]
    by_cases h2 : b.pending.pending = true ∧ b.pending.timestamp < vt
    · have h2' : b.wrap.pending.pending = true ∧ b.wrap.pending.timestamp < w vt := ⟨h2.1, hc'.2 h2.2⟩
      rw [if_pos h2, if_pos h2']
      have h' : ({ b with stats := b.stats + b.pending.stats, pending := { b.pending with pending := false } } : Bus N).Small :=
        ⟨h.width, h.rate, h.load, h.stop, h.pend, h.dis, h.off⟩
      have k := previous_wrap hN h' hv
      have e : ({ b with stats := b.stats + b.pending.stats, pending := { b.pending with pending := false } } : Bus N).wrap =
          { b.wrap with stats := b.wrap.stats + b.wrap.pending.stats, pending := { b.wrap.pending with pending := false } } := by
        have := BusStats.wrap_add b.stats b.pending.stats
        unfold Bus.wrap
        simp only [this]
        rfl
      rw [e] at k
      refine ⟨k.1, fun b' hb => ?_⟩
      obtain ⟨k1, k2, k3, k4, k5, k6, k7⟩ := k.2 b' hb
      exact ⟨k1, k2, k3, k4, k5, k6, k7⟩
    · have h2' : ¬ (b.wrap.pending.pending = true ∧ b.wrap.pending.timestamp < w vt) := fun x => h2 ⟨x.1, hc'.1 x.2⟩
      rw [if_neg h2, if_neg h2']
      exact previous_wrap hN h hv

theorem insertData_ok {d d' : BusContainer N} {t width nBits : Nat} {data : List UInt8}
    (h : d.insertData t width data nBits = .ok d') : d'.count = nBits / width ∧ d'.loadTime = t := by
  unfold BusContainer.insertData at h
  split at h
  · cases h
  · simp only at h
    split at h
    · cases h
    · split at h
      · cases h
      · cases h; exact ⟨rfl, rfl⟩

/-- The rest of `load`. -/
theorem addData_wrap (hN : N < 2 ^ 64) (h : b.Small) (hon : b.enabled = true) {nBits : Nat} (data : List UInt8) (hn : nBits < 2 ^ 64)
    (hend : b.lastLoad + nBits / b.width < 2 ^ 64) :
    b.wrap.addData (w b.lastLoad) data (w nBits) = (b.addData b.lastLoad data nBits).map Bus.wrap ∧
    ∀ b', b.addData b.lastLoad data nBits = .ok b' → b'.Small ∧ b'.width = b.width ∧ b'.datarate = b.datarate := by
  unfold Machine.Bus.addData Bus.addData
  have e1 : b.wrap.storage.insertData (w b.lastLoad) b.wrap.width data (w nBits) =
      (b.storage.insertData b.lastLoad b.width data nBits).map BusContainer.wrap := BusContainer.insertData_wrap _ _ data h.width hn
  rw [e1]
  cases hd : b.storage.insertData b.lastLoad b.width data nBits with
  | error e => exact ⟨rfl, fun b' hb => by cases hb⟩
  | ok d =>
    obtain ⟨d1, d2⟩ := insertData_ok hd
    have hc : d.count < 2 ^ 64 := by rw [d1]; omega
    have h' : ({ b with storage := d } : Bus N).Small :=
      ⟨h.width, h.rate, by show b.lastLoad + d.count < _; rw [d1]; exact hend, by show d.loadTime + d.count < _; rw [d1, d2]; exact hend,
        h.pend, h.dis, fun x => by rw [show b.enabled = false from x] at hon; cases hon⟩
    have hl : b.lastLoad < 2 ^ 64 := by omega
    have e2 : Machine.Bus.at? { b.wrap with storage := d.wrap } (w b.lastLoad) = _ := at_wrap h' hl
    show (Except.bind (Machine.Bus.at? { b.wrap with storage := d.wrap } (w b.lastLoad)) _) = _ ∧ _
    rw [e2]
    show _ ∧ ∀ b', (Except.bind (Bus.at? { b with storage := d } b.lastLoad) _) = Except.ok b' → _
    change _ = Except.map Bus.wrap (Except.bind (Bus.at? { b with storage := d } b.lastLoad) _) ∧ _
    cases Bus.at? ({ b with storage := d } : Bus N) b.lastLoad with
    | error e => exact ⟨rfl, fun b' hb => by cases hb⟩
    | ok first =>
      show ((if w d.count ≠ 0 then _ else _) = Except.map _ (if d.count ≠ 0 then _ else _)) ∧
        ∀ b', (if d.count ≠ 0 then _ else _) = Except.ok b' → _
      have hdiff := diff_wrap hN b.width b.lastPattern first
      by_cases h0 : d.count = 0
      · have h0' : w d.count = 0 := (w_eq_zero hc).2 h0
        rw [if_neg (by simpa using h0'), if_neg (by simpa using h0)]
        refine ⟨?_, fun b' hb => ?_⟩
        · show Except.ok _ = Except.ok (Bus.wrap _)
          unfold Bus.wrap Pending.wrapStats
          simp only [hdiff]
        · cases hb
          exact ⟨⟨h'.width, h'.rate, h'.load, h'.stop, hl, h'.dis, h'.off⟩, rfl, rfl⟩
      · have h0' : w d.count ≠ 0 := mt (w_eq_zero hc).1 h0
        rw [if_pos h0', if_pos h0]
        have e3 : d.wrap.getBurst (w d.count - 1) = d.getBurst (d.count - 1) := by
          rw [show w d.count - 1 = w (d.count - 1) by rw [w_sub (by omega)]; rfl]
          exact BusContainer.getBurst_wrap (by omega) hc
        refine ⟨?_, fun b' hb => ?_⟩
        · show Except.ok _ = Except.ok (Bus.wrap _)
          unfold Bus.wrap Pending.wrapStats
          simp only [hdiff]
          congr 2
        · cases hb
          exact ⟨⟨h'.width, h'.rate, h'.load, h'.stop, hl, h'.dis, h'.off⟩, rfl, rfl⟩

theorem load_wrap (hN : N < 2 ^ 64) (h : b.Small) {t nBits : Nat} (data : List UInt8) (hf : TransferFits b.width b.datarate t nBits) :
    b.wrap.load (w t) data (w nBits) = (b.load t data nBits).map Bus.wrap ∧
    ∀ b', b.load t data nBits = .ok b' → b'.Small ∧ b'.width = b.width ∧ b'.datarate = b.datarate := by
  obtain ⟨ht, hn, hend⟩ := hf
  unfold Machine.Bus.load Bus.load
  cases hon : b.enabled
  · simp only [show b.wrap.enabled = false from hon, Bool.not_false, if_true]
    exact ⟨rfl, fun b' hb => by cases hb; exact ⟨h, rfl, rfl⟩⟩
  · simp only [show b.wrap.enabled = true from hon, Bool.not_true, Bool.false_eq_true, if_false]
    have hz : b.wrap.datarate = 0 ↔ b.datarate = 0 := w_eq_zero h.rate
    by_cases h0 : b.datarate = 0
    · rw [if_pos (hz.2 h0), if_pos h0]
      exact ⟨rfl, fun b' hb => by cases hb⟩
    · rw [if_neg (mt hz.1 h0), if_neg h0]
      have hv : t * b.datarate < 2 ^ 64 := Nat.lt_of_le_of_lt (Nat.le_add_right _ _) hend
      have e1 : w (2 ^ 64 - 1) / b.wrap.datarate = w ((2 ^ 64 - 1) / b.datarate) := (w_div (by decide) h.rate).symm
      have hle : t ≤ (2 ^ 64 - 1) / b.datarate := (Nat.le_div_iff_mul_le (by omega)).2 (by omega)
      have hdiv : (2 ^ 64 - 1) / b.datarate < 2 ^ 64 := Nat.lt_of_le_of_lt (Nat.div_le_self _ _) (by decide)
      rw [if_neg (show ¬ (w (2 ^ 64 - 1) / b.wrap.datarate < w t) by rw [e1, w_lt hdiv ht]; omega)]
      have e2 : w t * b.wrap.datarate = w (t * b.datarate) := (w_mul _ _).symm
      have e3 : b.wrap.lastLoad + b.wrap.storage.count = w (b.lastLoad + b.storage.count) := (w_add _ _).symm
      simp only [e2, e3, w_lt hv h.load]
      by_cases h1 : t * b.datarate < b.lastLoad + b.storage.count
      · rw [if_pos h1, if_pos h1]
        exact ⟨rfl, fun b' hb => by cases hb⟩
      · rw [if_neg h1, if_neg h1]
        have hp := addPrevious_wrap hN h hv
        rw [hp.1]
        cases hb1 : b.addPrevious (t * b.datarate) with
        | error e => exact ⟨rfl, fun b' hb => by cases hb⟩
        | ok b1 =>
          have k := hp.2 b1 hb1
          have hs := k.small h
          have h' : ({ b1 with lastLoad := t * b.datarate, storage := b1.storage.clear } : Bus N).Small :=
            ⟨hs.width, hs.rate, hv, by show (0:Nat) + 0 < 2 ^ 64; decide, hs.pend, hs.dis, fun _ => rfl⟩
          have := addData_wrap (b := { b1 with lastLoad := t * b.datarate, storage := b1.storage.clear }) hN h'
            (by show b1.enabled = true; rw [k.enabled, hon]) data hn (by show _ + _ / b1.width < _; rw [k.width]; exact hend)
          refine ⟨this.1, fun b' hb => ?_⟩
          have h2 := this.2 b' hb
          exact ⟨h2.1, h2.2.1.trans k.width, h2.2.2.trans k.datarate⟩

theorem disable_wrap (hN : N < 2 ^ 64) (h : b.Small) {t : Nat} (hf : TimeFits b.datarate t) :
    b.wrap.disable (w t) = (b.disable t).map Bus.wrap ∧
    ∀ b', b.disable t = .ok b' → b'.Small ∧ b'.width = b.width ∧ b'.datarate = b.datarate := by
  obtain ⟨ht, hv⟩ := hf
  unfold Machine.Bus.disable Bus.disable
  have e2 : w t * b.wrap.datarate = w (t * b.datarate) := (w_mul _ _).symm
  have hl := h.load
  cases hon : b.enabled
  · simp only [show b.wrap.enabled = false from hon, Bool.not_false, if_true, e2]
    have hc : w (t * b.datarate) < b.wrap.disableTime ↔ t * b.datarate < b.disableTime := w_lt hv h.dis
    by_cases h1 : t * b.datarate < b.disableTime
    · rw [if_pos (hc.2 h1), if_pos h1]
      exact ⟨rfl, fun b' hb => by cases hb⟩
    · rw [if_neg (mt hc.1 h1), if_neg h1]
      exact ⟨rfl, fun b' hb => by cases hb; exact ⟨h, rfl, rfl⟩⟩
  · simp only [show b.wrap.enabled = true from hon, Bool.not_true, Bool.false_eq_true, if_false, e2]
    have hc : w (t * b.datarate) < b.wrap.lastLoad ↔ t * b.datarate < b.lastLoad := w_lt hv (by omega)
    by_cases h1 : t * b.datarate < b.lastLoad
    · rw [if_pos (hc.2 h1), if_pos h1]
      exact ⟨rfl, fun b' hb => by cases hb⟩
    · rw [if_neg (mt hc.1 h1), if_neg h1]
      have h' : ({ b with disableTime := t * b.datarate } : Bus N).Small := ⟨h.width, h.rate, h.load, h.stop, h.pend, hv, h.off⟩
      have hp := addPrevious_wrap hN h' hv
      have hp1 : Machine.Bus.addPrevious { b.wrap with disableTime := w (t * b.datarate) } (w (t * b.datarate)) = _ := hp.1
      have er : ∀ x : Machine.Bus N, x = b.wrap → ({ x with disableTime := w (t * b.datarate) } : Machine.Bus N) =
          { b.wrap with disableTime := w (t * b.datarate) } := by rintro x rfl; rfl
      have hon' : b.wrap.enabled = true := hon
      have goal : ∀ y : Except Err (Machine.Bus N), y = (Bus.addPrevious { b with disableTime := t * b.datarate } (t * b.datarate)).map Bus.wrap →
          (y.bind fun b' => Except.ok { b' with storage := b'.storage.clear, lastLoad := w (t * b.datarate), enabled := false }) =
          ((Bus.addPrevious { b with disableTime := t * b.datarate } (t * b.datarate)).bind fun b' => Except.ok
            { b' with storage := b'.storage.clear, lastLoad := t * b.datarate, enabled := false }).map Bus.wrap := by
        rintro y rfl
        cases Bus.addPrevious ({ b with disableTime := t * b.datarate } : Bus N) (t * b.datarate) <;> rfl
      refine ⟨?_, fun b' hb => ?_⟩
      · have := goal _ hp1
        simpa [hon', hon, bind, Except.bind, pure, Except.pure] using this
      · have hb' : (Bus.addPrevious { b with disableTime := t * b.datarate } (t * b.datarate)).bind (fun b' => Except.ok
            { b' with storage := b'.storage.clear, lastLoad := t * b.datarate, enabled := false }) = Except.ok b' := by
          simpa [hon, bind, Except.bind, pure, Except.pure] using hb
        cases hb1 : Bus.addPrevious ({ b with disableTime := t * b.datarate } : Bus N) (t * b.datarate) with
        | error e => rw [hb1] at hb'; cases hb'
        | ok b1 =>
          rw [hb1] at hb'
          cases hb'
          have k := hp.2 b1 hb1
          have hs := k.small h'
          exact ⟨⟨hs.width, hs.rate, hv, by show (0:Nat) + 0 < 2 ^ 64; decide, hs.pend, hs.dis, fun _ => rfl⟩, k.width, k.datarate⟩

theorem enable_wrap (h : b.Small) {t : Nat} (hf : TimeFits b.datarate t) :
    b.wrap.enable (w t) = (b.enable t).map Bus.wrap ∧
    ∀ b', b.enable t = .ok b' → b'.Small ∧ b'.width = b.width ∧ b'.datarate = b.datarate := by
  obtain ⟨ht, hv⟩ := hf
  unfold Machine.Bus.enable Bus.enable
  have e2 : w t * b.wrap.datarate = w (t * b.datarate) := (w_mul _ _).symm
  cases hon : b.enabled
  · simp only [show b.wrap.enabled = false from hon, Bool.false_eq_true, if_false, e2]
    have hc : w (t * b.datarate) ≤ b.wrap.disableTime ↔ t * b.datarate ≤ b.disableTime := w_le hv h.dis
    by_cases h1 : t * b.datarate ≤ b.disableTime
    · rw [if_pos (hc.2 h1), if_pos h1]
      exact ⟨rfl, fun b' hb => by cases hb⟩
    · rw [if_neg (mt hc.1 h1), if_neg h1]
      refine ⟨rfl, fun b' hb => ?_⟩
      cases hb
      exact ⟨⟨h.width, h.rate, by show _ + b.storage.count < _; rw [h.off hon]; exact hv, h.stop, hv, h.dis, fun x => by cases x⟩, rfl, rfl⟩
  · simp only [show b.wrap.enabled = true from hon, if_true]
    exact ⟨rfl, fun b' hb => by cases hb; exact ⟨h, rfl, rfl⟩⟩

theorem step_wrap (hN : N < 2 ^ 64) (h : b.Small) {op : BusOp} (hf : BusCallFits b.width b.datarate op) :
    b.wrap.step (busWord op) = (b.step op).map Bus.wrap ∧
    ∀ b', b.step op = .ok b' → b'.Small ∧ b'.width = b.width ∧ b'.datarate = b.datarate := by
  cases op with
  | load t data n => exact load_wrap hN h data hf
  | disable t => exact disable_wrap hN h hf
  | enable t => exact enable_wrap h hf

theorem run_wrap (hN : N < 2 ^ 64) (ops : List BusOp) : ∀ {b : Bus N}, b.Small → (∀ op ∈ ops, BusCallFits b.width b.datarate op) →
    b.wrap.run (ops.map busWord) = (b.run ops).map Bus.wrap ∧
    ∀ b', b.run ops = .ok b' → b'.Small ∧ b'.datarate = b.datarate := by
  induction ops with
  | nil => intro b h _; exact ⟨rfl, fun b' hb => by cases hb; exact ⟨h, rfl⟩⟩
  | cons op ops ih =>
    intro b h hf
    obtain ⟨h1, h2⟩ := step_wrap hN h (hf op (by simp))
    rw [List.map_cons, Machine.Bus.run, Bus.run, h1]
    cases hb : b.step op with
    | error e => exact ⟨rfl, fun b' hb => by cases hb⟩
    | ok b1 =>
      obtain ⟨s1, s2, s3⟩ := h2 b1 hb
      have := ih s1 (by rw [s2, s3]; exact fun op ho => hf op (by simp [ho]))
      exact ⟨this.1, fun b' hb => ⟨(this.2 b' hb).1, (this.2 b' hb).2.trans s3⟩⟩

theorem getStats_wrap (hN : N < 2 ^ 64) (h : b.Small) {t : Nat} (hf : TimeFits b.datarate t) :
    b.wrap.getStats (w t) = (b.getStats t).map BusStats.wrap := by
  obtain ⟨ht, hv⟩ := hf
  unfold Machine.Bus.getStats Bus.getStats
  have e2 : w t * b.wrap.datarate = w (t * b.datarate) := (w_mul _ _).symm
  have hl := h.load
  have hc : w (t * b.datarate) < b.wrap.lastLoad ↔ t * b.datarate < b.lastLoad := w_lt hv (by omega)
  simp only [e2, hc, w_eq_zero hv]
  split
  · rfl
  · split
    · rfl
    · have hc' : b.wrap.pending.timestamp < w (t * b.datarate) ↔ b.pending.timestamp < t * b.datarate := w_lt h.pend hv
      have hp : b.wrap.pending.pending = b.pending.pending := rfl
      simp only [hp, hc']
      have e3 : (if b.pending.pending = true ∧ b.pending.timestamp < t * b.datarate then b.wrap.stats + b.wrap.pending.stats
          else b.wrap.stats) = (if b.pending.pending = true ∧ b.pending.timestamp < t * b.datarate then b.stats + b.pending.stats
          else b.stats : BusStats).wrap := by
        split
        · exact (BusStats.wrap_add _ _).symm
        · rfl
      rw [e3, show b.wrap.enabled = b.enabled from rfl]
      split
      · exact advance_wrap hN h hv _
      · rfl

theorem init_wrap (hN : N < 2 ^ 64) {width rate : Nat} (hw : width < 2 ^ 64) (hr : rate < 2 ^ 64) (idle : IdlePattern) (on : Bool) :
    Machine.Bus.init N (w width) (w rate) idle on = (Bus.init N width rate idle on).map Bus.wrap ∧
    ∀ b, Bus.init N width rate idle on = .ok b → b.Small ∧ b.width = width ∧ b.datarate = rate := by
  unfold Machine.Bus.init Bus.init
  rw [w_toNat hw]
  split
  · exact ⟨rfl, fun b hb => by cases hb⟩
  · refine ⟨?_, fun b hb => ?_⟩
    · have := diff_wrap hN width (idleOf width idle) (idleOf width idle)
      show Except.ok _ = Except.ok (Bus.wrap _)
      unfold Bus.wrap
      simp only [this]
      cases on
      · rfl
      · show Except.ok _ = Except.ok _
        unfold Pending.wrapStats
        simp only [if_true, this]
        rfl
    · cases hb
      refine ⟨⟨hw, hr, by show (0:Nat) + 0 < 2 ^ 64; decide, by show (0:Nat) + 0 < 2 ^ 64; decide, ?_, by show (0:Nat) < 2 ^ 64; decide, fun _ => rfl⟩,
        rfl, rfl⟩
      cases on <;> (show (0:Nat) < 2 ^ 64; decide)

end Bus
/-! ## Clock -/

def Clock.wrap (c : Clock) : Machine.Clock := { lastStart := c.lastStart.map w, stats := c.stats.wrap, dataRate := w c.dataRate }

/-- The clock was started at a time that fits, in cycles and in beats. -/
def Clock.Small (c : Clock) : Prop := c.dataRate < 2 ^ 64 ∧ ∀ s, c.lastStart = some s → s < 2 ^ 64

namespace Clock
variable {c : Clock}

theorem count_wrap {n : Nat} (h : n * c.dataRate < 2 ^ 64) : c.wrap.count (w n) = (c.count n).wrap := by
  have e : w n * c.wrap.dataRate / 2 = w (n * c.dataRate / 2) := by
    rw [w_div h (by decide), w_mul]; rfl
  simp only [Machine.Clock.count, Clock.count, BusStats.wrap, e, w_add]

theorem stop_wrap (h : c.Small) {t : Nat} (hf : TimeFits c.dataRate t) :
    c.wrap.stop (w t) = (c.stop t).map Clock.wrap ∧ ∀ c', c.stop t = .ok c' → c'.Small ∧ c'.dataRate = c.dataRate := by
  obtain ⟨ls, st, dr⟩ := c
  unfold Machine.Clock.stop Clock.stop
  cases ls with
  | none => exact ⟨rfl, fun c' hc => by cases hc⟩
  | some s =>
    have hs : s < 2 ^ 64 := h.2 s rfl
    show ((if w s < w t then _ else _) = Except.map _ (if s < t then _ else _)) ∧ ∀ c', (if s < t then _ else _) = Except.ok c' → _
    by_cases hlt : s < t
    · rw [if_pos ((w_lt hs hf.1).2 hlt), if_pos hlt]
      refine ⟨?_, fun c' hc => ?_⟩
      · have hm : (t - s) * dr < 2 ^ 64 := Nat.lt_of_le_of_lt (Nat.mul_le_mul_right _ (Nat.sub_le _ _)) hf.2
        have hk := count_wrap (c := { lastStart := some s, stats := st, dataRate := dr }) hm
        show Except.ok _ = Except.ok (Clock.wrap _)
        unfold Clock.wrap
        simp only [BusStats.wrap_add, ← hk, w_sub (Nat.le_of_lt hlt)]
        rfl
      · cases hc
        exact ⟨⟨h.1, fun s' hs' => by cases hs'⟩, rfl⟩
    · rw [if_neg (mt (w_lt hs hf.1).1 hlt), if_neg hlt]
      exact ⟨rfl, fun c' hc => by cases hc⟩

theorem start_wrap (h : c.Small) {t : Nat} (ht : t < 2 ^ 64) :
    c.wrap.start (w t) = (c.start t).map Clock.wrap ∧ ∀ c', c.start t = .ok c' → c'.Small ∧ c'.dataRate = c.dataRate := by
  obtain ⟨ls, st, dr⟩ := c
  unfold Machine.Clock.start Clock.start
  cases ls with
  | some s => exact ⟨rfl, fun c' hc => by cases hc⟩
  | none =>
    refine ⟨rfl, fun c' hc => ?_⟩
    cases hc
    exact ⟨⟨h.1, fun s' hs' => by cases hs'; exact ht⟩, rfl⟩

theorem run_wrap (ops : List ClockOp) : ∀ {c : Clock}, c.Small → (∀ op ∈ ops, ClockCallFits c.dataRate op) →
    c.wrap.run (ops.map clockWord) = (c.run ops).map Clock.wrap ∧ ∀ c', c.run ops = .ok c' → c'.Small ∧ c'.dataRate = c.dataRate := by
  induction ops with
  | nil => intro c h _; exact ⟨rfl, fun c' hc => by cases hc; exact ⟨h, rfl⟩⟩
  | cons op ops ih =>
    intro c h hf
    have go : ∀ {x : Except Err Machine.Clock} {y : Except Err Clock},
        x = y.map Clock.wrap → (∀ c', y = .ok c' → c'.Small ∧ c'.dataRate = c.dataRate) →
        (x >>= fun c => c.run (ops.map clockWord)) = (y >>= fun c => c.run ops).map Clock.wrap ∧
        ∀ c', (y >>= fun c => c.run ops) = .ok c' → c'.Small ∧ c'.dataRate = c.dataRate := by
      rintro x y rfl hy
      cases y with
      | error e => exact ⟨rfl, fun c' hc => by cases hc⟩
      | ok c1 =>
        obtain ⟨s1, s2⟩ := hy c1 rfl
        have := ih s1 (by rw [s2]; exact fun op ho => hf op (by simp [ho]))
        exact ⟨this.1, fun c' hc => ⟨(this.2 c' hc).1, (this.2 c' hc).2.trans s2⟩⟩
    have hop := hf op (by simp)
    cases op with
    | start t => have k := start_wrap h hop.1; exact go k.1 k.2
    | stop t => have k := stop_wrap h hop; exact go k.1 k.2

theorem getStats_wrap (h : c.Small) {t : Nat} (hf : TimeFits c.dataRate t) (hs : ∀ s, c.lastStart = some s → s ≤ t) :
    c.wrap.getStats (w t) = (c.getStats t).wrap := by
  obtain ⟨ls, st, dr⟩ := c
  unfold Machine.Clock.getStats Clock.getStats
  cases ls with
  | none => rfl
  | some s =>
    have hle : s ≤ t := hs s rfl
    have hu : usub t s = t - s := if_pos hle
    have hm : (t - s) * dr < 2 ^ 64 := Nat.lt_of_le_of_lt (Nat.mul_le_mul_right _ (Nat.sub_le _ _)) hf.2
    have hk := count_wrap (c := { lastStart := some s, stats := st, dataRate := dr }) hm
    show st.wrap + Machine.Clock.count _ (w t - w s) = (st + _).wrap
    rw [BusStats.wrap_add, hu, ← hk, w_sub hle]

end Clock

/-! ## Toggling rates -/

def Toggling.wrap (h : Toggling) : Machine.Toggling where
  width := w h.width
  datarate := w h.datarate
  togglingRate := h.togglingRate
  dutyCycle := h.dutyCycle
  idle := h.idle
  enabled := h.enabled
  lastLength := w h.lastLength
  lastLoad := w h.lastLoad
  handled := h.handled
  count := w h.count
  disableTimestamp := w h.disableTimestamp
  disableTime := w h.disableTime

/-- The state after calls up to the beat `now`. -/
structure Toggling.Small (h : Toggling) (now : Nat) : Prop where
  bound : now < 2 ^ 64
  width : h.width < 2 ^ 64
  rate : h.datarate < 2 ^ 64
  pos : 0 < h.datarate
  stop : h.lastLength + h.lastLoad < 2 ^ 64
  load : h.lastLoad ≤ now
  open' : h.handled = false → h.count ≤ h.lastLoad
  count : h.count ≤ now
  disTime : h.disableTimestamp ≤ now
  dis : h.disableTime ≤ (if h.enabled then now else h.disableTimestamp)

namespace Toggling
variable {h : Toggling} {now : Nat}

theorem noOverflow {rate t : Nat} (h0 : 0 < rate) (hr : rate < 2 ^ 64) (hf : TimeFits rate t) : ¬ (w t * w rate / w rate ≠ w t) := by
  rw [not_not, ← w_mul, ← w_div hf.2 hr, Nat.mul_div_cancel _ h0]

theorem incBurst_wrap (hs : h.Small now) {t n : Nat} (hn : now ≤ t * h.datarate) (ht : t < 2 ^ 64) (hf : t * h.datarate + n < 2 ^ 64) :
    h.wrap.incBurst (w t) (w n) = (h.incBurst t n).map Toggling.wrap ∧
    ∀ h', h.incBurst t n = .ok h' → h'.Small (t * h.datarate) ∧ h'.width = h.width ∧ h'.datarate = h.datarate := by
  have hv : t * h.datarate < 2 ^ 64 := by omega
  have e1 : w t * h.wrap.datarate = w (t * h.datarate) := (w_mul _ _).symm
  have e2 : h.wrap.lastLength + h.wrap.lastLoad = w (h.lastLength + h.lastLoad) := (w_add _ _).symm
  unfold Machine.Toggling.incBurst Toggling.incBurst
  simp only
  have hno : ¬ (w t * h.wrap.datarate / h.wrap.datarate ≠ w t) := noOverflow hs.pos hs.rate ⟨ht, hv⟩
  rw [if_neg hno, e1, e2]
  simp only [w_lt hv hs.stop, show h.wrap.handled = h.handled from rfl, show h.wrap.enabled = h.enabled from rfl]
  by_cases h1 : (!h.handled) = true ∧ t * h.datarate < h.lastLength + h.lastLoad
  · rw [if_pos h1, if_pos h1]
    exact ⟨rfl, fun h' hh => by cases hh⟩
  · rw [if_neg h1, if_neg h1]
    have e3 : (if (!h.handled) = true then h.wrap.count + h.wrap.lastLength else h.wrap.count) =
        w (if (!h.handled) = true then h.count + h.lastLength else h.count) := by
      split
      · exact (w_add _ _).symm
      · rfl
    rw [e3]
    have hc : (if (!h.handled) = true then h.count + h.lastLength else h.count) ≤ t * h.datarate := by
      have h2 := hs.count
      have h3 := hs.open'
      cases hh : h.handled
      · rw [hh] at h1; simp at h1 ⊢; have := h3 hh; omega
      · simp; omega
    have hd : h.disableTime ≤ (if h.enabled then t * h.datarate else h.disableTimestamp) := by
      have := hs.dis
      split at this
      · rw [if_pos (by assumption)]; omega
      · rw [if_neg (by assumption)]; omega
    have hd' := hs.disTime
    cases hon : h.enabled
    · simp only [Bool.false_eq_true, if_false]
      refine ⟨?_, fun h' hh => ?_⟩
      · show Except.ok _ = Except.ok _
        unfold Toggling.wrap
        simp only [hon]
      · cases hh
        rw [hon] at hd
        have hl := hs.load
        exact ⟨⟨hv, hs.width, hs.rate, hs.pos, hs.stop, by show h.lastLoad ≤ _; omega, fun x => (by cases x), hc,
          by show h.disableTimestamp ≤ _; omega, by simpa [hon] using hd⟩, rfl, rfl⟩
    · simp only [if_true]
      refine ⟨?_, fun h' hh => ?_⟩
      · show Except.ok _ = Except.ok _
        unfold Toggling.wrap
        simp only [hon]
      · cases hh
        rw [hon] at hd
        exact ⟨⟨hv, hs.width, hs.rate, hs.pos, by show n + t * h.datarate < _; omega, Nat.le_refl _, fun _ => hc, hc,
          by show h.disableTimestamp ≤ _; omega, by simpa [hon] using hd⟩, rfl, rfl⟩

theorem incBits_wrap (hs : h.Small now) {t bits : Nat} (hn : now ≤ t * h.datarate) (hf : TransferFits h.width h.datarate t bits) :
    h.wrap.incBits (w t) (w bits) = (h.incBits t bits).map Toggling.wrap ∧
    ∀ h', h.incBits t bits = .ok h' → h'.Small (t * h.datarate) ∧ h'.width = h.width ∧ h'.datarate = h.datarate := by
  obtain ⟨ht, hb, he⟩ := hf
  unfold Machine.Toggling.incBits Toggling.incBits
  have z : h.wrap.width = 0 ↔ h.width = 0 := w_eq_zero hs.width
  have e1 : w bits % h.wrap.width = w (bits % h.width) := (w_mod hb hs.width).symm
  have e2 : w bits / h.wrap.width = w (bits / h.width) := (w_div hb hs.width).symm
  have z2 : w (bits % h.width) = 0 ↔ bits % h.width = 0 := w_eq_zero (Nat.lt_of_le_of_lt (Nat.mod_le _ _) hb)
  by_cases h0 : h.width = 0
  · rw [if_pos (z.2 h0), if_pos h0]
    exact ⟨rfl, fun h' hh => by cases hh⟩
  · rw [if_neg (mt z.1 h0), if_neg h0, e1, e2]
    by_cases h1 : bits % h.width = 0
    · rw [if_neg (not_not.2 (z2.2 h1)), if_neg (not_not.2 h1)]
      exact incBurst_wrap hs hn ht he
    · rw [if_pos (mt z2.1 h1), if_pos h1]
      exact ⟨rfl, fun h' hh => by cases hh⟩

theorem disable_wrap (hs : h.Small now) {t : Nat} (hn : now ≤ t * h.datarate) (hf : TimeFits h.datarate t) :
    h.wrap.disable (w t) = (h.disable t).wrap ∧
    ((h.disable t).Small (t * h.datarate) ∧ (h.disable t).width = h.width ∧ (h.disable t).datarate = h.datarate) := by
  obtain ⟨ht, hv⟩ := hf
  have e1 : w t * h.wrap.datarate = w (t * h.datarate) := (w_mul _ _).symm
  have e2 : h.wrap.lastLength + h.wrap.lastLoad = w (h.lastLength + h.lastLoad) := (w_add _ _).symm
  have hl := hs.load
  have hc := hs.count
  have ho := hs.open'
  have hd := hs.dis
  have hdt := hs.disTime
  unfold Machine.Toggling.disable Toggling.disable
  simp only [e1, e2, w_le hs.stop hv, show h.wrap.handled = h.handled from rfl, show h.wrap.enabled = h.enabled from rfl]
  cases hon : h.enabled
  · rw [hon] at hd
    simp only [Bool.not_false, if_true]
    exact ⟨by trivial, ⟨hv, hs.width, hs.rate, hs.pos, hs.stop, by omega, ho, by omega, by omega, by simpa [hon] using hd⟩, by trivial, by trivial⟩
  · rw [hon] at hd
    simp only [Bool.not_true, Bool.false_eq_true, if_false]
    have hu : usub (t * h.datarate) h.lastLoad = t * h.datarate - h.lastLoad := if_pos (by omega)
    refine ⟨?_, ⟨hv, hs.width, hs.rate, hs.pos, hs.stop, by show h.lastLoad ≤ _; omega, fun x => (by cases x), ?_, Nat.le_refl _, ?_⟩, by trivial, by trivial⟩
    · unfold Toggling.wrap
      simp only [hu]
      congr 1
      split
      · split
        · exact (w_add _ _).symm
        · rw [w_add, w_sub (by omega)]
      · rfl
    · show (if (!h.handled) = true then _ else _) ≤ _
      cases hh : h.handled
      · have := ho hh
        simp only [Bool.not_false, if_true, hu]
        split <;> omega
      · simp; omega
    · show h.disableTime ≤ t * h.datarate
      simp at hd
      omega

theorem enable_wrap (hs : h.Small now) {t : Nat} (hn : now ≤ t * h.datarate) (hf : TimeFits h.datarate t) :
    h.wrap.enable (w t) = (h.enable t).wrap ∧
    ((h.enable t).Small (t * h.datarate) ∧ (h.enable t).width = h.width ∧ (h.enable t).datarate = h.datarate) := by
  obtain ⟨ht, hv⟩ := hf
  have hl := hs.load
  have hc := hs.count
  have ho := hs.open'
  have hd := hs.dis
  have hdt := hs.disTime
  unfold Machine.Toggling.enable Toggling.enable
  simp only [show h.wrap.enabled = h.enabled from rfl]
  cases hon : h.enabled
  · rw [hon] at hd
    simp only [Bool.false_eq_true, if_false] at hd ⊢
    have hu : usub (t * h.datarate) h.disableTimestamp = t * h.datarate - h.disableTimestamp := if_pos (by omega)
    refine ⟨?_, ⟨hv, hs.width, hs.rate, hs.pos, hs.stop, by show h.lastLoad ≤ _; omega, ho, by show h.count ≤ _; omega,
      by show h.disableTimestamp ≤ _; omega, ?_⟩, by trivial, by trivial⟩
    · unfold Toggling.wrap
      simp only [hu, w_add, w_sub (show h.disableTimestamp ≤ t * h.datarate by omega), w_mul]
    · show h.disableTime + usub (t * h.datarate) h.disableTimestamp ≤ t * h.datarate
      rw [hu]; omega
  · rw [hon] at hd
    simp only [if_true] at hd ⊢
    exact ⟨by trivial, ⟨hv, hs.width, hs.rate, hs.pos, hs.stop, by omega, ho, by omega, by omega, by simp [hon]; omega⟩, by trivial, by trivial⟩

theorem Small.rates (hs : h.Small now) (r d : Rate) (i : ToggleIdle) : (h.setRates r d i).Small now :=
  ⟨hs.bound, hs.width, hs.rate, hs.pos, hs.stop, hs.load, hs.open', hs.count, hs.disTime, hs.dis⟩

theorem run_wrap (ops : List ToggleOp) : ∀ {h : Toggling} {now : Nat}, h.Small (now * h.datarate) →
    ToggleCallsFit h.width h.datarate now ops →
    h.wrap.run (ops.map toggleWord) = (h.run ops).map Toggling.wrap ∧
    ∀ h', h.run ops = .ok h' → h'.Small (lastToggle now ops * h.datarate) ∧ h'.width = h.width ∧ h'.datarate = h.datarate := by
  induction ops with
  | nil => intro h now hs _; exact ⟨rfl, fun h' hh => by cases hh; exact ⟨hs, rfl, rfl⟩⟩
  | cons op ops ih =>
    intro h now hs hf
    rw [List.map_cons, Machine.Toggling.run, Toggling.run]
    cases op with
    | transfer t bits =>
      obtain ⟨hn, h1, h2⟩ := hf
      have k := incBits_wrap hs (Nat.mul_le_mul_right _ hn) h1
      show (match h.wrap.incBits (w t) (w bits) with | .ok h => h.run (ops.map toggleWord) | .error e => .error e) =
        Except.map _ (match h.incBits t bits with | .ok h => h.run ops | .error e => .error e) ∧
        ∀ h', (match h.incBits t bits with | .ok h => h.run ops | .error e => .error e) = .ok h' → _
      rw [k.1]
      cases hb : h.incBits t bits with
      | error e => exact ⟨rfl, fun h' hh => by cases hh⟩
      | ok g =>
        obtain ⟨s1, s2, s3⟩ := k.2 g hb
        rw [← s3] at s1
        have := ih s1 (by rw [s2, s3]; exact h2)
        rw [s2, s3] at this
        exact this
    | disable t =>
      obtain ⟨hn, h1, h2⟩ := hf
      have k := disable_wrap hs (Nat.mul_le_mul_right _ hn) h1
      show Machine.Toggling.run (h.wrap.disable (w t)) _ = _ ∧ _
      rw [k.1]
      obtain ⟨s1, s2, s3⟩ := k.2
      rw [← s3] at s1
      have := ih s1 (by rw [s2, s3]; exact h2)
      rw [s2, s3] at this
      exact this
    | enable t =>
      obtain ⟨hn, h1, h2⟩ := hf
      have k := enable_wrap hs (Nat.mul_le_mul_right _ hn) h1
      show Machine.Toggling.run (h.wrap.enable (w t)) _ = _ ∧ _
      rw [k.1]
      obtain ⟨s1, s2, s3⟩ := k.2
      rw [← s3] at s1
      have := ih s1 (by rw [s2, s3]; exact h2)
      rw [s2, s3] at this
      exact this
    | rates r d i => exact ih (h := h.setRates r d i) (hs.rates r d i) hf

theorem product_wrap {n num den : Nat} (hn : n < 2 ^ 64) : w ((w n).toNat * num / den) = w (n * num / den) := by rw [w_toNat hn]

theorem getStats_wrap (hs : h.Small now) {t : Nat} (hn : now ≤ t * h.datarate) (hf : TimeFits h.datarate t) :
    h.wrap.getStats (w t) = (h.getStats t).map BusStats.wrap := by
  obtain ⟨ht, hv⟩ := hf
  have e1 : w t * h.wrap.datarate = w (t * h.datarate) := (w_mul _ _).symm
  have e2 : h.wrap.lastLength + h.wrap.lastLoad = w (h.lastLength + h.lastLoad) := (w_add _ _).symm
  have hl := hs.load
  have hc := hs.count
  have ho := hs.open'
  have hd := hs.dis
  have hdt := hs.disTime
  have hst := hs.stop
  have hu : usub (t * h.datarate) h.lastLoad = t * h.datarate - h.lastLoad := if_pos (by omega)
  have hu' : usub (t * h.datarate) h.disableTimestamp = t * h.datarate - h.disableTimestamp := if_pos (by omega)
  unfold Machine.Toggling.getStats Toggling.getStats
  simp only
  have hno : ¬ (w t * h.wrap.datarate / h.wrap.datarate ≠ w t) := noOverflow hs.pos hs.rate ⟨ht, hv⟩
  rw [if_neg hno, e1, e2]
  simp only [w_lt hv hs.stop, show h.wrap.handled = h.handled from rfl, show h.wrap.enabled = h.enabled from rfl, hu, hu']
  obtain ⟨C, hC, hC'⟩ : ∃ C, (if h.enabled = true ∧ (!h.handled) = true then
      if t * h.datarate < h.lastLength + h.lastLoad then h.count + (t * h.datarate - h.lastLoad) else h.count + h.lastLength
      else h.count) = C ∧ C < 2 ^ 64 := by
    refine ⟨_, rfl, ?_⟩
    split
    · rename_i hx
      have := ho (by simpa using hx.2)
      split <;> omega
    · omega
  have hCw : (if h.enabled = true ∧ (!h.handled) = true then
      if t * h.datarate < h.lastLength + h.lastLoad then h.wrap.count + (w (t * h.datarate) - h.wrap.lastLoad)
        else h.wrap.count + h.wrap.lastLength
      else h.wrap.count) = w C := by
    rw [← hC]
    split
    · split
      · rw [w_add, w_sub (by omega)]; rfl
      · exact (w_add _ _).symm
    · rfl
  obtain ⟨D, hD, hD'⟩ : ∃ D, (if h.enabled = true then h.disableTime else h.disableTime + (t * h.datarate - h.disableTimestamp)) = D ∧
      D ≤ t * h.datarate := by
    refine ⟨_, rfl, ?_⟩
    split at hd <;> simp_all <;> omega
  have hDw : (if h.enabled = true then h.wrap.disableTime else h.wrap.disableTime + (w (t * h.datarate) - h.wrap.disableTimestamp)) = w D := by
    rw [← hD]
    split
    · rfl
    · rw [w_add, w_sub (by omega)]; rfl
  rw [hCw, hDw, hC, hD]
  have hi : usub (usub (t * h.datarate) D) C = usub (t * h.datarate - D) C := by rw [show usub (t * h.datarate) D = _ from if_pos hD']
  have hiw : w (t * h.datarate) - w D - w C = w (usub (usub (t * h.datarate) D) C) := by
    rw [hi, w_usub (by omega), w_sub hD']
  rw [hiw, w_toNat hC']
  show (match h.idle with | .invalid => _ | .L => _ | .H => _) = _
  cases h.idle <;> simp only [Except.map, BusStats.wrap, w_mul, w_add] <;> rfl

theorem init_wrap {width rate : Nat} (hw : width < 2 ^ 64) (hr : rate < 2 ^ 64) (tr dc : Rate) (idle : ToggleIdle) (on : Bool) :
    Machine.Toggling.init (w width) (w rate) tr dc idle on = (Toggling.init width rate tr dc idle on).map Toggling.wrap ∧
    ∀ h, Toggling.init width rate tr dc idle on = .ok h → h.Small (0 * h.datarate) ∧ h.width = width ∧ h.datarate = rate := by
  unfold Machine.Toggling.init Toggling.init
  simp only [w_eq_zero hw, w_eq_zero hr]
  split
  · exact ⟨rfl, fun h hh => by cases hh⟩
  · split
    · exact ⟨rfl, fun h hh => by cases hh⟩
    · rename_i h0
      refine ⟨rfl, fun h hh => ?_⟩
      cases hh
      refine ⟨⟨by simp, hw, hr, Nat.pos_of_ne_zero h0, by simp, by simp, fun x => (by cases x), by simp, by simp, by simp⟩, rfl, rfl⟩

end Toggling
/-! ## Pin -/

def BitsetContainer.wrap (d : BitsetContainer N) : Machine.BitsetContainer N :=
  { bitset := d.bitset, count := w d.count, loadTime := w d.loadTime }

def Pending.wrapStates (p : Pending (PinState × PinState)) : Machine.Pending (PinState × PinState) :=
  { timestamp := w p.timestamp, stats := p.stats, pending := p.pending }

def Pin.wrap (p : Pin N) : Machine.Pin N where
  pending := p.pending.wrapStates
  stats := p.stats.wrap
  lastState := p.lastState
  idleState := p.idleState
  initLoad := p.initLoad
  lastSet := w p.lastSet
  storage := p.storage.wrap

/-- The times of a pin fit into 64 bits. -/
structure Pin.Small (p : Pin N) : Prop where
  size : p.storage.count ≤ N
  load : p.storage.loadTime = p.lastSet
  stop : p.lastSet + N + 1 < 2 ^ 64
  pend : p.pending.timestamp < 2 ^ 64

namespace Pin
variable {p : Pin N}

theorem change_wrap (a b : PinState) : (change a b).wrap = Machine.Pin.change a b := by cases a <;> cases b <;> rfl

theorem duration_wrap (a : PinState) (n : Nat) : (duration a n).wrap = Machine.Pin.duration a (w n) := by cases a <;> rfl

theorem stats_wrap {d : BitsetContainer N} (hd : d.count ≤ N) {t : Nat} (hl : d.loadTime + N < 2 ^ 64) (ht : t < 2 ^ 64) (hlt : d.loadTime ≤ t) :
    d.wrap.stats (w d.loadTime) (w t) = (d.stats d.loadTime t).map BusStats.wrap := by
  unfold Machine.BitsetContainer.stats BitsetContainer.stats
  have hu : usub t d.loadTime = t - d.loadTime := if_pos hlt
  have e1 : w t - w d.loadTime = w (t - d.loadTime) := (w_sub hlt).symm
  have e2 : w d.loadTime - d.wrap.loadTime = w (d.loadTime - d.loadTime) := (w_sub (Nat.le_refl _)).symm
  rw [if_neg (show ¬ (w d.loadTime < d.wrap.loadTime) from by rw [show d.wrap.loadTime = w d.loadTime from rfl, w_lt (by omega) (by omega)]; omega),
    if_neg (Nat.lt_irrefl _)]
  simp only [hu, e1, e2]
  have e3 : (if d.wrap.count < w (t - d.loadTime) then d.wrap.count else w (t - d.loadTime)) =
      w (if d.count < t - d.loadTime then d.count else t - d.loadTime) := by
    have : d.wrap.count < w (t - d.loadTime) ↔ d.count < t - d.loadTime := w_lt (by omega) (by omega)
    simp only [this]
    split <;> rfl
  rw [e3]
  obtain ⟨L, hL, hL'⟩ : ∃ L, (if d.count < t - d.loadTime then d.count else t - d.loadTime) = L ∧ L ≤ d.count := by
    refine ⟨_, rfl, ?_⟩
    split <;> omega
  rw [hL, Nat.sub_self, ← w_add, Nat.add_zero]
  have hc : d.wrap.count < w L ↔ d.count < L := w_lt (by omega) (by omega)
  rw [if_neg (mt hc.1 (by omega)), if_neg (by omega), w_toNat (show L < 2 ^ 64 by omega), w_toNat (show 0 < 2 ^ 64 by decide)]
  have p1 := popcount_le_size (d.bitset >>> 0 &&& BitsetContainer.mask N L)
  have p2 := popcount_le_size (((d.bitset >>> 0 &&& BitsetContainer.mask N L) ^^^ (d.bitset >>> 0 &&& BitsetContainer.mask N L) >>> 1) &&&
    BitsetContainer.mask N L >>> 1 &&& (d.bitset >>> 0 &&& BitsetContainer.mask N L) >>> 1)
  show Except.ok _ = Except.ok (BusStats.wrap _)
  unfold BusStats.wrap
  simp only
  rw [w_usub (by omega), w_usub (by omega)]
  rfl

theorem pushBack_wrap {d : BitsetContainer N} (hN : N + 1 < 2 ^ 64) (hd : d.count ≤ N) (hl : d.loadTime < 2 ^ 64) {t : Nat} (ht : t < 2 ^ 64) (bit : Bool) :
    d.wrap.pushBack (w t) bit = (d.pushBack t bit).map BitsetContainer.wrap ∧
    ∀ d', d.pushBack t bit = .ok d' → d'.count ≤ N ∧ d'.loadTime = t := by
  unfold Machine.BitsetContainer.pushBack BitsetContainer.pushBack
  have e1 : (if w t ≠ d.wrap.loadTime then { d.wrap with count := 0, loadTime := w t } else d.wrap) =
      (if t ≠ d.loadTime then { d with count := 0, loadTime := t } else d : BitsetContainer N).wrap := by
    have : w t = d.wrap.loadTime ↔ t = d.loadTime := w_inj ht hl
    by_cases h : t = d.loadTime
    · rw [if_neg (not_not.2 (this.2 h)), if_neg (not_not.2 h)]
    · rw [if_pos (mt this.1 h), if_pos h]; rfl
  obtain ⟨g, hg, h1, h2⟩ : ∃ g, (if t ≠ d.loadTime then { d with count := 0, loadTime := t } else d : BitsetContainer N) = g ∧ g.count ≤ N ∧
      g.loadTime = t := by
    refine ⟨_, rfl, ?_⟩
    split
    · exact ⟨Nat.zero_le _, rfl⟩
    · rename_i h; exact ⟨hd, (not_not.1 h).symm⟩
  simp only [e1, hg]
  have e2 : (g.wrap.count + 1).toNat = (g.count + 1) % 2 ^ 64 := by
    rw [show g.wrap.count + 1 = w (g.count + 1) from (w_add _ 1).symm]; exact UInt64.toNat_ofNat'
  have e3 : N < (g.wrap.count + 1).toNat ↔ N < g.count + 1 := by
    rw [e2]
    by_cases hx : g.count + 1 < 2 ^ 64
    · rw [Nat.mod_eq_of_lt hx]
    · omega
  simp only [e3]
  split
  · exact ⟨rfl, fun d' hd' => by cases hd'⟩
  · rename_i hx
    refine ⟨?_, fun d' hd' => by cases hd'; exact ⟨by show g.count + 1 ≤ N; omega, h2⟩⟩
    show Except.ok _ = Except.ok (BitsetContainer.wrap _)
    unfold BitsetContainer.wrap
    simp only [w_add, w_toNat (show g.count < 2 ^ 64 by omega)]
    rfl

theorem count_wrap (hs : p.Small) {vt : Nat} (hv : vt < 2 ^ 64) (hle : p.lastSet ≤ vt) (st : PinState) (s : BusStats) :
    p.wrap.count (w vt) p.wrap.lastSet st s.wrap = (p.count vt p.lastSet st s).map BusStats.wrap := by
  have h1 := hs.size
  have h2 := hs.load
  have h3 := hs.stop
  unfold Machine.Pin.count Pin.count
  have e1 : p.wrap.storage.endTime = w p.storage.endTime := (w_add _ _).symm
  have he : p.storage.endTime < 2 ^ 64 := by show p.storage.loadTime + p.storage.count < _; omega
  have c1 : w vt ≤ p.wrap.lastSet ↔ vt ≤ p.lastSet := w_le hv (by omega)
  have c2 : p.wrap.lastSet < w p.storage.endTime ↔ p.lastSet < p.storage.endTime := w_lt (by omega) he
  rw [e1]
  simp only [c1, c2, w_lt he hv]
  split
  · rfl
  · split
    · rename_i hlt
      have e2 : p.wrap.storage.stats p.wrap.lastSet (w vt) = (p.storage.stats p.lastSet vt).map BusStats.wrap := by
        rw [show p.wrap.lastSet = w p.lastSet from rfl, ← h2]
        exact stats_wrap h1 (by omega) hv (by omega)
      rw [e2]
      cases p.storage.stats p.lastSet vt with
      | error e => rfl
      | ok c =>
        show (if p.storage.endTime < vt then _ else _) = Except.map _ (if p.storage.endTime < vt then _ else _)
        split
        · rename_i hlt'
          have e3 : p.wrap.storage.last = p.storage.last := by
            unfold Machine.BitsetContainer.last BitsetContainer.last
            have : p.wrap.storage.count = 0 ↔ p.storage.count = 0 := w_eq_zero (by omega)
            by_cases h0 : p.storage.count = 0
            · rw [if_pos (this.2 h0), if_pos h0]
            · rw [if_neg (mt this.1 h0), if_neg h0, show p.wrap.storage.count - 1 = w (p.storage.count - 1) by rw [w_sub (by omega)]; rfl,
                w_toNat (by omega)]
              rfl
          rw [e3]
          cases p.storage.last with
          | error e => rfl
          | ok b =>
            show Except.ok _ = Except.ok _
            rw [BusStats.wrap_add, BusStats.wrap_add, BusStats.wrap_add, change_wrap, duration_wrap, w_sub (by omega)]
        · show Except.ok _ = Except.ok _
          rw [BusStats.wrap_add]
    · show Except.ok _ = Except.ok _
      rw [BusStats.wrap_add, duration_wrap, w_sub hle]
      rfl

theorem addPending_wrap {vt : Nat} (hv : vt < 2 ^ 64) {q : Pending (PinState × PinState)} (hq : q.timestamp < 2 ^ 64) (s : BusStats) :
    Machine.Pin.addPending (w vt) q.wrapStates s.wrap = (addPending vt q s).wrap := by
  unfold Machine.Pin.addPending addPending
  have : q.wrapStates.timestamp < w vt ↔ q.timestamp < vt := w_lt hq hv
  simp only [this, show q.wrapStates.pending = q.pending from rfl]
  split
  · rw [BusStats.wrap_add, change_wrap]; rfl
  · rfl

theorem levels_wrap (hs : p.Small) {vt : Nat} (hv : vt < 2 ^ 64) (hle : p.lastSet ≤ vt) (s : BusStats) :
    p.wrap.count (w vt) p.wrap.lastSet p.wrap.idleState (Machine.Pin.addPending (w vt) p.wrap.pending
      (if p.wrap.initLoad = true ∧ 0 < w vt then s.wrap + Machine.Pin.change p.wrap.lastState p.wrap.idleState else s.wrap)) =
    (p.count vt p.lastSet p.idleState (addPending vt p.pending
      (if p.initLoad = true ∧ 0 < vt then s + change p.lastState p.idleState else s))).map BusStats.wrap := by
  have e1 : (if p.wrap.initLoad = true ∧ 0 < w vt then s.wrap + Machine.Pin.change p.wrap.lastState p.wrap.idleState else s.wrap) =
      (if p.initLoad = true ∧ 0 < vt then s + change p.lastState p.idleState else s : BusStats).wrap := by
    simp only [zero_lt_w hv, show p.wrap.initLoad = p.initLoad from rfl]
    split
    · rw [BusStats.wrap_add, change_wrap]; rfl
    · rfl
  rw [e1, show p.wrap.pending = p.pending.wrapStates from rfl, addPending_wrap hv hs.pend]
  exact count_wrap hs hv hle _ _

theorem setInternal_wrap (hs : p.Small) {t rate : Nat} (hv : t * rate < 2 ^ 64) (s : BusStats) :
    p.wrap.setInternal (w t) (w rate) s.wrap = (p.setInternal t rate s).map BusStats.wrap := by
  have h3 := hs.stop
  unfold Machine.Pin.setInternal Pin.setInternal
  have c : w (t * rate) < p.wrap.lastSet ↔ t * rate < p.lastSet := w_lt hv (by omega)
  simp only [← w_mul, c]
  split
  · rfl
  · exact levels_wrap hs hv (by omega) s

theorem getStats_wrap (hs : p.Small) {t rate : Nat} (hv : t * rate < 2 ^ 64) :
    p.wrap.getStats (w t) (w rate) = (p.getStats t rate).map BusStats.wrap := by
  have h3 := hs.stop
  unfold Machine.Pin.getStats Pin.getStats
  have c : w (t * rate) < p.wrap.lastSet ↔ t * rate < p.lastSet := w_lt hv (by omega)
  have c' : w (t * rate) = p.wrap.lastSet ↔ t * rate = p.lastSet := w_inj hv (by omega)
  simp only [← w_mul, c, c']
  split
  · rfl
  · split
    · rfl
    · exact levels_wrap hs hv (by omega) p.stats

theorem set_wrap (hs : p.Small) {t rate : Nat} (hf : PinTimeFits N rate t) (st : PinState) :
    p.wrap.set (w t) st (w rate) = (p.set t st rate).map Pin.wrap ∧ ∀ p', p.set t st rate = .ok p' → p'.Small := by
  obtain ⟨ht, hv, hvv⟩ := hf
  have h1 := hs.size
  have h2 := hs.load
  have h3 := hs.stop
  have hv' : t * rate < 2 ^ 64 := by omega
  unfold Machine.Pin.set Pin.set
  simp only [← w_mul]
  rw [show p.wrap.stats = p.stats.wrap from rfl, setInternal_wrap hs hvv]
  cases p.setInternal (t * rate) rate p.stats with
  | error e => exact ⟨rfl, fun p' hp => by cases hp⟩
  | ok s =>
    have hpb := pushBack_wrap (d := p.storage) (by omega) h1 (by omega) hv' (st == .H)
    have c1 : (p.wrap.pending.pending = true ∧ p.wrap.pending.timestamp < w (t * rate)) ↔
        (p.pending.pending = true ∧ p.pending.timestamp < t * rate) := and_congr Iff.rfl (w_lt hs.pend hv')
    have c2 : (p.wrap.lastSet ≠ w (t * rate) ∨ p.wrap.initLoad = true) ↔ (p.lastSet ≠ t * rate ∨ p.initLoad = true) :=
      or_congr (not_congr (w_inj (by omega) hv')) Iff.rfl
    have c3 : (w (t * rate) = p.wrap.lastSet + p.wrap.storage.count ∨ (p.wrap.initLoad = true ∧ w (t * rate) = 0)) ↔
        (t * rate = p.lastSet + p.storage.count ∨ (p.initLoad = true ∧ t * rate = 0)) := by
      refine or_congr ?_ (and_congr Iff.rfl (w_eq_zero hv'))
      rw [show p.wrap.lastSet + p.wrap.storage.count = w (p.lastSet + p.storage.count) from (w_add _ _).symm, w_inj hv' (by omega)]
    have hpb1 : p.wrap.storage.pushBack (w (t * rate)) (st == .H) = _ := hpb.1
    simp only [Except.map, bind, Except.bind, pure, Except.pure]
    by_cases b1 : p.pending.pending = true ∧ p.pending.timestamp < t * rate <;>
      by_cases b2 : p.lastSet ≠ t * rate ∨ p.initLoad = true <;>
      by_cases b3 : t * rate = p.lastSet + p.storage.count ∨ (p.initLoad = true ∧ t * rate = 0) <;>
      simp only [c1, c2, c3, b1, b2, b3, and_self, if_true, if_false] <;> rw [hpb1] <;>
      (cases hd : p.storage.pushBack (t * rate) (st == .H) with
        | error e => exact ⟨rfl, fun p' hp => by cases hp⟩
        | ok d =>
          obtain ⟨d1, d2⟩ := hpb.2 d hd
          refine ⟨rfl, fun p' hp => ?_⟩
          cases hp
          first
          | exact ⟨d1, d2, hv, hv'⟩
          | exact ⟨d1, d2, hv, hs.pend⟩)

theorem burst_wrap {t rate : Nat} (hf : PinTimeFits N rate t) (bits : List PinState) : ∀ {p : Pin N}, p.Small →
    p.wrap.burst (w t) bits (w rate) = (p.burst t bits rate).map Pin.wrap ∧ ∀ p', p.burst t bits rate = .ok p' → p'.Small := by
  induction bits with
  | nil => intro p hs; exact ⟨rfl, fun p' hp => by cases hp; exact hs⟩
  | cons b bits ih =>
    intro p hs
    have k := set_wrap hs hf b
    unfold Machine.Pin.burst Pin.burst at *
    rw [List.foldlM_cons, List.foldlM_cons, k.1]
    cases hb : p.set t b rate with
    | error e => exact ⟨rfl, fun p' hp => by cases hp⟩
    | ok q => exact ih (k.2 q hb)

theorem run_wrap {rate : Nat} (bursts : List (Nat × List PinState)) : ∀ {p : Pin N}, p.Small → (∀ b ∈ bursts, PinTimeFits N rate b.1) →
    p.wrap.run (bursts.map fun b => (w b.1, b.2)) (w rate) = (p.run bursts rate).map Pin.wrap ∧
    ∀ p', p.run bursts rate = .ok p' → p'.Small := by
  induction bursts with
  | nil => intro p hs _; exact ⟨rfl, fun p' hp => by cases hp; exact hs⟩
  | cons b bursts ih =>
    intro p hs hf
    have k := burst_wrap (hf b (by simp)) b.2 hs
    unfold Machine.Pin.run Pin.run at *
    rw [List.map_cons, List.foldlM_cons, List.foldlM_cons, k.1]
    cases hb : p.burst b.1 b.2 rate with
    | error e => exact ⟨rfl, fun p' hp => by cases hp⟩
    | ok q => exact ih (k.2 q hb) (fun x hx => hf x (by simp [hx]))

theorem small_init (hN : N + 1 < 2 ^ 64) (a b : PinState) : (Pin.init N a b).Small :=
  ⟨Nat.zero_le _, rfl, by show 0 + N + 1 < _; omega, by show (0:Nat) < 2 ^ 64; decide⟩

end Pin
end DRAMPower
