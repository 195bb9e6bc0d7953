import Verif.Lemmas.BusStats
import Verif.Spec.BusHistory

/-! # The bus refines its waveform -/

namespace DRAMPower
open Spec

theorem beat_congr {width : Nat} {a a' b b' : Levels} (ha : ∀ j < width, a j = a' j) (hb : ∀ j < width, b j = b' j) :
    beat width a b = beat width a' b' := by
  apply BusStats.ext' <;> refine List.countP_congr ?_ <;> intro j hj <;>
    simp [ha j (List.mem_range.mp hj), hb j (List.mem_range.mp hj)]

theorem stats_congr {width : Nat} {idle : Levels} {l l' : Line} : ∀ {T : Nat}, (∀ k < T, l k = l' k) →
    Line.stats width idle l T = Line.stats width idle l' T
  | 0, _ => rfl
  | T + 1, h => by
    rw [Line.stats, Line.stats, stats_congr fun k hk => h k (by omega)]
    congr 1
    unfold Line.at
    rw [h T (by omega)]
    cases l' T with
    | none => rfl
    | some now =>
      simp only
      congr 1
      cases T with
      | zero => rfl
      | succ T => simp [Line.before, h T (by omega)]

/-- Word and levels agree on the wires of the bus. -/
def Agrees {N : Nat} (width : Nat) (l : Levels) (w : BitVec N) : Prop := ∀ j < width, l j = w.getLsbD j

theorem Agrees.of_eq {N width : Nat} {l : Levels} {w w' : BitVec N} (e : w = w') (h : Agrees width l w') : Agrees width l w := e ▸ h

/-- Part of the invariant that never changes, plus storage sanity. -/
structure BusOk {N : Nat} (b : Bus N) (idle : Levels) : Prop where
  wN : b.width ≤ N
  wpos : 0 < b.width
  dr : 0 < b.datarate
  idleAgrees : Agrees b.width idle b.idleWord
  idleNarrow : Narrow b.width b.idleWord
  idleStats : b.idleStats = beat b.width idle idle
  narrow : ∀ w ∈ b.storage.bursts, Narrow b.width w
  len : b.storage.count ≤ b.storage.bursts.length
  lt : 0 < b.storage.count → b.storage.loadTime = b.lastLoad
  lt0 : b.storage.count = 0 → b.storage.loadTime = 0

/-- An enabled bus: everything before `lastLoad` is in `stats`, beat `lastLoad` is pending, the rest in the storage.
`X` idle beats have been counted in excess. -/
structure BusActive {N : Nat} (b : Bus N) (line : Line) (idle : Levels) (X : Nat) : Prop extends BusOk b idle where
  enabled : b.enabled = true
  lines : ∀ k, b.lastLoad ≤ k → ∃ l, line k = some l ∧ Agrees b.width l (b.word k)
  pend : b.pending = { timestamp := b.lastLoad, stats := line.at b.width idle b.lastLoad, pending := true }
  stats : b.stats = line.stats b.width idle b.lastLoad + X * b.idleStats
  lp : b.lastLoad = 0 → b.storage.count = 0 → b.lastPattern = b.idleWord

/-- A disabled bus. -/
structure BusSilent {N : Nat} (b : Bus N) (line : Line) (idle : Levels) (X : Nat) : Prop extends BusOk b idle where
  enabled : b.enabled = false
  cnt : b.storage.count = 0
  last : b.lastLoad = b.disableTime
  lines : ∀ k, b.disableTime ≤ k → line k = none
  pend : b.pending.pending = false
  stats : b.stats = line.stats b.width idle b.disableTime + X * b.idleStats

/-- Idle beats that will be counted twice because the storage of a re-enabled bus claims to end at beat 0. -/
def Bus.fresh {N : Nat} (b : Bus N) : Nat := if b.storage.count = 0 then b.lastLoad else 0

section
variable {N : Nat} {b : Bus N} {line : Line} {idle : Levels} {X : Nat}

theorem BusOk.word_narrow (h : BusOk b idle) (k : Nat) : Narrow b.width (b.word k) := by
  unfold Bus.word
  split
  · exact h.idleNarrow
  · unfold BusContainer.getBurst
    rw [List.getD_eq_getElem?_getD]
    cases hb : b.storage.bursts[b.storage.count - 1 - (k - b.lastLoad)]? with
    | none => exact narrow_zero
    | some w => exact h.narrow w (List.mem_of_getElem? hb)

theorem BusOk.word_idle (_h : BusOk b idle) {k : Nat} (hk : b.lastLoad + b.storage.count ≤ k) : b.word k = b.idleWord := by
  unfold Bus.word
  rw [if_pos (by omega)]

theorem word_stored {k : Nat} (h : k - b.lastLoad < b.storage.count) : b.word k = b.storage.getBurst (k - b.lastLoad) :=
  if_neg (by omega)

theorem word_ge {k : Nat} (h : b.storage.count ≤ k - b.lastLoad) : b.word k = b.idleWord := if_pos h

/-- Beat `k + 1` of an active bus. -/
theorem BusActive.at_succ (h : BusActive b line idle X) {k : Nat} (hk : b.lastLoad ≤ k) :
    line.at b.width idle (k + 1) = Bus.diff b.width (b.word k) (b.word (k + 1)) := by
  obtain ⟨l, e, a⟩ := h.lines k hk
  obtain ⟨l', e', a'⟩ := h.lines (k + 1) (by omega)
  rw [diff_eq h.wN (h.word_narrow k) (h.word_narrow (k + 1))]
  unfold Line.at
  rw [e']
  simp only [Line.before, e, Option.getD_some]
  exact beat_congr a a'

theorem BusActive.at_idle (h : BusActive b line idle X) {k : Nat} (hk : b.lastLoad + b.storage.count ≤ k) :
    line.at b.width idle (k + 1) = b.idleStats := by
  rw [h.at_succ (by omega), h.word_idle hk, h.word_idle (by omega), diff_eq h.wN h.idleNarrow h.idleNarrow, h.idleStats]
  exact beat_congr (fun j hj => (h.idleAgrees j hj).symm) (fun j hj => (h.idleAgrees j hj).symm)

theorem BusActive.loop (h : BusActive b line idle X) (c : BusStats) : ∀ m,
    (List.range' b.lastLoad m).foldl (fun s t => s + Bus.diff b.width (b.word t) (b.word (t + 1)))
      (line.stats b.width idle (b.lastLoad + 1) + c) = line.stats b.width idle (b.lastLoad + 1 + m) + c := by
  intro m
  induction m with
  | zero => rfl
  | succ m ih =>
    rw [List.range'_concat, List.foldl_append, ih]
    simp only [List.foldl_cons, List.foldl_nil, Nat.one_mul]
    rw [show b.lastLoad + 1 + (m + 1) = (b.lastLoad + m + 1) + 1 by omega, Line.stats, h.at_succ (by omega),
      show b.lastLoad + 1 + m = b.lastLoad + m + 1 by omega, BusStats.add_right_comm]

theorem BusActive.idles (h : BusActive b line idle X) {a : Nat} (ha : b.lastLoad + b.storage.count ≤ a) : ∀ m,
    line.stats b.width idle (a + 1 + m) = line.stats b.width idle (a + 1) + m * b.idleStats := by
  intro m
  induction m with
  | zero => simp
  | succ m ih =>
    rw [show a + 1 + (m + 1) = (a + 1 + m) + 1 by omega, Line.stats, ih, show a + 1 + m = a + m + 1 by omega,
      h.at_idle (by omega), BusStats.succ_mul, BusStats.add_assoc]

theorem BusActive.advance (h : BusActive b line idle X) {vt : Nat} (hv : b.lastLoad < vt) :
    b.advance vt (b.stats + b.pending.stats) = .ok (line.stats b.width idle vt + (X + b.fresh) * b.idleStats) := by
  have e0 : b.stats + b.pending.stats = line.stats b.width idle (b.lastLoad + 1) + X * b.idleStats := by
    rw [h.stats, h.pend, Line.stats, BusStats.add_right_comm]
  rw [e0]
  unfold Bus.advance
  by_cases hc : b.storage.count = 0
  · -- nothing stored: only idle beats
    have he : b.storage.endTime = 0 := by simp [BusContainer.endTime, hc, h.lt0 hc]
    have hi := h.idles (a := b.lastLoad) (by omega) (vt - (b.lastLoad + 1))
    rw [show b.lastLoad + 1 + (vt - (b.lastLoad + 1)) = vt by omega] at hi
    simp only [he, Nat.zero_min, Bus.burstLoop, if_true, Nat.lt_irrefl, and_false, if_false]
    simp only [pure, Except.pure, bind, Except.bind]
    rw [if_pos (by omega), hi]
    congr 1
    rw [Bus.fresh, if_pos hc, BusStats.add_mul, show vt - 0 - 1 = (vt - (b.lastLoad + 1)) + b.lastLoad by omega, BusStats.add_mul]
    apply BusStats.ext' <;> simp <;> omega
  · have hlt := h.lt (by omega)
    have he : b.storage.endTime = b.lastLoad + b.storage.count := by simp [BusContainer.endTime, hlt]
    have hf : b.fresh = 0 := by simp [Bus.fresh, hc]
    have hb : b.burstLoop (min (b.lastLoad + b.storage.count) vt) (line.stats b.width idle (b.lastLoad + 1) + X * b.idleStats) =
        line.stats b.width idle (min (b.lastLoad + b.storage.count) vt) + X * b.idleStats := by
      unfold Bus.burstLoop
      rw [if_neg (by omega), h.loop]
      congr 2
      omega
    simp only [he, hb, hf, pure, Except.pure, bind, Except.bind]
    by_cases hlv : b.lastLoad + b.storage.count < vt
    · simp only [if_pos hlv]
      rw [if_pos ⟨hlv, by omega⟩, Nat.min_eq_left (by omega)]
      have a1 : b.at? (b.lastLoad + b.storage.count - 1) = .ok (b.word (b.lastLoad + b.storage.count - 1)) := by
        unfold Bus.at?; rw [if_neg (by omega)]
      have a2 : b.at? (b.lastLoad + b.storage.count) = .ok (b.word (b.lastLoad + b.storage.count)) := by
        unfold Bus.at?; rw [if_neg (by omega)]
      simp only [a1, a2]
      congr 1
      have hs := h.at_succ (k := b.lastLoad + b.storage.count - 1) (by omega)
      rw [show b.lastLoad + b.storage.count - 1 + 1 = b.lastLoad + b.storage.count by omega] at hs
      have hi := h.idles (a := b.lastLoad + b.storage.count) (by omega) (vt - (b.lastLoad + b.storage.count) - 1)
      rw [show b.lastLoad + b.storage.count + 1 + (vt - (b.lastLoad + b.storage.count) - 1) = vt by omega, Line.stats, hs] at hi
      rw [hi]
      apply BusStats.ext' <;> simp <;> omega
    · simp only [if_neg hlv]
      rw [if_neg (by omega), Nat.min_eq_right (by omega)]
      simp

theorem addPrevious_ok (h : BusActive b line idle X) {vt : Nat} (hv : b.lastLoad < vt) :
    b.addPrevious vt = .ok { b with
      stats := line.stats b.width idle vt + (X + b.fresh) * b.idleStats
      pending := { b.pending with pending := false }
      lastPattern := b.word (vt - 1) } := by
  have hp : b.pending.timestamp = b.lastLoad := by rw [h.pend]
  have hp2 : b.pending.pending = true := by rw [h.pend]
  unfold Bus.addPrevious
  rw [if_neg (by omega)]
  simp only
  rw [if_pos ⟨hp2, by omega⟩]
  have e : ({ b with stats := b.stats + b.pending.stats, pending := { b.pending with pending := false } } : Bus N).advance vt
      (b.stats + b.pending.stats) = b.advance vt (b.stats + b.pending.stats) := rfl
  simp only [e, h.advance hv, bind, Except.bind, pure, Except.pure]
  rw [if_pos (by omega)]
  have a : ({ b with stats := line.stats b.width idle vt + (X + b.fresh) * b.idleStats, pending := { b.pending with pending := false } } : Bus N).at? (vt - 1)
      = .ok (b.word (vt - 1)) := by
    unfold Bus.at?; rw [if_neg (by simp only; omega)]; rfl
  simp only [a]

/-- At the beat of the last load (or enable) nothing can be accounted, except at beat 0. -/
theorem addPrevious_last (h : BusActive b line idle X) {b' : Bus N} (hr : b.addPrevious b.lastLoad = .ok b') :
    b.lastLoad = 0 ∧ b' = b := by
  have hp : b.pending.timestamp = b.lastLoad := by rw [h.pend]
  unfold Bus.addPrevious at hr
  rw [if_neg (by omega)] at hr
  simp only [hp, Nat.lt_irrefl, and_false, if_false, bind, Except.bind] at hr
  split at hr
  · cases hr
  · rename_i s hs
    by_cases h0 : 0 < b.lastLoad
    · rw [if_pos h0] at hr
      have a : ({ b with stats := s } : Bus N).at? (b.lastLoad - 1) = .error (.assertion "n >= last_load") := by
        unfold Bus.at?; rw [if_pos (by simp only; omega)]
      simp only [a] at hr
      cases hr
    · rw [if_neg h0] at hr
      have hz : b.lastLoad = 0 := by omega
      refine ⟨hz, ?_⟩
      have : s = b.stats := by
        unfold Bus.advance at hs
        simp only [hz, Nat.min_zero, Bus.burstLoop, if_true] at hs
        rw [if_neg (by omega)] at hs
        simp only [pure, Except.pure, bind, Except.bind] at hs
        rw [if_neg (by omega)] at hs
        cases hs; rfl
      cases hr
      rw [this]

theorem addPrevious_last' (h : BusActive b line idle X) {b' : Bus N} {vt : Nat} (hl : b.lastLoad = vt)
    (hr : b.addPrevious vt = .ok b') : b.lastLoad = 0 ∧ b' = b := by
  subst hl
  exact addPrevious_last h hr

theorem addPrevious_spec (h : BusActive b line idle X) {vt : Nat} (hv : b.lastLoad + b.storage.count ≤ vt) {b' : Bus N}
    (hr : b.addPrevious vt = .ok b') : ∃ P LP, b' = { b with
      stats := line.stats b.width idle vt + (X + b.fresh) * b.idleStats, pending := P, lastPattern := LP } ∧
      Narrow b.width LP ∧ Agrees b.width (line.before idle vt) LP := by
  by_cases hl : b.lastLoad < vt
  · rw [addPrevious_ok h hl] at hr
    refine ⟨_, _, (Except.ok.inj hr).symm, h.word_narrow _, ?_⟩
    obtain ⟨k, rfl⟩ : ∃ k, vt = k + 1 := ⟨vt - 1, by omega⟩
    obtain ⟨l, e, a⟩ := h.lines k (by omega)
    simpa [Line.before, e] using a
  · have hvl : vt = b.lastLoad := by omega
    have hc : b.storage.count = 0 := by omega
    subst hvl
    obtain ⟨h0, hb⟩ := addPrevious_last h hr
    refine ⟨b.pending, b.lastPattern, ?_, ?_, ?_⟩
    · have : (line.stats b.width idle b.lastLoad + (X + b.fresh) * b.idleStats) = b.stats := by
        rw [h.stats]; simp [Bus.fresh, hc, h0]
      rw [this, hb]
    · rw [h.lp h0 hc]; exact h.idleNarrow
    · rw [h.lp h0 hc, h0]; exact h.idleAgrees

theorem insertData_ok {d d' : BusContainer N} {t width nBits : Nat} {data : List UInt8}
    (hr : d.insertData t width data nBits = .ok d') :
    d' = { bursts := (List.range (nBits / width)).map (fun i => fillWord width data i (d.bursts.getD i 0)) ++ d.bursts.drop (nBits / width)
           count := nBits / width, loadTime := t } ∧ (nBits / width ≠ 0 → width ≤ N) := by
  unfold BusContainer.insertData at hr
  split at hr
  · cases hr
  · simp only at hr
    split at hr
    · cases hr
    · split at hr
      · cases hr
      · rename_i h2 _
        exact ⟨(Except.ok.inj hr).symm, fun h => by omega⟩

theorem bus_load_active (h : BusActive b line idle X) {t nBits : Nat} {data : List UInt8} (hne : b.width ≤ nBits) {b' : Bus N}
    (hr : b.load t data nBits = .ok b') :
    BusActive b' (line.drive b.width b.datarate lastFirst idle (.send t data nBits)) idle (X + b.fresh) ∧
      b'.fresh = 0 ∧ b'.width = b.width ∧ b'.datarate = b.datarate ∧ b'.idleStats = b.idleStats ∧
      b'.lastLoad = t * b.datarate := by
  unfold Bus.load at hr
  simp only [h.enabled, Bool.not_true, Bool.false_eq_true, if_false] at hr
  rw [if_neg (by have := h.dr; omega)] at hr
  split at hr
  · cases hr
  rename_i hv
  simp only [bind, Except.bind] at hr
  split at hr
  · cases hr
  rename_i b1 hb1
  obtain ⟨P, LP, rfl, hN, hA⟩ := addPrevious_spec h (by omega) hb1
  generalize hvt : t * b.datarate = vt at *
  have hn : 0 < nBits / b.width := Nat.div_pos hne h.wpos
  generalize hnn : nBits / b.width = n at *
  unfold Bus.addData at hr
  simp only [bind, Except.bind, BusContainer.clear] at hr
  split at hr
  · cases hr
  rename_i d hd
  obtain ⟨rfl, -⟩ := insertData_ok hd
  simp only [hnn] at hr hd
  unfold Bus.at? at hr
  simp only [Nat.lt_irrefl, if_false] at hr
  rw [if_pos (by omega)] at hr
  cases hr
  -- the words of the new storage
  have hget : ∀ i, i < n → ∀ w : List (BitVec N),
      (((List.range n).map (fun i => fillWord b.width data i (b.storage.bursts.getD i 0)) ++ w).getD i 0) =
        fillWord b.width data i (b.storage.bursts.getD i 0) := by
    intro i hi w
    rw [List.getD_eq_getElem?_getD, List.getElem?_append_left (by simpa using hi)]
    simp [hi]
  have hbn : ∀ i, Narrow b.width (b.storage.bursts.getD i 0) := by
    intro i
    rw [List.getD_eq_getElem?_getD]
    cases hb : b.storage.bursts[i]? with
    | none => exact narrow_zero
    | some w => exact h.narrow w (List.mem_of_getElem? hb)
  have hsome : (line vt).isSome = true := by
    obtain ⟨l, e, _⟩ := h.lines vt (by omega); simp [e]
  have hdrive : ∀ k, line.drive b.width b.datarate lastFirst idle (.send t data nBits) k =
      if vt ≤ k ∧ k < vt + n then some (lastFirst b.width data n (k - vt)) else line k := by
    intro k
    simp only [Line.drive, hvt, hnn, hsome, Bool.true_and, Bool.and_eq_true, decide_eq_true_eq]
  have hword : ∀ k, vt ≤ k → k < vt + n → Agrees b.width (lastFirst b.width data n (k - vt))
      (fillWord b.width data (n - 1 - (k - vt)) (b.storage.bursts.getD (n - 1 - (k - vt)) 0)) := by
    intro k _ _ j hj
    rw [fillWord_get _ _ _ h.wN, if_pos hj]
    rfl
  have hbefore : ∀ k, k < vt → line.drive b.width b.datarate lastFirst idle (.send t data nBits) k = line k := by
    intro k hk
    rw [hdrive, if_neg (by omega)]
  have hbase : BusOk ({ b with
      stats := line.stats b.width idle vt + (X + b.fresh) * b.idleStats
      storage := { bursts := (List.range n).map (fun i => fillWord b.width data i (b.storage.bursts.getD i 0)) ++ b.storage.bursts.drop n
                   count := n, loadTime := vt }
      lastLoad := vt } : Bus N) idle := by
    refine { wN := h.wN, wpos := h.wpos, dr := h.dr, idleAgrees := h.idleAgrees, idleNarrow := h.idleNarrow
             idleStats := h.idleStats, narrow := ?_, len := by simp, lt := fun _ => rfl, lt0 := fun hc => ?_ }
    · intro w hw
      simp only [List.mem_append, List.mem_map, List.mem_range] at hw
      rcases hw with ⟨i, _, rfl⟩ | hw
      · intro j hj
        simp only at hj
        rw [fillWord_get _ _ _ h.wN, if_neg (by omega)]
        exact hbn i j hj
      · exact h.narrow w (List.mem_of_mem_drop hw)
    · simp only at hc; omega
  refine ⟨?_, by simp [Bus.fresh]; omega, rfl, rfl, rfl, rfl⟩
  refine { wN := hbase.wN, wpos := hbase.wpos, dr := hbase.dr, idleAgrees := hbase.idleAgrees, idleNarrow := hbase.idleNarrow
           idleStats := hbase.idleStats, narrow := hbase.narrow, len := hbase.len, lt := hbase.lt, lt0 := hbase.lt0
           enabled := h.enabled, lines := ?_, pend := ?_, stats := ?_, lp := ?_ }
  · intro k hk
    simp only at hk
    rw [hdrive]
    by_cases hkn : k < vt + n
    · rw [if_pos ⟨hk, hkn⟩]
      refine ⟨_, rfl, ?_⟩
      refine Agrees.of_eq (word_stored (by simp only; omega)) ?_
      simp only [BusContainer.getBurst]
      rw [hget _ (by omega)]
      exact hword k hk hkn
    · rw [if_neg (by omega)]
      obtain ⟨l, e, a⟩ := h.lines k (by omega)
      refine ⟨l, e, ?_⟩
      refine Agrees.of_eq (word_ge (by simp only; omega)) ?_
      rwa [h.word_idle (by omega)] at a
  · simp only
    congr 1
    have hlow : Narrow b.width (if n ≤ vt - vt then b.idleWord else
        BusContainer.getBurst { bursts := (List.range n).map (fun i => fillWord b.width data i (b.storage.bursts.getD i 0)) ++ b.storage.bursts.drop n
                                count := n, loadTime := vt } (vt - vt)) := by
      have := hbase.word_narrow vt
      exact this
    have hfirst := hword vt (Nat.le_refl _) (by omega)
    unfold Bus.word
    simp only
    rw [diff_eq h.wN hN hlow]
    have : Line.at b.width idle (line.drive b.width b.datarate lastFirst idle (.send t data nBits)) vt =
        beat b.width (line.before idle vt) (lastFirst b.width data n (vt - vt)) := by
      unfold Line.at
      rw [hdrive, if_pos ⟨Nat.le_refl _, by omega⟩]
      simp only
      congr 1
      cases vt with
      | zero => rfl
      | succ v => simp only [Line.before]; rw [hbefore v (by omega)]
    rw [this]
    apply beat_congr
    · intro j hj; exact (hA j hj).symm
    · intro j hj
      rw [hfirst j hj, if_neg (by simp only [Nat.sub_self]; omega)]
      simp only [BusContainer.getBurst]
      rw [hget _ (by omega)]
  · simp only
    rw [stats_congr fun k hk => (hbefore k hk).symm]
  · intro _ hc; simp only at hc; omega

theorem disable_active (h : BusActive b line idle X) {t : Nat} (ht : 0 < t) {b' : Bus N} (hr : b.disable t = .ok b') :
    BusSilent b' (line.drive b.width b.datarate lastFirst idle (.off t)) idle (X + b.fresh) ∧
      b'.width = b.width ∧ b'.datarate = b.datarate ∧ b'.idleStats = b.idleStats ∧ b'.lastLoad = t * b.datarate := by
  unfold Bus.disable at hr
  simp only at hr
  rw [if_neg (by simp [h.enabled])] at hr
  split at hr
  · cases hr
  rename_i hv
  simp only [bind, Except.bind] at hr
  split at hr
  · cases hr
  rename_i b1 hb1
  have hd : BusActive ({ b with disableTime := t * b.datarate } : Bus N) line idle X :=
    { wN := h.wN, wpos := h.wpos, dr := h.dr, idleAgrees := h.idleAgrees, idleNarrow := h.idleNarrow, idleStats := h.idleStats
      narrow := h.narrow, len := h.len, lt := h.lt, lt0 := h.lt0, enabled := h.enabled, lines := h.lines, pend := h.pend
      stats := h.stats, lp := h.lp }
  have hpos : 0 < t * b.datarate := Nat.mul_pos ht h.dr
  have hlt : b.lastLoad < t * b.datarate := by
    by_cases hl : b.lastLoad = t * b.datarate
    · have := (addPrevious_last' hd hl hb1).1
      simp only at this
      omega
    · omega
  rw [addPrevious_ok hd hlt] at hb1
  cases hb1
  cases hr
  refine ⟨?_, rfl, rfl, rfl, rfl⟩
  refine { wN := h.wN, wpos := h.wpos, dr := h.dr, idleAgrees := h.idleAgrees, idleNarrow := h.idleNarrow
           idleStats := h.idleStats, narrow := h.narrow, len := Nat.zero_le _
           lt := fun hc => absurd hc (Nat.lt_irrefl _), lt0 := fun _ => rfl
           enabled := rfl, cnt := rfl, last := rfl, lines := ?_, pend := rfl, stats := ?_ }
  · intro k hk
    simp only [Line.drive]
    exact if_pos hk
  · simp only
    rw [stats_congr fun k hk => ?_]
    · rfl
    · simp only [Line.drive]
      rw [if_neg (by omega)]

theorem enable_silent (h : BusSilent b line idle X) {t : Nat} {b' : Bus N} (hr : b.enable t = .ok b') :
    BusActive b' (line.drive b.width b.datarate lastFirst idle (.on t)) idle X ∧ b'.fresh = t * b.datarate ∧
      b'.width = b.width ∧ b'.datarate = b.datarate ∧ b'.idleStats = b.idleStats ∧ b'.lastLoad = t * b.datarate := by
  unfold Bus.enable at hr
  simp only [h.enabled, Bool.false_eq_true, if_false] at hr
  split at hr
  · cases hr
  rename_i hv
  cases hr
  have hline : ∀ k, t * b.datarate ≤ k → line.drive b.width b.datarate lastFirst idle (.on t) k = some idle := by
    intro k hk
    simp only [Line.drive]
    rw [if_pos hk, h.lines k (by omega)]
    rfl
  have hlow : ∀ k, k < t * b.datarate → line.drive b.width b.datarate lastFirst idle (.on t) k = line k := by
    intro k hk
    simp only [Line.drive]
    rw [if_neg (by omega)]
  have hsil : ∀ m, line.stats b.width idle (b.disableTime + m) = line.stats b.width idle b.disableTime := by
    intro m
    induction m with
    | zero => rfl
    | succ m ih =>
      rw [show b.disableTime + (m + 1) = b.disableTime + m + 1 by omega, Line.stats, ih]
      simp [Line.at, h.lines (b.disableTime + m) (by omega)]
  refine ⟨?_, by simp [Bus.fresh, h.cnt], rfl, rfl, rfl, rfl⟩
  refine { wN := h.wN, wpos := h.wpos, dr := h.dr, idleAgrees := h.idleAgrees, idleNarrow := h.idleNarrow
           idleStats := h.idleStats, narrow := h.narrow, len := h.len
           lt := fun hc => absurd hc (by simp only [h.cnt]; omega), lt0 := h.lt0
           enabled := rfl, lines := ?_, pend := ?_, stats := ?_, lp := ?_ }
  · intro k hk
    refine ⟨idle, hline k hk, ?_⟩
    refine Agrees.of_eq (word_ge (by simp only [h.cnt]; omega)) ?_
    exact h.idleAgrees
  · simp only
    congr 1
    rw [h.idleStats]
    unfold Line.at
    rw [hline _ (Nat.le_refl _)]
    simp only
    congr 1
    obtain ⟨v, hvv⟩ : ∃ v, t * b.datarate = v + 1 := ⟨t * b.datarate - 1, by omega⟩
    rw [hvv]
    simp only [Line.before]
    rw [hlow v (by omega), h.lines v (by omega)]
    rfl
  · simp only
    rw [h.stats, stats_congr hlow, show t * b.datarate = b.disableTime + (t * b.datarate - b.disableTime) by omega, hsil]
  · intro h0; simp only at h0; omega

theorem BusActive.getStats (h : BusActive b line idle X) {t : Nat} (ht : b.lastLoad < t * b.datarate) :
    b.getStats t = .ok (line.stats b.width idle (t * b.datarate) + (X + b.fresh) * b.idleStats) := by
  have hp : b.pending.timestamp = b.lastLoad := by rw [h.pend]
  have hp2 : b.pending.pending = true := by rw [h.pend]
  unfold Bus.getStats
  simp only
  rw [if_neg (by omega), if_neg (by omega), if_pos h.enabled, if_pos ⟨hp2, by omega⟩]
  exact h.advance ht

theorem BusActive.getStats_last (h : BusActive b line idle X) (hf : b.fresh = 0) {t : Nat} (ht : b.lastLoad ≤ t * b.datarate) :
    b.getStats t = .ok (line.stats b.width idle (t * b.datarate) + X * b.idleStats) := by
  by_cases hl : b.lastLoad < t * b.datarate
  · rw [h.getStats hl, hf]; rfl
  · have hp : b.pending.timestamp = b.lastLoad := by rw [h.pend]
    have e : t * b.datarate = b.lastLoad := by omega
    unfold Bus.getStats
    simp only [e, Nat.lt_irrefl, if_false]
    by_cases h0 : b.lastLoad = 0
    · rw [if_pos h0, h.stats]
    · have hc : b.storage.count ≠ 0 := by intro hc; simp only [Bus.fresh, hc, if_true] at hf; exact h0 hf
      have he : b.storage.endTime = b.lastLoad + b.storage.count := by simp [BusContainer.endTime, h.lt (by omega)]
      rw [if_neg h0, if_pos h.enabled, if_neg (by rw [hp]; omega)]
      unfold Bus.advance
      simp only [he, pure, Except.pure, bind, Except.bind]
      rw [if_neg (by omega), Nat.min_eq_right (by omega)]
      rw [if_neg (by omega)]
      unfold Bus.burstLoop
      rw [if_neg h0, show b.lastLoad - 1 - b.lastLoad = 0 by omega]
      simp only [List.range'_zero, List.foldl_nil]
      rw [h.stats]

theorem BusSilent.getStats (h : BusSilent b line idle X) {t : Nat} (ht : b.lastLoad ≤ t * b.datarate) :
    b.getStats t = .ok (line.stats b.width idle (t * b.datarate) + X * b.idleStats) := by
  have hsil : ∀ m, line.stats b.width idle (b.disableTime + m) = line.stats b.width idle b.disableTime := by
    intro m
    induction m with
    | zero => rfl
    | succ m ih =>
      rw [show b.disableTime + (m + 1) = b.disableTime + m + 1 by omega, Line.stats, ih]
      simp [Line.at, h.lines (b.disableTime + m) (by omega)]
  have hl := h.last
  unfold Bus.getStats
  simp only
  rw [if_neg (by omega)]
  have e : b.stats = line.stats b.width idle (t * b.datarate) + X * b.idleStats := by
    rw [h.stats, show t * b.datarate = b.disableTime + (t * b.datarate - b.disableTime) by omega, hsil]
  split
  · rw [e]
  · rw [if_neg (by simp [h.enabled]), if_neg (by simp [h.pend]), e]

/-- The invariant: enabled or disabled, `E` idle beats in excess for every query after the last call. -/
def BusInv (b : Bus N) (line : Line) (idle : Levels) (E : Nat) : Prop :=
  (∃ X, BusActive b line idle X ∧ E = X + b.fresh) ∨ BusSilent b line idle E

theorem load_silent (h : b.enabled = false) {t nBits : Nat} {data : List UInt8} : b.load t data nBits = .ok b := by
  unfold Bus.load; rw [if_pos (by simp [h])]

theorem drive_silent (h : BusSilent b line idle X) {t nBits : Nat} {data : List UInt8} (hl : b.lastLoad ≤ t * b.datarate) :
    line.drive b.width b.datarate lastFirst idle (.send t data nBits) = line := by
  funext k
  simp [Line.drive, h.lines (t * b.datarate) (by have := h.last; omega)]

theorem drive_off_silent (h : BusSilent b line idle X) {t : Nat} (hl : b.disableTime ≤ t * b.datarate) :
    line.drive b.width b.datarate lastFirst idle (.off t) = line := by
  funext k
  simp only [Line.drive]
  split
  · rw [h.lines k (by omega)]
  · rfl

theorem drive_on_active (h : BusActive b line idle X) {t : Nat} (hl : b.lastLoad ≤ t * b.datarate) :
    line.drive b.width b.datarate lastFirst idle (.on t) = line := by
  funext k
  simp only [Line.drive]
  split
  · obtain ⟨l, e, _⟩ := h.lines k (by omega)
    rw [e]; rfl
  · rfl

theorem BusTimed.mono {dr lo lo' : Nat} (h : lo' ≤ lo) : ∀ {ops}, BusTimed dr lo ops → BusTimed dr lo' ops
  | [], _ => trivial
  | _ :: _, ⟨h1, h2⟩ => ⟨by omega, h2⟩

theorem bus_run_inv {idle : Levels} : ∀ (ops : List BusOp) {b b' : Bus N} {line : Line} {E : Nat}, BusInv b line idle E →
    b.run ops = .ok b' → (∀ op ∈ ops, op.Proper b.width) → BusTimed b.datarate b.lastLoad ops →
    BusInv b' (ops.foldl (fun l op => l.drive b.width b.datarate lastFirst idle op.drive) line) idle
      (E + reEnabled b.datarate b.enabled ops) ∧ b'.width = b.width ∧ b'.datarate = b.datarate ∧ b'.idleStats = b.idleStats ∧
      (∀ t, b.lastLoad ≤ t * b.datarate → (∀ op ∈ ops, op.time ≤ t) → b'.lastLoad ≤ t * b.datarate) ∧
      (∀ t, b.lastLoad < t * b.datarate → (∀ op ∈ ops, op.time < t) → b'.lastLoad < t * b.datarate) := by
  intro ops
  induction ops with
  | nil =>
    intro b b' line E hi hr _ _
    cases hr
    exact ⟨by simpa [reEnabled] using hi, rfl, rfl, rfl, fun t h _ => h, fun t h _ => h⟩
  | cons op ops ih =>
    intro b b' line E hi hr hp ht
    unfold Bus.run at hr
    split at hr
    rotate_left
    · cases hr
    rename_i b1 hb1
    have hpo := hp op (by simp)
    -- one step
    have key : BusInv b1 (line.drive b.width b.datarate lastFirst idle op.drive) idle
        (E + reEnabled b.datarate b.enabled [op]) ∧ b1.width = b.width ∧ b1.datarate = b.datarate ∧
        b1.idleStats = b.idleStats ∧ b1.lastLoad ≤ max b.lastLoad (op.time * b.datarate) ∧
        (∀ rest, reEnabled b.datarate b.enabled (op :: rest) = reEnabled b.datarate b.enabled [op] + reEnabled b.datarate b1.enabled rest) := by
      rcases hi with ⟨X, ha, rfl⟩ | hs
      · have hen := ha.enabled
        cases op with
        | load t data n =>
          obtain ⟨h1, h2, h3, h4, h5, h6⟩ := bus_load_active ha hpo hb1
          refine ⟨.inl ⟨_, h1, by simp [h2, hen, reEnabled]⟩, h3, h4, h5, ?_, ?_⟩
          · rw [h6]; simp only [BusOp.time]; omega
          · intro rest; simp [hen, h1.enabled, reEnabled]
        | disable t =>
          obtain ⟨h1, h2, h3, h4, h5⟩ := disable_active ha hpo hb1
          refine ⟨.inr ?_, h2, h3, h4, ?_, ?_⟩
          · simpa [hen, reEnabled, BusOp.drive] using h1
          · rw [h5]; simp only [BusOp.time]; omega
          · intro rest; simp [hen, h1.enabled, reEnabled]
        | enable t =>
          have : b1 = b := by
            simp only [Bus.step, Bus.enable, hen, if_true] at hb1
            exact (Except.ok.inj hb1).symm
          subst this
          refine ⟨.inl ⟨X, ?_, by simp [hen, reEnabled]⟩, rfl, rfl, rfl, by omega, ?_⟩
          · simp only [BusOp.drive]; rw [drive_on_active ha (t := t) ht.1]; exact ha
          · intro rest; simp [hen, reEnabled]
      · have hen := hs.enabled
        cases op with
        | load t data n =>
          have : b1 = b := by
            simp only [Bus.step] at hb1
            rw [load_silent hen] at hb1
            exact (Except.ok.inj hb1).symm
          subst this
          refine ⟨.inr ?_, rfl, rfl, rfl, by omega, ?_⟩
          · simp only [BusOp.drive]; rw [drive_silent hs (t := t) ht.1]; simpa [hen, reEnabled] using hs
          · intro rest; simp [hen, reEnabled]
        | disable t =>
          have : b1 = b := by
            simp only [Bus.step, Bus.disable, hen, Bool.not_false, if_true] at hb1
            split at hb1
            · cases hb1
            · exact (Except.ok.inj hb1).symm
          subst this
          refine ⟨.inr ?_, rfl, rfl, rfl, by omega, ?_⟩
          · simp only [BusOp.drive]; rw [drive_off_silent hs (by have := ht.1; have := hs.last; simp only [BusOp.time] at *; omega)]
            simpa [hen, reEnabled] using hs
          · intro rest; simp [hen, reEnabled]
        | enable t =>
          obtain ⟨h1, h2, h3, h4, h5, h6⟩ := enable_silent hs hb1
          refine ⟨.inl ⟨_, h1, by simp [h2, hen, reEnabled]⟩, h3, h4, h5, ?_, ?_⟩
          · rw [h6]; simp only [BusOp.time]; omega
          · intro rest; simp [hen, h1.enabled, reEnabled]
    obtain ⟨k1, k2, k3, k4, k5, k6⟩ := key
    have hlo : b1.lastLoad ≤ op.time * b.datarate := by have := ht.1; omega
    obtain ⟨j1, j2, j3, j4, j5, j6⟩ := ih k1 hr (fun o ho => by rw [k2]; exact hp o (by simp [ho]))
      (by rw [k3]; exact BusTimed.mono hlo ht.2)
    refine ⟨?_, j2.trans k2, j3.trans k3, j4.trans k4, ?_, ?_⟩
    · rw [k6, ← Nat.add_assoc]
      simpa only [List.foldl_cons, k2, k3] using j1
    · intro t h1 h2
      have := Nat.mul_le_mul_right b.datarate (h2 op (by simp))
      have := j5 t (by rw [k3]; omega) (fun o ho => h2 o (by simp [ho]))
      rwa [k3] at this
    · intro t h1 h2
      have hb : 0 < b.datarate := by
        rcases hi with ⟨X, ha, _⟩ | hs
        · exact ha.dr
        · exact hs.dr
      have := Nat.mul_lt_mul_of_pos_right (h2 op (by simp)) hb
      have := j6 t (by rw [k3]; omega) (fun o ho => h2 o (by simp [ho]))
      rwa [k3] at this

/-- The freshly constructed bus. -/
theorem bus_init_inv {width datarate : Nat} {pat : IdlePattern} {en : Bool} (hw : 0 < width) (hN : width ≤ N) (hd : 0 < datarate)
    {b : Bus N} (hb : Bus.init N width datarate pat en = .ok b) :
    BusInv b (fun _ => if en then some (fun _ => pat == .H) else none) (fun _ => pat == .H) 0 ∧
      b.width = width ∧ b.datarate = datarate ∧ b.lastLoad = 0 ∧ b.enabled = en ∧ b.fresh = 0 ∧
      b.idleStats = beat width (fun _ => pat == .H) (fun _ => pat == .H) := by
  unfold Bus.init at hb
  split at hb
  · cases hb
  have hget := fun j => idleOf_get (N := N) (width := width) pat hN j
  have hag : Agrees width (fun _ => pat == .H) (Bus.idleOf width pat : BitVec N) := by
    intro j hj; rw [hget]; simp [hj]
  have hna : Narrow width (Bus.idleOf width pat : BitVec N) := by
    intro j hj; rw [hget]; simp; omega
  have hid : Bus.diff width (Bus.idleOf width pat : BitVec N) (Bus.idleOf width pat) = beat width (fun _ => pat == .H) (fun _ => pat == .H) := by
    rw [diff_eq hN hna hna]
    exact beat_congr (fun j hj => (hag j hj).symm) (fun j hj => (hag j hj).symm)
  have hb' := Except.ok.inj hb
  subst hb'
  refine ⟨?_, rfl, rfl, rfl, rfl, rfl, hid⟩
  cases en
  · refine .inr ?_
    exact { wN := hN, wpos := hw, dr := hd, idleAgrees := hag, idleNarrow := hna, idleStats := hid
            narrow := by simp, len := Nat.zero_le _, lt := fun h => absurd h (Nat.lt_irrefl _), lt0 := fun _ => rfl
            enabled := rfl, cnt := rfl, last := rfl, lines := by simp, pend := rfl, stats := by simp [Line.stats] }
  · refine .inl ⟨0, ?_, rfl⟩
    exact { wN := hN, wpos := hw, dr := hd, idleAgrees := hag, idleNarrow := hna, idleStats := hid
            narrow := by simp, len := Nat.zero_le _, lt := fun h => absurd h (Nat.lt_irrefl _), lt0 := fun _ => rfl
            enabled := rfl
            lines := fun k _ => ⟨_, rfl, Agrees.of_eq (word_ge (Nat.zero_le _)) hag⟩
            pend := by simp only [if_true]; rw [hid]; rfl
            stats := by simp [Line.stats], lp := fun _ _ => rfl }

/-- A load that does not overlap the previous burst is accepted. -/
theorem bus_load_ok (h : BusActive b line idle X) {t nBits : Nat} {data : List UInt8}
    (hfree : b.lastLoad + b.storage.count ≤ t * b.datarate) (hlt : b.lastLoad < t * b.datarate ∨ t * b.datarate = 0)
    (hlen : nBits / b.width * b.width ≤ 8 * data.length) :
    ∃ b', b.load t data nBits = .ok b' ∧ b'.storage.count = nBits / b.width := by
  have hprev : ∃ b1, b.addPrevious (t * b.datarate) = .ok b1 := by
    rcases hlt with hl | h0
    · exact ⟨_, addPrevious_ok h hl⟩
    · have hp : b.pending.timestamp = b.lastLoad := by rw [h.pend]
      refine ⟨b, ?_⟩
      rw [h0]
      unfold Bus.addPrevious
      rw [if_neg (by omega)]
      simp only [Nat.not_lt_zero, and_false, if_false, Bus.advance, false_and, Nat.min_zero, pure, Except.pure, bind, Except.bind,
        Bus.burstLoop, if_true]
  obtain ⟨b1, hb1⟩ := hprev
  obtain ⟨P, LP, rfl, _, _⟩ := addPrevious_spec h hfree hb1
  have hins : ∀ d : BusContainer N, ∃ d', d.insertData (t * b.datarate) b.width data nBits = .ok d' ∧ d'.count = nBits / b.width := by
    intro d
    unfold BusContainer.insertData
    rw [if_neg (by have := h.wpos; omega)]
    simp only
    rw [if_neg (by have := h.wN; omega), if_neg (by omega)]
    exact ⟨_, rfl, rfl⟩
  obtain ⟨d, hd, hc⟩ := hins (b.storage.clear)
  unfold Bus.load
  rw [if_neg (by simp [h.enabled]), if_neg (by have := h.dr; omega)]
  simp only
  rw [if_neg (by omega), hb1]
  simp only [bind, Except.bind, Bus.addData, hd, Bus.at?, Nat.lt_irrefl, if_false, pure, Except.pure]
  split
  · exact ⟨_, rfl, hc⟩
  · exact ⟨_, rfl, hc⟩

/-- Histories of non-overlapping, non-empty bursts are accepted. -/
theorem bus_run_ok {idle : Levels} : ∀ (ops : List BusOp) {b : Bus N} {line : Line} {X : Nat}, BusActive b line idle X →
    b.fresh = 0 → NonOverlapping b.width b.datarate (b.lastLoad + b.storage.count) ops → ∃ b', b.run ops = .ok b'
  | [], b, _, _, _, _, _ => ⟨b, rfl⟩
  | .load t data n :: ops, b, line, X, h, hf, ⟨h1, h2, h3, h4⟩ => by
    obtain ⟨b', hb, hc⟩ := bus_load_ok h h1 (by
      by_cases hc : b.storage.count = 0
      · simp only [Bus.fresh, hc, if_true] at hf
        omega
      · omega) h3
    obtain ⟨a1, a2, a3, a4, a5, a6⟩ := bus_load_active h h2 hb
    obtain ⟨b'', hb''⟩ := bus_run_ok ops a1 a2 (by rw [a3, a4, a6, hc]; exact h4)
    refine ⟨b'', ?_⟩
    unfold Bus.run
    rw [show b.step (.load t data n) = .ok b' from hb]
    exact hb''

theorem NonOverlapping.proper {width dr : Nat} : ∀ {ops : List BusOp} {free lo : Nat}, NonOverlapping width dr free ops → lo ≤ free →
    (∀ op ∈ ops, op.Proper width) ∧ BusTimed dr lo ops ∧ reEnabled dr true ops = 0
  | [], _, _, _, _ => ⟨by simp, trivial, rfl⟩
  | .load t data n :: ops, free, lo, ⟨h1, h2, h3, h4⟩, hl => by
    obtain ⟨a, b, c⟩ := h4.proper (lo := t * dr) (Nat.le_add_right _ _)
    refine ⟨?_, ⟨by simp only [BusOp.time]; omega, b⟩, by simpa [reEnabled] using c⟩
    intro op hop
    rcases List.mem_cons.mp hop with rfl | hop
    · exact h2
    · exact a op hop

theorem load_active_count (h : BusActive b line idle X) {t nBits : Nat} {data : List UInt8} (_hne : b.width ≤ nBits) {b' : Bus N}
    (hr : b.load t data nBits = .ok b') : b'.storage.count = nBits / b.width := by
  unfold Bus.load at hr
  rw [if_neg (by simp [h.enabled]), if_neg (by have := h.dr; omega)] at hr
  simp only at hr
  split at hr
  · cases hr
  rename_i hv
  simp only [bind, Except.bind] at hr
  split at hr
  · cases hr
  rename_i b1 hb1
  obtain ⟨P, LP, rfl, -, -⟩ := addPrevious_spec h (by omega) hb1
  unfold Bus.addData at hr
  simp only [bind, Except.bind] at hr
  split at hr
  · cases hr
  rename_i d hd
  obtain ⟨rfl, -⟩ := insertData_ok hd
  split at hr
  · cases hr
  simp only [pure, Except.pure] at hr
  split at hr <;> cases hr <;> rfl

theorem leBytes_length (x n : Nat) : (Bus.leBytes x n).length = n := by
  induction n generalizing x with
  | zero => rfl
  | succ n ih => simp [Bus.leBytes, ih]

theorem leBytes_get (x n i : Nat) (h : i < n) : (Bus.leBytes x n).getD i 0 = UInt8.ofNat (x / 256 ^ i % 256) := by
  induction n generalizing x i with
  | zero => omega
  | succ n ih =>
    cases i with
    | zero => simp [Bus.leBytes]
    | succ i =>
      rw [Bus.leBytes, List.getD_cons_succ, ih _ _ (by omega), Nat.div_div_eq_div_mul, Nat.pow_succ, Nat.mul_comm]

theorem bitOf_leBytes (x n i : Nat) (h : i < 8 * n) : bitOf (Bus.leBytes x n) i = (x / 2 ^ i % 2 == 1) := by
  unfold bitOf
  rw [leBytes_get _ _ _ (by omega)]
  congr 1
  rw [UInt8.toNat_ofNat', Nat.mod_mod_of_dvd _ (by decide)]
  have e : (2 : Nat) ^ i = 256 ^ (i / 8) * 2 ^ (i % 8) := by
    rw [show (256 : Nat) = 2 ^ 8 from rfl, ← Nat.pow_mul, ← Nat.pow_add, Nat.div_add_mod]
  rw [e, ← Nat.div_div_eq_div_mul]
  generalize x / 256 ^ (i / 8) = y
  have hm : i % 8 < 8 := Nat.mod_lt _ (by decide)
  generalize i % 8 = m at hm
  have : m = 0 ∨ m = 1 ∨ m = 2 ∨ m = 3 ∨ m = 4 ∨ m = 5 ∨ m = 6 ∨ m = 7 := by omega
  rcases this with rfl | rfl | rfl | rfl | rfl | rfl | rfl | rfl <;> omega

end
end DRAMPower
