import Verif.Lemmas.BusTrace
import Verif.Lemmas.Interface

/-!
# Bursts shorter than one word

A burst of less than one word leaves a bus in a state in which nothing but a query at the same time is accepted, except at time 0,
where it has no effect.
-/

namespace DRAMPower
open Spec
variable {N : Nat} {b : Bus N} {line : Line} {idle : Levels}

/-- A bus after a short burst. -/
structure BusStuck (b : Bus N) (line : Line) (idle : Levels) : Prop where
  enabled : b.enabled = true
  late : 0 < b.lastLoad
  cnt : b.storage.count = 0
  load : b.storage.loadTime = b.lastLoad
  pend : b.pending.timestamp = b.lastLoad
  stats : b.stats = line.stats b.width idle b.lastLoad

theorem stuck_advance (h : BusStuck b line idle) {vt : Nat} (hv : b.lastLoad < vt) (s : BusStats) :
    b.advance vt s = .error (.assertion "n >= last_load") := by
  have he : b.storage.endTime = b.lastLoad := by unfold BusContainer.endTime; rw [h.load, h.cnt]; rfl
  have hl := h.late
  unfold Bus.advance
  dsimp only
  rw [he, if_pos ⟨hv, h.late⟩]
  have a : b.at? (b.lastLoad - 1) = .error (.assertion "n >= last_load") := by
    unfold Bus.at?; rw [if_pos (by omega)]
  simp only [a, bind, Except.bind]

theorem stuck_load (h : BusStuck b line idle) {t n : Nat} {x : List UInt8} {b' : Bus N} : b.load t x n ≠ .ok b' := by
  intro hr
  unfold Bus.load at hr
  rw [if_neg (by simp [h.enabled])] at hr
  split at hr
  · cases hr
  dsimp only at hr
  split at hr
  · cases hr
  rename_i hv
  obtain ⟨b1, h1, _⟩ := bind_ok hr
  generalize t * b.datarate = vt at *
  unfold Bus.addPrevious at h1
  split at h1
  · cases h1
  dsimp only at h1
  obtain ⟨s, h2, h3⟩ := bind_ok h1
  have hb : ∀ b0 : Bus N, (if b.pending.pending = true ∧ b.pending.timestamp < vt then
      { b with stats := b.stats + b.pending.stats, pending := { b.pending with pending := false } } else b) = b0 →
      b0.lastLoad = b.lastLoad ∧ ∀ s, b0.advance vt s = b.advance vt s := by
    intro b0 e
    subst e
    split <;> exact ⟨rfl, fun _ => rfl⟩
  generalize hb0 : (if b.pending.pending = true ∧ b.pending.timestamp < vt then
      { b with stats := b.stats + b.pending.stats, pending := { b.pending with pending := false } } else b) = b0 at h2 h3
  obtain ⟨e1, e2⟩ := hb b0 hb0
  by_cases hl : b.lastLoad < vt
  · rw [e2, stuck_advance h hl] at h2
    cases h2
  · have hlate := h.late
    have hc := h.cnt
    have : vt = b.lastLoad := by omega
    subst this
    rw [if_pos h.late] at h3
    obtain ⟨p, h4, _⟩ := bind_ok h3
    unfold Bus.at? at h4
    dsimp only at h4
    rw [e1, if_pos (by omega)] at h4
    cases h4

theorem stuck_stats (h : BusStuck b line idle) {t : Nat} {x : BusStats} (hq : b.getStats t = .ok x) :
    x = line.stats b.width idle (t * b.datarate) := by
  have he : b.storage.endTime = b.lastLoad := by unfold BusContainer.endTime; rw [h.load, h.cnt]; rfl
  have hlate := h.late
  unfold Bus.getStats at hq
  dsimp only at hq
  generalize t * b.datarate = vt at *
  split at hq
  · cases hq
  rw [if_neg (by omega), if_pos h.enabled] at hq
  by_cases hl : b.lastLoad < vt
  · rw [stuck_advance h hl] at hq
    cases hq
  · have : vt = b.lastLoad := by omega
    subst this
    rw [if_neg (by rw [h.pend]; omega)] at hq
    unfold Bus.advance at hq
    dsimp only at hq
    rw [he, if_neg (by omega)] at hq
    obtain ⟨y, h1, h2⟩ := bind_ok hq
    rw [if_neg (by omega)] at h2
    have e1 := pure_ok h1
    have e2 := pure_ok h2
    subst e1
    subst e2
    unfold Bus.burstLoop
    rw [Nat.min_self, if_neg (by omega), show b.lastLoad - 1 - b.lastLoad = 0 by omega]
    exact h.stats

/-- A bus that has seen bursts only. -/
def BusSeen (b : Bus N) (line : Line) (idle : Levels) : Prop := (BusActive b line idle 0 ∧ b.fresh = 0) ∨ BusStuck b line idle

theorem short_load (h : BusActive b line idle 0) (hf : b.fresh = 0) {t nBits : Nat} {data : List UInt8} (hn : nBits < b.width) {b' : Bus N}
    (hr : b.load t data nBits = .ok b') :
    BusSeen b' line idle ∧ b'.width = b.width ∧ b'.datarate = b.datarate := by
  have hz : nBits / b.width = 0 := Nat.div_eq_of_lt hn
  unfold Bus.load at hr
  rw [if_neg (by simp [h.enabled]), if_neg (by have := h.dr; omega)] at hr
  dsimp only at hr
  split at hr
  · cases hr
  rename_i hv
  obtain ⟨b1, hb1, hr⟩ := bind_ok hr
  generalize hvt : t * b.datarate = vt at *
  unfold Bus.addData at hr
  obtain ⟨d, hd, hr⟩ := bind_ok hr
  obtain ⟨first, h2, hr⟩ := bind_ok hr
  obtain ⟨rfl, -⟩ := insertData_ok hd
  have hw : b1.width = b.width := (addPrevious_keeps hb1).1
  dsimp only at hr h2
  rw [hw, hz] at hr h2
  rw [if_neg (by simp)] at hr
  have e := pure_ok hr
  by_cases h0 : vt = 0
  · subst h0
    have hll : b.lastLoad = 0 := by omega
    have hc : b.storage.count = 0 := by omega
    obtain ⟨_, e1⟩ := addPrevious_last' h (by omega) hb1
    subst e1
    have hfirst : first = b1.idleWord := by
      unfold Bus.at? at h2
      simp only [Nat.lt_irrefl, if_false] at h2
      rw [← Except.ok.inj h2]
      exact word_ge (Nat.zero_le _)
    subst hfirst
    subst e
    have hlp := h.lp hll hc
    obtain ⟨l0, el, al⟩ := h.lines 0 (by omega)
    rw [h.word_idle (by omega)] at al
    refine ⟨.inl ⟨?_, by simp [Bus.fresh]⟩, rfl, rfl⟩
    refine { wN := h.wN, wpos := h.wpos, dr := h.dr, idleAgrees := h.idleAgrees, idleNarrow := h.idleNarrow
             idleStats := h.idleStats, narrow := ?_, len := by simp, lt := fun hc => by simp at hc, lt0 := fun _ => rfl
             enabled := h.enabled, lines := ?_, pend := ?_, stats := ?_, lp := fun _ _ => hlp }
    · intro w hw
      exact h.narrow w (by simpa [BusContainer.clear] using hw)
    · intro k _
      obtain ⟨l, e, a⟩ := h.lines k (by omega)
      rw [h.word_idle (by omega)] at a
      exact ⟨l, e, Agrees.of_eq (word_ge (by simp)) a⟩
    · show Pending.mk 0 (Bus.diff b1.width b1.lastPattern b1.idleWord) true = _
      congr 1
      rw [hlp, diff_eq h.wN h.idleNarrow h.idleNarrow]
      unfold Line.at
      rw [el]
      exact (beat_congr h.idleAgrees al).symm
    · have := h.stats
      rw [hll] at this
      exact this
  · obtain ⟨P, LP, e1, hN, hA⟩ := addPrevious_spec h (by omega) hb1
    subst e1
    subst e
    refine ⟨.inr ⟨h.enabled, by show 0 < vt; omega, rfl, rfl, rfl, ?_⟩, rfl, rfl⟩
    show line.stats b.width idle vt + (0 + b.fresh) * b.idleStats = _
    rw [hf]
    simp

/-- A call that sends a burst. -/
def BusOp.IsSend : BusOp → Prop
  | .load .. => True
  | _ => False

theorem seen_run : ∀ {ops : List BusOp} {b b' : Bus N} {line : Line}, BusSeen b line idle → b.run ops = .ok b' → (∀ op ∈ ops, op.IsSend) →
    BusSeen b' (ops.foldl (fun l op => l.drive b.width b.datarate lastFirst idle op.drive) line) idle ∧
      b'.width = b.width ∧ b'.datarate = b.datarate
  | [], b, b', line, h, hr, _ => by cases hr; exact ⟨h, rfl, rfl⟩
  | op :: ops, b, b', line, h, hr, hl => by
    unfold Bus.run at hr
    split at hr
    rotate_left
    · cases hr
    rename_i b1 hb1
    have h1 := hl op (by simp)
    cases op with
    | load t data n =>
      have hb1 : b.load t data n = .ok b1 := hb1
      rcases h with ⟨ha, hf⟩ | hs
      · have key : BusSeen b1 (line.drive b.width b.datarate lastFirst idle (.send t data n)) idle ∧ b1.width = b.width ∧ b1.datarate = b.datarate := by
          by_cases hn : n < b.width
          · have e : line.drive b.width b.datarate lastFirst idle (.send t data n) = line := by
              funext k
              simp only [Line.drive]
              rw [Nat.div_eq_of_lt hn, if_neg (by simp)]
            rw [e]
            exact short_load ha hf hn hb1
          · obtain ⟨a1, a2, a3, a4, _⟩ := bus_load_active ha (Nat.not_lt.1 hn) hb1
            rw [hf] at a1
            exact ⟨.inl ⟨a1, a2⟩, a3, a4⟩
        obtain ⟨k1, k2, k3⟩ := key
        have r := seen_run k1 hr fun o ho => hl o (List.mem_cons_of_mem _ ho)
        rw [k2, k3] at r
        exact r
      · exact absurd hb1 (stuck_load hs)
    | _ => cases h1

/-- Whatever sequence of bursts a bus has accepted, of whatever length: an accepted query returns the sums over the beats of the
waveform. -/
theorem sent_stats {width datarate : Nat} {pat : IdlePattern} (hw : 0 < width) (hN : width ≤ N) (hd : 0 < datarate)
    {start b : Bus N} (hs : Bus.init N width datarate pat = .ok start) {ops : List BusOp} (hr : start.run ops = .ok b)
    (hl : ∀ op ∈ ops, op.IsSend) {t : Nat} {x : BusStats} (hq : b.getStats t = .ok x) :
    x = (Line.stats width (fun _ => pat == .H)
      (Line.after width datarate lastFirst (fun _ => pat == .H) true (ops.map BusOp.drive)) (t * datarate)) := by
  obtain ⟨hi, h1, h2, h3, h4, h5, h6⟩ := bus_init_inv hw hN hd hs
  have ha : BusActive start (fun _ => some (fun _ => pat == .H)) (fun _ => pat == .H) 0 := by
    rcases hi with ⟨X, ha, e⟩ | hn
    · rw [h5] at e
      have : X = 0 := by omega
      subst this; exact ha
    · rw [hn.enabled] at h4; cases h4
  obtain ⟨k1, k2, k3⟩ := seen_run (.inl ⟨ha, h5⟩) hr hl
  have e : Line.after width datarate lastFirst (fun _ => pat == .H) true (ops.map BusOp.drive)
      = ops.foldl (fun l op => Line.drive width datarate lastFirst (fun _ => pat == .H) l op.drive)
        (fun _ => some (fun _ => pat == .H)) := by
    unfold Line.after; rw [List.foldl_map]; rfl
  rw [e]
  rw [h1, h2] at k1
  rw [h1] at k2
  rw [h2] at k3
  rcases k1 with ⟨ha', hf⟩ | hst
  · have hlast : b.lastLoad ≤ t * b.datarate := by
      unfold Bus.getStats at hq
      dsimp only at hq
      split at hq
      · cases hq
      · omega
    have := ha'.getStats_last hf hlast
    rw [BusStats.zero_mul, BusStats.add_zero, k2, k3, hq] at this
    exact Except.ok.inj this
  · have := stuck_stats hst hq
    rw [k2, k3] at this
    exact this

end DRAMPower
