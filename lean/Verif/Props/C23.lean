import Verif.Lemmas.Dbi

/-!
# C23: inversion is transparent

"For every data stream the receiver that un-inverts each chunk whose DBI flag is set recovers exactly the original
data; payload length and unaffected bits are unchanged."

The full statement would be `C23_partial` for every history of bursts without the hypothesis that the burst is accepted
(`.ok`). That is false (`C23_violation`): a burst longer than an earlier one of the same direction runs into undefined
behaviour. `C23_accept_partial` discharges the hypothesis for histories of bursts of one size.
-/

namespace DRAMPower
open Spec

variable {w : Nat}

/-- Every burst, from every state, with every algorithm, chunk width, polarity and bus width: the transmitted words have
the length of the payload, and un-inverting the flagged chunks gives the payload. The flags are those reported by
`getInversionStateRead` / `getInversionStateWrite`. -/
theorem C23_partial {p : DbiParams w} (hs : 0 < p.sub) {d d' : Dbi w} {t nBits : Nat} {data out : List (BitVec w)} {read : Bool}
    {ev : List DbiEvent} (h : d.update p t nBits (some data) read = .ok (d', some out, ev)) :
    out.length * w = nBits ∧ nBits % (p.sub * w) = 0 ∧
    received p.sub (fun c => (if read then d'.lastRead else d'.lastWrite).inversions.getD c false) out = data.take (nBits / w) := by
  obtain ⟨b⟩ := Dbi.update_ok h
  obtain ⟨h1, h2, h3⟩ := compute_received hs b.comp
  have hl := b.done_last
  refine ⟨?_, b.chunks, ?_⟩
  · rw [b.hout, h1, List.length_take, Nat.min_eq_left b.enough]
    exact Nat.div_mul_cancel (Nat.dvd_of_mod_eq_zero b.words)
  · have : (if read then d'.lastRead else d'.lastWrite).inversions = b.s.flags := by
      change (d'.last read).inversions = _; rw [hl]; rfl
    rw [this, ← h3]
    exact congrArg _ b.hout

/-- The flags reach the DBI pins: after the resets of the previous burst, one callback per chunk in order, with the
chunk's flag, its pin and the beat it is transmitted in. -/
theorem C23_pins {p : DbiParams w} (hs : 0 < p.sub) (hp : p.algo = .static) (hc : p.callback = true) {W : Nat} (hW : p.width = some W) {d d' : Dbi w}
    {t nBits : Nat} {data out : List (BitVec w)} {read : Bool} {ev : List DbiEvent}
    (h : d.update p t nBits (some data) read = .ok (d', some out, ev)) :
    ∃ resets, (∀ e ∈ resets, e.inverted = false) ∧ ev = resets ++ (List.range (nBits / (p.sub * w))).map fun c =>
      { load := t, time := t + c / (W / (p.sub * w)), idx := c % (W / (p.sub * w))
        inverted := (if read then d'.lastRead else d'.lastWrite).inversions.getD c false, read } := by
  obtain ⟨b⟩ := Dbi.update_ok h
  have hi := compute_inv hs (Or.inl hp) b.comp
  have hl := b.done_last
  have hw : (if read then d'.lastRead else d'.lastWrite).inversions = b.s.flags := by
    change (d'.last read).inversions = _; rw [hl]; rfl
  have hw0 : 0 < w := by
    rcases Nat.eq_zero_or_pos w with h0 | h0
    · have := b.words; rw [h0, Nat.mod_zero] at this; exact absurd this b.nonzero
    · exact h0
  refine ⟨b.resets, ?_, ?_⟩
  · have hr := b.reset
    unfold Dbi.reset at hr
    simp only at hr
    split at hr
    · simp at hr
    split at hr
    · simp only [Except.ok.injEq, Prod.mk.injEq] at hr; rw [← hr.2]; simp
    split at hr
    · simp only [Except.ok.injEq, Prod.mk.injEq] at hr; rw [← hr.2]; simp
    split at hr
    · simp only [Except.ok.injEq, Prod.mk.injEq] at hr; rw [← hr.2]; simp
    split at hr
    · simp at hr
    · simp only [Except.ok.injEq, Prod.mk.injEq] at hr
      rw [← hr.2]
      intro e he
      obtain ⟨c, -, rfl⟩ := List.mem_map.1 he
      rfl
  · refine b.hev.trans ?_
    rw [DbiParams.deliver, if_pos hc, hi.evs, hw, List.length_take, Nat.min_eq_left b.enough]
    have e1 : nBits / (p.sub * w) * p.sub = nBits / w := by
      have hch := b.chunks
      unfold DbiParams.chunkSize at hch
      obtain ⟨k, rfl⟩ := Nat.dvd_of_mod_eq_zero hch
      rw [Nat.mul_div_cancel_left _ (Nat.mul_pos hs hw0), show p.sub * w * k = w * (k * p.sub) by ac_rfl, Nat.mul_div_cancel_left _ hw0]
    have e2 : (nBits / w + p.sub - 1) / p.sub = nBits / (p.sub * w) := by
      rw [← e1]
      have := (ceil_step (i := nBits / (p.sub * w) * p.sub) hs (Nat.mul_mod_left _ _)).1
      rw [this, Nat.mul_div_cancel _ hs]
    rw [e2]
    congr 1
    refine List.map_congr_left fun c _ => ?_
    simp only [DbiParams.event, DbiParams.chunksPerWidth, hW, Option.map_some, DbiParams.chunkSize]

/-- Without inverted data the caller transmits the payload itself; the state is untouched and no pin changes. -/
theorem C23_off {p : DbiParams w} {d d' : Dbi w} {t nBits : Nat} {data : Option (List (BitVec w))} {read : Bool} {ev : List DbiEvent}
    (h : d.update p t nBits data read = .ok (d', none, ev)) :
    d' = d ∧ ev = [] ∧ (data = none ∨ nBits = 0 ∨ d.enable = false ∨ p.idle = .Z) := by
  cases data with
  | none => unfold Dbi.update at h; simp at h; exact ⟨h.1.symm, h.2, Or.inl rfl⟩
  | some data =>
    unfold Dbi.update at h
    simp only at h
    split at h
    · rename_i hc
      simp at h; exact ⟨h.1.symm, h.2, Or.inr hc⟩
    · exfalso
      cases hr : d.reset p t read with
      | error e => rw [hr] at h; simp [bind, Except.bind] at h
      | ok x =>
        rw [hr] at h
        simp only [bind, Except.bind] at h
        split at h
        · simp at h
        split at h
        · simp at h
        split at h
        · simp at h
        split at h
        · simp at h
        split at h
        · simp at h
        · simp [pure, Except.pure] at h

/-- A burst, as the interfaces pass it. -/
structure DbiCall (w : Nat) where
  t : Nat
  data : List (BitVec w)
  read : Bool

/-- A history of bursts of `nBits` each. -/
def Dbi.run (p : DbiParams w) (nBits : Nat) (d : Dbi w) : List (DbiCall w) → Except Err (Dbi w)
  | [] => .ok d
  | c :: cs => do
    let (d, _, _) ← d.update p c.t nBits (some c.data) c.read
    d.run p nBits cs

theorem C23_step {p : DbiParams w} (hs : 0 < p.sub) (hw : 0 < w) (hz : p.idle ≠ .Z) {nBits : Nat} (hn : 0 < nBits)
    (hdvd : nBits % (p.sub * w) = 0) (hW : ∀ W, p.width = some W → p.sub * w ≤ W ∧ W ≤ nBits) {d : Dbi w}
    (hen : d.enable = true) {t : Nat} {data : List (BitVec w)} {read : Bool} (hd : (d.last read).Holds p (nBits / (p.sub * w)))
    (hdata : nBits ≤ data.length * w) :
    ∃ d' out ev, d.update p t nBits (some data) read = .ok (d', some out, ev) ∧ d'.enable = true ∧
      d'.last (!read) = d.last (!read) ∧ (d'.last read).Holds p (nBits / (p.sub * w)) := by
  obtain ⟨d1, resets, hr, hh, hne, hinv, hen1⟩ := reset_ok (t := t) hd
  have hch : 0 < p.chunkSize := Nat.mul_pos hs hw
  have hcpw : p.chunksPerWidth ≠ some 0 := by
    unfold DbiParams.chunksPerWidth
    cases hwd : p.width with
    | none => simp
    | some W =>
      have := Nat.div_pos (hW W hwd).1 hch
      simp only [Option.map_some, ne_eq, Option.some.injEq]
      exact Nat.pos_iff_ne_zero.1 this
  have hwords : nBits % w = 0 := by
    obtain ⟨k, rfl⟩ := Nat.dvd_of_mod_eq_zero hdvd
    rw [show p.sub * w * k = w * (p.sub * k) by ac_rfl, Nat.mul_mod_right]
  have henough : nBits / w ≤ data.length := Nat.div_le_of_le_mul (by rw [Nat.mul_comm]; exact hdata)
  have hlen : (data.take (nBits / w)).length = nBits / w := by rw [List.length_take, Nat.min_eq_left henough]
  obtain ⟨before, hb⟩ : ∃ b, p.previous (p.saveLast (d1.last read) d1.inverted t) (data.take (nBits / w)) t = .ok b := by
    unfold DbiParams.previous
    cases hwd : p.width with
    | none => exact ⟨_, rfl⟩
    | some W =>
      simp only
      split
      · exact ⟨_, rfl⟩
      · rw [if_neg (by rw [hlen]; have := Nat.div_le_div_right (c := w) (hW W hwd).2; omega)]; exact ⟨_, rfl⟩
  obtain ⟨f1, f2, f3, f4, -, -⟩ := saveLast_fields (p := p) (t := t) (d1.last read) d1.inverted
  have hh' : (p.saveLast (d1.last read) d1.inverted t).Holds p (nBits / p.chunkSize) := by
    rcases hh with ⟨a, b⟩ | ⟨a, b, c⟩
    · exact Or.inl ⟨by rw [f1]; exact a, by rw [f2]; exact b⟩
    · refine Or.inr ⟨?_, by rw [f4, f3]; exact b, by rw [f3]; exact c⟩
      unfold DbiParams.short at a ⊢; rw [f1, f4]; exact a
  have hnc : 0 < nBits / p.chunkSize := Nat.div_pos (Nat.le_of_dvd hn (Nat.dvd_of_mod_eq_zero hdvd)) hch
  have hfit := fit_length hh' hnc
  have hle : ∀ i, i < nBits / w → i / p.sub < nBits / p.chunkSize := by
    intro i hi
    rw [Nat.div_lt_iff_lt_mul hs]
    have : nBits / p.chunkSize * p.sub = nBits / w := by
      obtain ⟨k, rfl⟩ := Nat.dvd_of_mod_eq_zero hdvd
      unfold DbiParams.chunkSize at hch ⊢
      rw [Nat.mul_div_cancel_left _ hch, show p.sub * w * k = w * (k * p.sub) by ac_rfl, Nat.mul_div_cancel_left _ hw]
    omega
  obtain ⟨s, hcomp⟩ := compute_ok (p := p) (t := t) (read := read) (before := before) (data := data.take (nBits / w))
    (flags := ((p.saveLast (d1.last read) d1.inverted t).fit p (nBits / p.chunkSize)).inversions) hcpw
    (fun i hi => Nat.lt_of_lt_of_le (hle i (by rw [hlen] at hi; exact hi)) hfit)
  have B : DbiBurst p d t nBits data read _ _ _ :=
    { d1, resets, before, s, enabled := hen, nonzero := by omega, idle := hz, reset := hr, words := hwords, enough := henough
      prev := hb, chunks := hdvd, comp := hcomp, hd' := rfl, hout := rfl, hev := rfl }
  refine ⟨_, _, _, Dbi.update_eq B, ?_, ?_⟩
  · cases read <;> exact hen1.trans hen
  · have hs' := (compute_received hs hcomp).2.1
    have key : ∀ x : Dbi w, x.last read = ((p.saveLast (d1.last read) d1.inverted t).fit p (nBits / p.chunkSize)).done p t nBits s.flags →
        x.last (!read) = d1.last (!read) → x.last (!read) = d.last (!read) ∧ (x.last read).Holds p (nBits / (p.sub * w)) := by
      intro x h1 h2
      refine ⟨by rw [h2, hne], ?_⟩
      · rw [h1]
        refine Or.inr ⟨?_, ?_, ?_⟩
        · unfold DbiParams.short
          cases hc : p.chunksPerWidth with
          | none => rfl
          | some m =>
            simp only [LastBurst.done, Bool.true_and]
            unfold DbiParams.chunksPerWidth at hc
            cases hwd : p.width with
            | none => rw [hwd] at hc; simp at hc
            | some W =>
              rw [hwd] at hc
              simp only [Option.map_some, Option.some.injEq] at hc
              have hle := Nat.div_le_div_right (c := p.chunkSize) (hW W hwd).2
              rw [← hc]; exact decide_eq_false (Nat.not_lt.2 hle)
        · simp only [LastBurst.done]; rw [hs']; exact hfit
        · simp only [LastBurst.done]; rw [hs']; exact hfit
    refine key _ ?_ ?_
    · cases read <;> rfl
    · cases read <;> rfl

/-- Every history of bursts of one size is accepted: a size of whole chunks and at least a beat. Together with `C23_partial`
every burst of such a history is transmitted so that the receiver recovers it. -/
theorem C23_accept_partial {p : DbiParams w} (hs : 0 < p.sub) (hw : 0 < w) (hz : p.idle ≠ .Z) {nBits : Nat} (hn : 0 < nBits)
    (hdvd : nBits % (p.sub * w) = 0) (hW : ∀ W, p.width = some W → W % (p.sub * w) = 0 ∧ 0 < W ∧ W ≤ nBits) {d : Dbi w}
    (hinit : Dbi.init p true = .ok d) (calls : List (DbiCall w)) (hdata : ∀ c ∈ calls, nBits ≤ c.data.length * w) :
    ∃ d', d.run p nBits calls = .ok d' := by
  have hW' : ∀ W, p.width = some W → p.sub * w ≤ W ∧ W ≤ nBits := fun W h => by
    obtain ⟨a, b, c⟩ := hW W h
    exact ⟨Nat.le_of_dvd b (Nat.dvd_of_mod_eq_zero a), c⟩
  have key : ∀ (calls : List (DbiCall w)) (d : Dbi w), d.enable = true → (∀ r, (d.last r).Holds p (nBits / (p.sub * w))) →
      (∀ c ∈ calls, nBits ≤ c.data.length * w) → ∃ d', d.run p nBits calls = .ok d' := by
    intro calls
    induction calls with
    | nil => intro d _ _ _; exact ⟨d, rfl⟩
    | cons c cs ih =>
      intro d h1 h2 h3
      obtain ⟨d', out, ev, hu, h1', h2', h2''⟩ := C23_step hs hw hz hn hdvd hW' h1 (t := c.t) (h2 c.read) (h3 c (by simp))
      obtain ⟨d'', h⟩ := ih d' h1' (fun r => by
        rcases (show r = c.read ∨ r = !c.read by cases r <;> cases c.read <;> simp) with e | e
        · rw [e]; exact h2''
        · rw [e, h2']; exact h2 _) fun c hc => h3 c (by simp [hc])
      exact ⟨d'', by unfold Dbi.run; rw [hu]; simpa [bind, Except.bind] using h⟩
  have hd : d = { enable := true } := by
    unfold Dbi.init at hinit
    cases hwd : p.width with
    | none => rw [hwd] at hinit; exact (Except.ok.inj hinit).symm
    | some W =>
      rw [hwd] at hinit
      simp only [DbiParams.chunkSize, (hW W hwd).1, if_true] at hinit
      exact (Except.ok.inj hinit).symm
  refine key calls d (by rw [hd]) ?_ hdata
  intro r; rw [hd]; cases r <;> exact Or.inl ⟨rfl, rfl⟩

/-- DDR4: one byte per chunk, idle level high, a 16 bit bus. -/
def dbiDDR4 : DbiParams 8 := { sub := 1, idle := .H, algo := .static, width := some 16, burstLength := 8, grow := fun m n => (m + max m (n - m) + 63) / 64 * 64 }

/-- LPDDR6: two bytes per chunk, idle level low. -/
def dbiLPDDR6 : DbiParams 8 := { sub := 2, idle := .L, algo := .static, width := none, burstLength := 24
                                 grow := fun m n => (m + max m (n - m) + 63) / 64 * 64, callback := false }

example : ∃ d', (Dbi.update dbiDDR4 { enable := true } 5 32 (some [0x01, 0xff, 0x0f, 0x07]) true) =
    .ok (d', some [0xfe, 0xff, 0x0f, 0xf8],
      [⟨5, 5, 0, true, true⟩, ⟨5, 5, 1, false, true⟩, ⟨5, 6, 0, false, true⟩, ⟨5, 6, 1, true, true⟩]) := ⟨_, by rfl⟩

example : ∃ d d', Dbi.init dbiDDR4 true = .ok d ∧
    d.run dbiDDR4 32 [⟨0, [1, 2, 3, 4], true⟩, ⟨2, [0, 0, 0, 0], true⟩, ⟨7, [9, 9, 9, 9], false⟩] = .ok d' := ⟨_, _, rfl, rfl⟩

/-- Bursts of different sizes in one history: the flags vector is resized only when its *capacity* is too small, so a
longer burst after a shorter one writes flags beyond the end of the vector (undefined behaviour), although the claim
asks for every data stream. -/
theorem C23_violation :
    ∃ d d', Dbi.init dbiDDR4 true = .ok d ∧ (d.update dbiDDR4 0 16 (some [0, 0]) true) = .ok (d', some [0xff, 0xff], [⟨0, 0, 0, true, true⟩, ⟨0, 0, 1, true, true⟩]) ∧
      (d'.update dbiDDR4 8 32 (some [0, 0, 0, 0]) true) = .error (.ub "lastInvert[chunk]") := by
  exact ⟨_, _, rfl, rfl, rfl⟩

end DRAMPower
