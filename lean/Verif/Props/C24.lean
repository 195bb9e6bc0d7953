import Verif.Props.C23

/-!
# C24: inversion bounds the cost

"After static DBI no transmitted chunk contains more than half of the costly level (plus the DBI bit), and inversion is
applied exactly when it strictly reduces the cost; with dynamic (transition) DBI the number of toggles per chunk is at
most half of its width."

The full static statement is `C24_static_partial` without `p.sub = 1`; it is false for chunks of several words
(`C24_static_violation`, the LPDDR6 configuration). The full dynamic statement is `C24_dynamic_partial` and
`C24_seamless_partial` without `p.sub = 1`, for every threshold and every predecessor; it is false
(`C24_threshold_violation`, `C24_short_violation`).
-/

namespace DRAMPower
open Spec

variable {w : Nat}

/-- The level that costs energy: the one the bus does not idle at. -/
def costly (p : DbiParams w) : Bool := p.idle == .L

theorem chunk_one (words : List (BitVec w)) {c : Nat} (h : c < words.length) : chunk 1 words c = [words.getD c 0] := by
  unfold chunk
  rw [Nat.mul_one, List.getD_eq_getElem?_getD, List.getElem?_eq_getElem h, Option.getD_some]
  rw [List.drop_eq_getElem_cons h]; rfl

theorem levels_one (b : Bool) (v : BitVec w) : levels b [v] = wires w fun j => v.getLsbD j == b := by
  simp [levels]

/-- The decision of the static algorithm for a single word. -/
theorem static_flags {p : DbiParams w} (hs : p.sub = 1) (hp : p.algo = .static) (hz : p.idle ≠ .Z) {t : Nat} {read : Bool} {data : List (BitVec w)}
    {flags : List Bool} {before : Option (List (BitVec w))} {s : DbiLoop w} (h : p.compute before t read { data, flags } = .ok s) :
    ∀ c, c < data.length → s.flags.getD c false = decide (levels (!costly p) [data.getD c 0] < levels (costly p) [data.getD c 0]) := by
  have hs0 : 0 < p.sub := by omega
  unfold DbiParams.compute at h
  rw [hp] at h
  simp only at h
  have := foldlM_range_inv
    (P := fun i s => DbiInv p t read data flags.length i s ∧ s.a = 0 ∧ s.b = 0 ∧
      ∀ c, c < i → s.flags.getD c false = decide (levels (!costly p) [data.getD c 0] < levels (costly p) [data.getD c 0]))
    ⟨DbiInv.init hs0, rfl, rfl, by intro c hc; omega⟩ ?_ h
  · exact this.2.2.2
  intro i a b hi ⟨hinv, ha, hb, hfl⟩ hv
  have hd := hinv.dat i hi
  rw [hs, Nat.div_one, Nat.mul_one, if_neg (by omega)] at hd
  unfold DbiParams.staticStep at hv
  simp only at hv
  rw [if_pos ((isLast_iff p i).2 (by rw [hs, Nat.mod_one])), ha, hb, Nat.zero_add, Nat.zero_add, hd, popcount_level'] at hv
  have hcnt : b.a = 0 ∧ b.b = 0 := by
    unfold DbiParams.visit at hv
    split at hv
    · simp at hv
    split at hv
    · simp at hv
    obtain rfl := Except.ok.inj hv
    exact ⟨rfl, rfl⟩
  obtain ⟨h1, h2, h3⟩ := DbiInv.visit hs0 (hinv.counters 0 0) (by rw [hs, Nat.mod_one]) hv
  refine ⟨h1, hcnt.1, hcnt.2, ?_⟩
  rw [hs, Nat.div_one] at h2 h3
  have hfl' := hinv.flen
  intro c hc
  rw [h2]
  by_cases hci : c = i
  · subst hci
    simp only [List.getD_eq_getElem?_getD, List.getElem?_set_self (show c < a.flags.length by omega), Option.getD_some]
    rw [popcount_level]
    simp only [levels_one]
    rcases (show p.idle = .L ∨ p.idle = .H by cases hid : p.idle <;> simp_all) with hid | hid
    · simp [costly, hid]
    · have hne : (PinState.H == PinState.L) = false := rfl
      simp [costly, hid, hne]
  · simp only [List.getD_eq_getElem?_getD, List.getElem?_set_ne (Ne.symm hci)]
    have := hfl c (by omega)
    simp only [List.getD_eq_getElem?_getD] at this
    exact this

/-- Static inversion with one word per chunk, every word width, polarity and history: no transmitted chunk has more than
half of its wires at the costly level; a chunk is inverted exactly when that makes its cost strictly smaller. -/
theorem C24_static_partial {p : DbiParams w} (hs : p.sub = 1) (hp : p.algo = .static) {d d' : Dbi w} {t nBits : Nat}
    {data out : List (BitVec w)} {read : Bool} {ev : List DbiEvent} (h : d.update p t nBits (some data) read = .ok (d', some out, ev)) :
    ∀ c, c < nBits / (p.sub * w) →
      2 * levels (p.idle == .L) (chunk p.sub out c) ≤ p.sub * w ∧
      ((if read then d'.lastRead else d'.lastWrite).inversions.getD c false = true ↔
        levels (p.idle == .L) ((chunk p.sub data c).map (~~~ ·)) < levels (p.idle == .L) (chunk p.sub data c)) := by
  intro c hc
  obtain ⟨b⟩ := Dbi.update_ok h
  have hs0 : 0 < p.sub := by omega
  rw [hs, Nat.one_mul] at hc ⊢
  have hlen : (data.take (nBits / w)).length = nBits / w := by rw [List.length_take, Nat.min_eq_left b.enough]
  have hfl := static_flags hs hp b.idle b.comp c (by omega)
  have hinv := compute_inv hs0 (Or.inl hp) b.comp
  have hfw : (if read then d'.lastRead else d'.lastWrite).inversions = b.s.flags := by
    change (d'.last read).inversions = _; rw [b.done_last]; rfl
  have hd := hinv.dat c (by omega)
  rw [hs, Nat.div_one, Nat.mul_one, hlen] at hd
  simp only [hc, true_and] at hd
  have hto : chunk 1 out c = [b.s.data.getD c 0] :=
    (congrArg (fun l => chunk 1 l c) b.hout).trans (chunk_one b.s.data (by rw [hinv.len, hlen]; exact hc))
  have hcd : c < data.length := by have := b.enough; omega
  have htk : (data.take (nBits / w)).getD c 0 = data.getD c 0 := by
    simp [List.getD_eq_getElem?_getD, hc]
  rw [htk] at hd hfl
  rw [hfw, chunk_one data hcd, hto, List.map_cons, List.map_nil, hd, hfl]
  simp only [levels_one, level_not]
  have hsum := level_sum (data.getD c 0)
  have hL : (p.idle == PinState.L) = costly p := rfl
  rw [hL]
  cases hcost : costly p
  · simp only [Bool.not_false, decide_eq_true_eq]
    refine ⟨?_, trivial⟩
    split
    · simp only [level_not, Bool.not_false]; omega
    · omega
  · simp only [Bool.not_true, decide_eq_true_eq]
    refine ⟨?_, trivial⟩
    split
    · simp only [level_not, Bool.not_true]; omega
    · omega

example : ∃ d', (Dbi.update dbiDDR4 { enable := true } 5 16 (some [0x01, 0xff]) true) = .ok (d', some [0xfe, 0xff],
      [⟨5, 5, 0, true, true⟩, ⟨5, 5, 1, false, true⟩]) := ⟨_, by rfl⟩

/-- LPDDR6, two bytes per chunk: the decision for a chunk is taken when its first byte has been counted, together with
the second byte of the previous chunk as transmitted. A chunk with 12 of 16 wires at the costly level is transmitted
unchanged, and a chunk without any is inverted to 16. -/
theorem C24_static_violation :
    (∃ d' ev, Dbi.update dbiLPDDR6 { enable := true } 0 48 (some [0x0f, 0xff, 0x01, 0x01, 0x00, 0x00]) true =
        .ok (d', some [0x0f, 0xff, 0xfe, 0xfe, 0x00, 0x00], ev)) ∧
    levels true (chunk 2 [0x0f, 0xff, 0xfe, 0xfe, 0x00, 0x00] 0 : List (BitVec 8)) = 12 ∧
    levels true (chunk 2 [0x0f, 0xff, 0xfe, 0xfe, 0x00, 0x00] 1 : List (BitVec 8)) = 14 ∧
    levels true (chunk 2 [0x0f, 0xff, 0x01, 0x01, 0x00, 0x00] 1 : List (BitVec 8)) = 2 := by
  refine ⟨⟨_, _, rfl⟩, ?_⟩
  decide +kernel

/-! ## Transition inversion -/

theorem prevWord_earlier (bf data : List (BitVec w)) (i : Nat) : prevWord bf data i = earlier bf data i := by
  unfold prevWord earlier
  split
  · rename_i h; rw [List.getD_eq_getElem?_getD, List.getElem?_eq_getElem h, Option.getD_some]
  · rfl

/-- The decision of the dynamic algorithm for a single word. -/
theorem dynamic_flags {p : DbiParams w} {th : Nat} (hs : p.sub = 1) (hp : p.algo = .dynamic th) {t : Nat} {read : Bool}
    {data : List (BitVec w)} {flags : List Bool} {bf : List (BitVec w)} (hbf : 0 < bf.length) {s : DbiLoop w}
    (h : p.compute (some bf) t read { data, flags } = .ok s) :
    ∀ c, c < data.length → s.flags.getD c false = decide (th < toggled (data.getD c 0) (earlier bf s.data c)) := by
  have hs0 : 0 < p.sub := by omega
  unfold DbiParams.compute at h
  rw [hp] at h
  simp only at h
  have := foldlM_range_inv
    (P := fun i s => DbiInv p t read data flags.length i s ∧ s.a = 0 ∧
      ∀ c, c < i → s.flags.getD c false = decide (th < toggled (data.getD c 0) (earlier bf s.data c)))
    ⟨DbiInv.init hs0, rfl, by intro c hc; omega⟩ ?_ h
  · exact this.2.2
  intro i a b hi ⟨hinv, ha, hfl⟩ hv
  have hd := hinv.dat i hi
  rw [hs, Nat.div_one, Nat.mul_one, if_neg (by omega)] at hd
  unfold DbiParams.dynamicStep at hv
  simp only at hv
  rw [if_pos ((isLast_iff p i).2 (by rw [hs, Nat.mod_one])), ha, Nat.zero_add, hd, popcount_toggled, prevWord_earlier] at hv
  have hcnt : b.a = 0 := by
    unfold DbiParams.visit at hv
    split at hv
    · simp at hv
    split at hv
    · simp at hv
    obtain rfl := Except.ok.inj hv
    rfl
  obtain ⟨h1, h2, h3⟩ := DbiInv.visit hs0 (hinv.counters 0 a.b) (by rw [hs, Nat.mod_one]) hv
  refine ⟨h1, hcnt, ?_⟩
  rw [hs, Nat.div_one] at h2 h3
  have hfl' := hinv.flen
  have hother : ∀ c, c ≠ i → b.flags.getD c false = a.flags.getD c false := by
    intro c hci
    rw [h2]; simp only [List.getD_eq_getElem?_getD, List.getElem?_set_ne (Ne.symm hci)]
  have hkeep : ∀ j, j < i → b.data.getD j 0 = a.data.getD j 0 := by
    intro j hj
    rw [h1.dat j (by omega), hinv.dat j (by omega), hs, Nat.div_one, Nat.mul_one, hother j (by omega)]
    simp only [hj, show j < i + 1 by omega]
  have hearl : ∀ c, c ≤ i → earlier bf b.data c = earlier bf a.data c := by
    intro c hc
    unfold earlier
    split
    · rfl
    · exact hkeep _ (by omega)
  intro c hc
  rw [hearl c (by omega)]
  by_cases hci : c = i
  · subst hci
    rw [h2]
    simp only [List.getD_eq_getElem?_getD, List.getElem?_set_self (show c < a.flags.length by omega), Option.getD_some]
  · rw [hother c hci]; exact hfl c (by omega)

/-- One burst after the words `bf`, whatever they are. -/
theorem dynamic_bound {p : DbiParams w} (hs : p.sub = 1) (hp : p.algo = .dynamic (w / 2)) {d d' : Dbi w} {t nBits : Nat}
    {data out : List (BitVec w)} {read : Bool} {ev : List DbiEvent} (b : DbiBurst p d t nBits data read d' out ev)
    {bf : List (BitVec w)} (hb : b.before = some bf) (hbf : 0 < bf.length) :
    ∀ c, c < nBits / w → 2 * toggled (out.getD c 0) (earlier bf out c) ≤ w := by
  intro c hc
  have hs0 : 0 < p.sub := by omega
  have hcomp := b.comp
  rw [hb] at hcomp
  have hlen : (data.take (nBits / w)).length = nBits / w := by rw [List.length_take, Nat.min_eq_left b.enough]
  have hfl := dynamic_flags hs hp hbf hcomp c (by omega)
  have hinv := compute_inv hs0 (Or.inr (by simp)) hcomp
  have hd := hinv.dat c (by omega)
  rw [hs, Nat.div_one, Nat.mul_one, hlen] at hd
  simp only [hc, true_and] at hd
  have ho : toggled (out.getD c 0) (earlier bf out c) = toggled (b.s.data.getD c 0) (earlier bf b.s.data c) :=
    congrArg (fun l => toggled (l.getD c 0) (earlier bf l c)) b.hout
  rw [ho]
  have hle := toggled_le ((data.take (nBits / w)).getD c 0) (earlier bf b.s.data c)
  rw [hfl] at hd
  generalize earlier bf b.s.data c = e at *
  rw [hd]
  simp only [decide_eq_true_eq]
  split
  · rw [toggled_not]; omega
  · omega

/-- Transition inversion with one word per chunk and half the width as threshold, for a burst that does not continue the
previous one of its direction (or the first burst): every word differs from the one a beat earlier on the same wires
(the idle level before the first beat) in at most half of its wires. -/
theorem C24_dynamic_partial {p : DbiParams w} (hs : p.sub = 1) (hp : p.algo = .dynamic (w / 2)) {W : Nat} (hW : p.width = some W)
    (hWw : w ≤ W) {d d' : Dbi w} {t nBits : Nat} {data out : List (BitVec w)} {read : Bool} {ev : List DbiEvent}
    (hgap : (if read then d.lastRead else d.lastWrite).init = false ∨ (if read then d.lastRead else d.lastWrite).stop ≠ t)
    (h : d.update p t nBits (some data) read = .ok (d', some out, ev)) :
    ∀ c, c < nBits / w → 2 * toggled (out.getD c 0)
      (earlier (List.replicate (W / w) (if p.idle = .H then BitVec.allOnes w else 0)) out c) ≤ w := by
  obtain ⟨b⟩ := Dbi.update_ok h
  have hw0 : 0 < w := by
    rcases Nat.eq_zero_or_pos w with h0 | h0
    · have := b.words; rw [h0, Nat.mod_zero] at this; exact absurd this b.nonzero
    · exact h0
  have hl : (b.d1.last read).init = (d.last read).init ∧ (b.d1.last read).stop = (d.last read).stop := by
    have hr := b.reset
    unfold Dbi.reset at hr
    simp only at hr
    split at hr
    · simp at hr
    split at hr
    · simp only [Except.ok.injEq, Prod.mk.injEq] at hr; rw [← hr.1]; exact ⟨rfl, rfl⟩
    split at hr
    · simp only [Except.ok.injEq, Prod.mk.injEq] at hr; rw [← hr.1]; exact ⟨rfl, rfl⟩
    split at hr
    · simp only [Except.ok.injEq, Prod.mk.injEq] at hr; rw [← hr.1]; exact ⟨rfl, rfl⟩
    split at hr
    · simp at hr
    · simp only [Except.ok.injEq, Prod.mk.injEq] at hr
      rw [← hr.1, Dbi.last_setLast]; exact ⟨rfl, rfl⟩
  obtain ⟨f1, -, -, -, -, f6⟩ := saveLast_fields (p := p) (t := t) (b.d1.last read) b.d1.inverted
  have hb : b.before = some (p.idleData W) := by
    have hp := b.prev
    unfold DbiParams.previous at hp
    rw [hW] at hp
    have hse : ∀ x, p.seamless (p.saveLast (b.d1.last read) b.d1.inverted t) x t = none := by
      intro x
      unfold DbiParams.seamless
      rw [hW]
      simp only
      rw [if_neg]
      rintro ⟨g1, g2, -⟩
      rw [f1, hl.1] at g1
      rw [f6, hl.2] at g2
      rcases hgap with hg | hg
      · change (d.last read).init = false at hg; rw [hg] at g1; cases g1
      · exact hg g2
    simp only [hse] at hp
    split at hp
    · simp at hp
    · exact (Except.ok.inj hp).symm
  exact dynamic_bound hs hp b hb (by simp only [List.length_replicate]; exact Nat.div_pos hWw hw0)

/-- Two bursts of the same direction, the second starting where the first ends, both of more than one beat: across the
seam and inside the second burst at most half of the wires of a word toggle. -/
theorem C24_seamless_partial {p : DbiParams w} (hs : p.sub = 1) (hp : p.algo = .dynamic (w / 2)) {W : Nat} (hW : p.width = some W)
    (hWw : w ≤ W) {d d' d'' : Dbi w} {t nBits nBits' : Nat} {data data' out out' : List (BitVec w)} {read : Bool} {ev ev' : List DbiEvent}
    (h : d.update p t nBits (some data) read = .ok (d', some out, ev))
    (h' : d'.update p (t + nBits / W) nBits' (some data') read = .ok (d'', some out', ev'))
    (hmore : W < nBits) (hmore' : W / w < nBits' / w) :
    ∀ c, c < nBits' / w → 2 * toggled (out'.getD c 0) (earlier (lastBeat (W / w) out) out' c) ≤ w := by
  obtain ⟨b⟩ := Dbi.update_ok h
  obtain ⟨b'⟩ := Dbi.update_ok h'
  have hw0 : 0 < w := by
    rcases Nat.eq_zero_or_pos w with h0 | h0
    · have := b.words; rw [h0, Nat.mod_zero] at this; exact absurd this b.nonzero
    · exact h0
  have hWpos : 0 < W := by omega
  have hlast := b.done_last
  have hstop : (d'.last read).stop = t + nBits / W := by rw [hlast]; simp only [LastBurst.done, hW]
  have hstart : (d'.last read).start = t := by rw [hlast]; rfl
  have hinit : (d'.last read).init = true := by rw [hlast]; rfl
  have hpos : 0 < nBits / W := Nat.div_pos (Nat.le_of_lt hmore) hWpos
  have hinv : d'.inverted = out := by
    have e := congrArg (fun x : Dbi w => x.inverted) b.hd'
    exact e.trans b.hout.symm
  have houtlen : out.length = nBits / w := by
    have := congrArg List.length b.hout
    rw [this, (compute_received (by omega) b.comp).1, List.length_take, Nat.min_eq_left b.enough]
  have hlt : W / w < nBits / w := by
    rw [Nat.div_lt_iff_lt_mul hw0, Nat.div_mul_cancel (Nat.dvd_of_mod_eq_zero b.words)]; exact hmore
  have hd1 : b'.d1 = d' := by
    have hr := b'.reset
    unfold Dbi.reset at hr
    simp only at hr
    split at hr
    · simp at hr
    split at hr
    · simp only [Except.ok.injEq, Prod.mk.injEq] at hr; exact hr.1.symm
    split at hr
    · simp only [Except.ok.injEq, Prod.mk.injEq] at hr; exact hr.1.symm
    · rename_i hx; rw [hstop] at hx; omega
  have hb : b'.before = some (lastBeat (W / w) out) := by
    have hp := b'.prev
    rw [hd1] at hp
    have hse : ∀ x : List (BitVec w), W / w < x.length → ∀ l : LastBurst w, l.init = true → l.stop = t + nBits / W → l.start = t →
        p.seamless l x (t + nBits / W) = some W := by
      intro x hx l g1 g2 g3
      unfold DbiParams.seamless
      rw [hW]
      simp only
      rw [if_pos ⟨g1, g2, by rw [g2, g3]; omega, hx⟩]
    have hsv : (p.saveLast (d'.last read) d'.inverted (t + nBits / W)).lastbeat = lastBeat (W / w) out := by
      unfold DbiParams.saveLast
      rw [hse _ (by rw [hinv, houtlen]; exact hlt) _ hinit hstop hstart]
      simp only [hinv]; rfl
    obtain ⟨f1, -, -, -, f5, f6⟩ := saveLast_fields (p := p) (t := t + nBits / W) (d'.last read) d'.inverted
    unfold DbiParams.previous at hp
    rw [hW] at hp
    simp only at hp
    rw [hse _ (by rw [List.length_take, Nat.min_eq_left b'.enough]; exact hmore') _ (by rw [f1]; exact hinit) (by rw [f6]; exact hstop)
      (by rw [f5]; exact hstart), hsv] at hp
    exact (Except.ok.inj hp).symm
  refine dynamic_bound hs hp b' hb ?_
  unfold lastBeat
  rw [List.length_drop, houtlen]
  have := Nat.div_pos hWw hw0
  omega

/-- Transition inversion on a bus of two bytes. -/
def dbiToggle (th : Nat) : DbiParams 8 := { sub := 1, idle := .L, algo := .dynamic th, width := some 16, burstLength := 8, grow := fun m n => (m + max m (n - m) + 63) / 64 * 64 }

example : ∃ d' ev d'' ev', (Dbi.update (dbiToggle 4) { enable := true } 0 32 (some [0xff, 0x03, 0x0f, 0xfc]) true) = .ok (d', some [0x00, 0x03, 0x0f, 0x03], ev) ∧
    d'.update (dbiToggle 4) 2 32 (some [0xf1, 0x02, 0x0f, 0xfc]) true = .ok (d'', some [0x0e, 0x02, 0x0f, 0x03], ev') := ⟨_, _, _, _, rfl, rfl⟩

/-- The threshold is a free template parameter: with another one more than half of the wires toggle. -/
theorem C24_threshold_violation :
    (∃ d' ev, Dbi.update (dbiToggle 5) { enable := true } 0 16 (some [0x1f, 0x00]) true = .ok (d', some [0x1f, 0x00], ev)) ∧
    toggled (0x1f : BitVec 8) 0 = 5 := by
  refine ⟨⟨_, _, rfl⟩, ?_⟩
  decide +kernel

/-- A burst of a single beat is not remembered: the burst that follows it seamlessly is compared with an older beat, so
all 8 wires of its first words toggle. -/
theorem C24_short_violation :
    (∃ d1 ev1 d2 ev2 d3 ev3, Dbi.update (dbiToggle 4) { enable := true } 0 32 (some [0, 0, 0, 0]) true = .ok (d1, some [0, 0, 0, 0], ev1) ∧
      d1.update (dbiToggle 4) 2 16 (some [0x0f, 0x0f]) true = .ok (d2, some [0x0f, 0x0f], ev2) ∧
      d2.update (dbiToggle 4) 3 32 (some [0xf0, 0xf0, 0xf0, 0xf0]) true = .ok (d3, some [0xf0, 0xf0, 0xf0, 0xf0], ev3)) ∧
    toggled (0x0f : BitVec 8) 0xf0 = 8 := by
  refine ⟨⟨_, _, _, _, _, _, rfl, rfl, rfl⟩, ?_⟩
  decide +kernel

end DRAMPower
