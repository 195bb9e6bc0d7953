import Verif.Model.Dbi
import Verif.Spec.Inversion
import Verif.Lemmas.BusStats

/-! # The inversion loops -/

namespace DRAMPower
open Spec

variable {w : Nat}

/-! ## Folding over a range -/

theorem foldlM_range_inv {σ : Type} {f : σ → Nat → Except Err σ} {P : Nat → σ → Prop} {n : Nat} {s s' : σ}
    (h0 : P 0 s) (hs : ∀ i a b, i < n → P i a → f a i = .ok b → P (i + 1) b)
    (h : (List.range n).foldlM f s = .ok s') : P n s' := by
  induction n generalizing s' with
  | zero => simp [pure, Except.pure] at h; exact h ▸ h0
  | succ n ih =>
    rw [List.range_succ, List.foldlM_append] at h
    cases hm : (List.range n).foldlM f s with
    | error e => rw [hm] at h; simp [bind, Except.bind] at h
    | ok m =>
      rw [hm] at h
      simp only [bind, Except.bind, List.foldlM_cons, List.foldlM_nil] at h
      cases hb : f m n with
      | error e => rw [hb] at h; simp at h
      | ok b =>
        rw [hb] at h; simp [pure, Except.pure] at h; subst h
        exact hs n m b (by omega) (ih (fun i a b hi => hs i a b (by omega)) hm) hb

theorem foldlM_range_ok {σ : Type} {f : σ → Nat → Except Err σ} {P : Nat → σ → Prop} {n : Nat} {s : σ}
    (h0 : P 0 s) (hs : ∀ i a, i < n → P i a → ∃ b, f a i = .ok b ∧ P (i + 1) b) :
    ∃ s', (List.range n).foldlM f s = .ok s' ∧ P n s' := by
  induction n with
  | zero => exact ⟨s, rfl, h0⟩
  | succ n ih =>
    obtain ⟨m, hm, hP⟩ := ih fun i a hi => hs i a (by omega)
    obtain ⟨b, hb, hP'⟩ := hs n m (by omega) hP
    refine ⟨b, ?_, hP'⟩
    rw [List.range_succ, List.foldlM_append, hm]
    simp [bind, Except.bind, hb, pure, Except.pure]

/-! ## Bits -/

theorem wires_congr {n : Nat} {f g : Nat → Bool} (h : ∀ j, j < n → f j = g j) : wires n f = wires n g := by
  unfold wires; exact List.countP_congr fun j hj => by rw [h j (List.mem_range.1 hj)]

theorem popcount_toggled (u v : BitVec w) : popcount (u ^^^ v) = toggled u v := by
  unfold popcount toggled wires; congr 1; funext j; simp

theorem toggled_not (u v : BitVec w) : toggled (~~~ u) v = w - toggled u v := by
  unfold toggled
  rw [← wires_not]
  refine wires_congr fun j hj => ?_
  rw [BitVec.getLsbD_not]; simp only [hj, decide_true, Bool.true_and]
  cases u.getLsbD j <;> cases v.getLsbD j <;> rfl

theorem toggled_le (u v : BitVec w) : toggled u v ≤ w := by
  unfold toggled wires; exact Nat.le_trans List.countP_le_length (by simp)

theorem popcount_level (v : BitVec w) : popcount v = wires w fun j => v.getLsbD j == true := by
  unfold popcount wires; congr 1; funext j; simp

theorem popcount_level' (v : BitVec w) : w - popcount v = wires w fun j => v.getLsbD j == false := by
  rw [popcount_level, ← wires_not]; refine wires_congr fun j _ => by simp

theorem level_not (v : BitVec w) (b : Bool) : (wires w fun j => (~~~ v).getLsbD j == b) = wires w fun j => v.getLsbD j == !b := by
  refine wires_congr fun j hj => ?_
  rw [BitVec.getLsbD_not]; simp only [hj, decide_true, Bool.true_and]; cases v.getLsbD j <;> cases b <;> rfl

theorem level_sum (v : BitVec w) : (wires w fun j => v.getLsbD j == true) + (wires w fun j => v.getLsbD j == false) = w := by
  rw [← popcount_level, ← popcount_level']
  have : popcount v ≤ w := popcount_le (Nat.le_refl _) fun j hj => BitVec.getLsbD_of_ge _ _ hj
  omega

/-! ## One decision -/

/-- State of a loop before index `i`: chunks that begin before `i` are decided. -/
structure DbiInv (p : DbiParams w) (t : Nat) (read : Bool) (data : List (BitVec w)) (n : Nat) (i : Nat) (s : DbiLoop w) : Prop where
  len : s.data.length = data.length
  flen : s.flags.length = n
  dat : ∀ j, j < data.length → s.data.getD j 0 = if j / p.sub * p.sub < i ∧ s.flags.getD (j / p.sub) false = true then ~~~ data.getD j 0 else data.getD j 0
  evs : s.events = (List.range ((i + p.sub - 1) / p.sub)).map fun c => p.event t read c (s.flags.getD c false)

theorem getD_mapIdx {α β : Type} (l : List α) (f : Nat → α → β) (j : Nat) (a : α) (b : β) (h : j < l.length) :
    (l.mapIdx f).getD j b = f j (l.getD j a) := by
  simp [List.getD_eq_getElem?_getD, h]

theorem ceil_keep {i sub : Nat} (hs : 0 < sub) (h : i % sub ≠ 0) : (i + 1 + sub - 1) / sub = (i + sub - 1) / sub := by
  have h0 : i ≠ 0 := by rintro rfl; simp at h
  have h1 : i + 1 + sub - 1 = i + sub := by omega
  have h2 : i + sub - 1 = (i - 1) + sub := by omega
  rw [h1, h2, Nat.add_div_right _ hs, Nat.add_div_right _ hs]
  congr 1
  obtain ⟨q, hq⟩ : ∃ q, i / sub = q := ⟨_, rfl⟩
  have e := Nat.div_add_mod i sub
  have hl := Nat.mod_lt i hs
  have : (i - 1) / sub = i / sub := by
    rw [Nat.div_eq_iff hs] <;> first | (rw [hq] at e ⊢; rw [Nat.mul_comm] at e; constructor <;> omega)
  exact this.symm

theorem ceil_step {i sub : Nat} (hs : 0 < sub) (h : i % sub = 0) : (i + sub - 1) / sub = i / sub ∧ (i + 1 + sub - 1) / sub = i / sub + 1 := by
  constructor
  · obtain ⟨k, rfl⟩ := Nat.dvd_of_mod_eq_zero h
    rw [Nat.mul_div_cancel_left _ hs, Nat.div_eq_iff hs]
    rw [Nat.mul_comm]; constructor <;> omega
  · rw [show i + 1 + sub - 1 = i + sub by omega, Nat.add_div_right _ hs]

namespace DbiInv

variable {p : DbiParams w} {t : Nat} {read : Bool} {data : List (BitVec w)} {n i : Nat} {s s' : DbiLoop w}

theorem init (hs : 0 < p.sub) {flags : List Bool} {a b : Nat} : DbiInv p t read data flags.length 0 { data, flags, a, b } where
  len := rfl
  flen := rfl
  dat := by intro j _; simp
  evs := by simp [Nat.div_eq_of_lt (show p.sub - 1 < p.sub by omega)]

theorem counters (h : DbiInv p t read data n i s) (a b : Nat) : DbiInv p t read data n i { s with a, b } :=
  ⟨h.len, h.flen, h.dat, h.evs⟩

theorem keep (hs : 0 < p.sub) (h : DbiInv p t read data n i s) (hi : i % p.sub ≠ 0) : DbiInv p t read data n (i + 1) s where
  len := h.len
  flen := h.flen
  dat := by
    intro j hj
    rw [h.dat j hj]
    have : (j / p.sub * p.sub < i + 1) ↔ (j / p.sub * p.sub < i) := by
      constructor
      · intro h1
        rcases Nat.lt_or_ge (j / p.sub * p.sub) i with h2 | h2
        · exact h2
        · exfalso; apply hi
          rw [show i = j / p.sub * p.sub by omega]; exact Nat.mul_mod_left _ _
      · omega
    simp only [this]
  evs := by rw [h.evs, ceil_keep hs hi]

theorem visit (hs : 0 < p.sub) (h : DbiInv p t read data n i s) (hi : i % p.sub = 0) {b : Bool}
    (hv : p.visit t read s b (i / p.sub) = .ok s') :
    DbiInv p t read data n (i + 1) s' ∧ s'.flags = s.flags.set (i / p.sub) b ∧ i / p.sub < n := by
  unfold DbiParams.visit at hv
  split at hv
  · exact absurd hv (by simp)
  split at hv
  · exact absurd hv (by simp)
  rename_i hn hlt
  obtain rfl := Except.ok.inj hv
  obtain ⟨c, hc⟩ : ∃ c, i / p.sub = c := ⟨_, rfl⟩
  have hic : i = c * p.sub := by have := Nat.div_add_mod i p.sub; rw [hc, hi, Nat.mul_comm] at this; omega
  rw [hc] at hlt ⊢
  have hflen := h.flen
  refine ⟨⟨?_, by simp [h.flen], ?_, ?_⟩, rfl, by omega⟩
  · cases b <;> simp [invertChunk, h.len]
  · intro j hj
    have hj' : j < s.data.length := by rw [h.len]; exact hj
    have hdat := h.dat j hj
    have hjlo : j / p.sub * p.sub ≤ j := Nat.div_mul_le_self _ _
    have hjhi : j < (j / p.sub + 1) * p.sub := by
      have := Nat.lt_div_mul_add (a := j) hs; rw [Nat.add_mul]; omega
    by_cases hjc : j / p.sub = c
    · have e1 : (s.flags.set c b).getD (j / p.sub) false = b := by
        rw [hjc]; simp [List.getD_eq_getElem?_getD, List.getElem?_set, show c < s.flags.length by omega]
      have e2 : ¬ (j / p.sub * p.sub < i) := by rw [hjc, hic]; omega
      have e3 : j / p.sub * p.sub < i + 1 := by rw [hjc, hic]; omega
      rw [if_neg (fun x => e2 x.1)] at hdat
      simp only [e1, e3, true_and]
      cases b
      · simpa using hdat
      · simp only [if_true, invertChunk]
        rw [getD_mapIdx _ _ _ 0 _ hj', if_pos ?_, hdat]
        rw [← hjc, Nat.add_mul] at *; omega
    · have e1 : (s.flags.set c b).getD (j / p.sub) false = s.flags.getD (j / p.sub) false := by
        simp [List.getD_eq_getElem?_getD, List.getElem?_set, Ne.symm hjc]
      have e2 : (j / p.sub * p.sub < i + 1) ↔ (j / p.sub * p.sub < i) := by
        rw [hic]
        constructor
        · intro h1
          rcases Nat.lt_trichotomy (j / p.sub) c with h2 | h2 | h2
          · exact Nat.mul_lt_mul_of_pos_right h2 hs
          · exact absurd h2 hjc
          · have := Nat.mul_le_mul_right p.sub (Nat.succ_le_of_lt h2)
            rw [Nat.succ_mul] at this; omega
        · omega
      simp only [e1, e2]
      rw [← hdat]
      cases b
      · rfl
      · simp only [if_true, invertChunk]
        rw [getD_mapIdx _ _ _ 0 _ hj', if_neg ?_]
        rintro ⟨h1, h2⟩
        apply hjc
        exact (Nat.div_eq_iff hs).2 (by rw [Nat.mul_comm] at *; omega)
  · obtain ⟨k1, k2⟩ := ceil_step hs hi
    rw [hc] at k1 k2
    show s.events ++ [p.event t read c b] = _
    rw [k2, h.evs, k1, List.range_succ, List.map_append]
    congr 1
    · refine List.map_congr_left fun x hx => ?_
      have : x < c := List.mem_range.1 hx
      congr 1
      simp [List.getD_eq_getElem?_getD, List.getElem?_set, show c ≠ x by omega]
    · simp [List.getD_eq_getElem?_getD, List.getElem?_set, show c < s.flags.length by omega]

end DbiInv

/-! ## The loops -/

theorem isLast_iff (p : DbiParams w) (i : Nat) : p.isLast i = true ↔ i % p.sub = 0 := by
  unfold DbiParams.isLast; simp

section loops

variable {p : DbiParams w} {t : Nat} {read : Bool} {data : List (BitVec w)} {n i : Nat} {s s' : DbiLoop w}

theorem staticStep_inv (hs : 0 < p.sub) (h : DbiInv p t read data n i s) (hv : p.staticStep t read s i = .ok s') :
    DbiInv p t read data n (i + 1) s' := by
  unfold DbiParams.staticStep at hv
  simp only at hv
  split at hv
  · rename_i hl
    exact (DbiInv.visit hs (h.counters 0 0) ((isLast_iff p i).1 hl) hv).1
  · rename_i hl
    obtain rfl := Except.ok.inj hv
    exact ((h.keep hs) (fun e => hl ((isLast_iff p i).2 e))).counters _ _

theorem dynamicStep_inv {th : Nat} {before : List (BitVec w)} (hs : 0 < p.sub) (h : DbiInv p t read data n i s)
    (hv : p.dynamicStep th before t read s i = .ok s') : DbiInv p t read data n (i + 1) s' := by
  unfold DbiParams.dynamicStep at hv
  simp only at hv
  split at hv
  · rename_i hl
    exact (DbiInv.visit hs (h.counters 0 s.b) ((isLast_iff p i).1 hl) hv).1
  · rename_i hl
    obtain rfl := Except.ok.inj hv
    exact ((h.keep hs) (fun e => hl ((isLast_iff p i).2 e))).counters _ s.b

/-- Without a previous burst nothing is inverted. -/
structure DbiPlain (p : DbiParams w) (t : Nat) (read : Bool) (data : List (BitVec w)) (n i : Nat) (s : DbiLoop w) : Prop where
  dat : s.data = data
  flen : s.flags.length = n
  flags : ∀ j, j < i → s.flags.getD (j / p.sub) false = false
  evs : s.events = (List.range i).map fun j => p.event t read (j / p.sub) false

theorem dynamicStep'_inv (h : DbiPlain p t read data n i s) (hv : p.dynamicStep' t read s i = .ok s') :
    DbiPlain p t read data n (i + 1) s' := by
  unfold DbiParams.dynamicStep' DbiParams.visit at hv
  split at hv
  · exact absurd hv (by simp)
  split at hv
  · exact absurd hv (by simp)
  rename_i hlt
  obtain rfl := Except.ok.inj hv
  refine ⟨h.dat, by simp [h.flen], ?_, ?_⟩
  · intro j hj
    show (s.flags.set (i / p.sub) false).getD (j / p.sub) false = false
    by_cases e : j / p.sub = i / p.sub
    · rw [e]; simp [List.getD_eq_getElem?_getD, show i / p.sub < s.flags.length by omega]
    · have hji : j < i := by
        rcases Nat.lt_or_ge j i with h1 | h1
        · exact h1
        · rw [show j = i by omega] at e; exact absurd rfl e
      have := h.flags j hji
      simp only [List.getD_eq_getElem?_getD] at this ⊢
      rw [List.getElem?_set_ne (Ne.symm e)]; exact this
  · show s.events ++ _ = _
    rw [h.evs, List.range_succ, List.map_append]; rfl

/-- The loop body is one that decides chunk `i / sub` at its first word. -/
theorem compute_inv (hs : 0 < p.sub) {before : Option (List (BitVec w))} {flags : List Bool}
    (hp : p.algo = .static ∨ before ≠ none) (h : p.compute before t read { data, flags } = .ok s') :
    DbiInv p t read data flags.length data.length s' := by
  unfold DbiParams.compute at h
  split at h
  · exact foldlM_range_inv (DbiInv.init hs) (fun i a b _ h hv => staticStep_inv hs h hv) h
  · exact foldlM_range_inv (DbiInv.init hs) (fun i a b _ h hv => dynamicStep_inv hs h hv) h
  · rename_i hal
    rcases hp with hp | hp
    · rw [hp] at hal; cases hal
    · exact absurd rfl hp

theorem compute_plain {th : Nat} {flags : List Bool} (hp : p.algo = .dynamic th)
    (h : p.compute none t read { data, flags } = .ok s') : DbiPlain p t read data flags.length data.length s' := by
  unfold DbiParams.compute at h
  rw [hp] at h
  exact foldlM_range_inv (P := DbiPlain p t read data flags.length) ⟨rfl, rfl, by intro j hj; omega, rfl⟩
    (fun i a b _ h hv => dynamicStep'_inv h hv) h

theorem DbiInv.received (hs : 0 < p.sub) (h : DbiInv p t read data n data.length s) :
    received p.sub (fun c => s.flags.getD c false) s.data = data := by
  refine List.ext_getElem (by simp [Spec.received, h.len]) fun j h1 h2 => ?_
  have hd := h.dat j h2
  have hlo : j / p.sub * p.sub < data.length := Nat.lt_of_le_of_lt (Nat.div_mul_le_self _ _) h2
  simp only [hlo, true_and] at hd
  have e1 : s.data[j]'(by rw [h.len]; exact h2) = s.data.getD j 0 := by
    simp [List.getD_eq_getElem?_getD, h.len, h2]
  have e2 : data[j] = data.getD j 0 := by simp [List.getD_eq_getElem?_getD, h2]
  simp only [Spec.received, List.getElem_mapIdx]
  rw [e1, hd, e2]
  by_cases hf : s.flags.getD (j / p.sub) false = true
  · simp only [hf, if_true, BitVec.not_not]
  · simp only [hf, if_false, Bool.false_eq_true]

theorem DbiPlain.received (h : DbiPlain p t read data n data.length s) :
    received p.sub (fun c => s.flags.getD c false) s.data = data := by
  have hd := h.dat
  refine List.ext_getElem (by simp [Spec.received, hd]) fun j h1 h2 => ?_
  simp only [Spec.received, List.getElem_mapIdx, h.flags j h2, hd]; simp

theorem compute_received (hs : 0 < p.sub) {before : Option (List (BitVec w))} {flags : List Bool}
    (h : p.compute before t read { data, flags } = .ok s') :
    s'.data.length = data.length ∧ s'.flags.length = flags.length ∧ received p.sub (fun c => s'.flags.getD c false) s'.data = data := by
  rcases (show (p.algo = .static ∨ before ≠ none) ∨ (∃ th, p.algo = .dynamic th) ∧ before = none by
    cases hb : before <;> cases ha : p.algo <;> simp) with hp | ⟨⟨th, hp⟩, rfl⟩
  · have := compute_inv hs hp h
    exact ⟨this.len, this.flen, this.received hs⟩
  · have := compute_plain hp h
    exact ⟨by rw [this.dat], this.flen, this.received⟩

end loops

/-! ## A whole burst -/

@[simp] theorem Dbi.last_setLast (d : Dbi w) (read : Bool) (l : LastBurst w) : (d.setLast read l).last read = l := by
  cases read <;> simp [Dbi.last, Dbi.setLast]

theorem Dbi.last_setLast_ne (d : Dbi w) (read : Bool) (l : LastBurst w) : (d.setLast read l).last (!read) = d.last (!read) := by
  cases read <;> simp [Dbi.last, Dbi.setLast]

/-- `lastInvert` as the loop sees it. -/
def LastBurst.fit (p : DbiParams w) (l : LastBurst w) (n : Nat) : LastBurst w :=
  if l.capacity < n then
    { l with inversions := l.inversions.take n ++ List.replicate (n - l.inversions.length) false, capacity := max n (p.grow l.inversions.length n) }
  else l

/-- `LastBurst_t::update` and the new flags. -/
def LastBurst.done (p : DbiParams w) (l : LastBurst w) (t nBits : Nat) (flags : List Bool) : LastBurst w :=
  { l with inversions := flags, start := t, stop := (match p.width with | some width => t + nBits / width | none => t + p.burstLength)
           nChunks := nBits / p.chunkSize, init := true }

/-- What a burst that inverts does. -/
structure DbiBurst (p : DbiParams w) (d : Dbi w) (t nBits : Nat) (data : List (BitVec w)) (read : Bool) (d' : Dbi w)
    (out : List (BitVec w)) (ev : List DbiEvent) where
  d1 : Dbi w
  resets : List DbiEvent
  before : Option (List (BitVec w))
  s : DbiLoop w
  enabled : d.enable = true
  nonzero : nBits ≠ 0
  idle : p.idle ≠ .Z
  reset : d.reset p t read = .ok (d1, resets)
  words : nBits % w = 0
  enough : nBits / w ≤ data.length
  prev : p.previous (p.saveLast (d1.last read) d1.inverted t) (data.take (nBits / w)) t = .ok before
  chunks : nBits % p.chunkSize = 0
  comp : p.compute before t read { data := data.take (nBits / w), flags := ((p.saveLast (d1.last read) d1.inverted t).fit p (nBits / p.chunkSize)).inversions } = .ok s
  hd' : d' = { d1.setLast read (((p.saveLast (d1.last read) d1.inverted t).fit p (nBits / p.chunkSize)).done p t nBits s.flags) with
                inverted := s.data, lastBurstRead := read }
  hout : out = s.data
  hev : ev = p.deliver (resets ++ s.events)

theorem Dbi.update_ok {p : DbiParams w} {d d' : Dbi w} {t nBits : Nat} {data out : List (BitVec w)} {read : Bool} {ev : List DbiEvent}
    (h : d.update p t nBits (some data) read = .ok (d', some out, ev)) : Nonempty (DbiBurst p d t nBits data read d' out ev) := by
  unfold Dbi.update at h
  simp only at h
  split at h
  · simp at h
  rename_i hc
  simp only [not_or] at hc
  cases hr : d.reset p t read with
  | error e => rw [hr] at h; simp [bind, Except.bind] at h
  | ok x =>
    obtain ⟨d1, resets⟩ := x
    rw [hr] at h
    simp only [bind, Except.bind] at h
    split at h
    · simp at h
    rename_i hw
    split at h
    · simp at h
    rename_i hl
    cases hb : p.previous (p.saveLast (d1.last read) d1.inverted t) (data.take (nBits / w)) t with
    | error e => rw [hb] at h; simp at h
    | ok before =>
      rw [hb] at h
      simp only at h
      split at h
      · simp at h
      rename_i hch
      cases hs : p.compute before t read { data := data.take (nBits / w), flags := ((p.saveLast (d1.last read) d1.inverted t).fit p (nBits / p.chunkSize)).inversions } with
      | error e =>
        simp only [LastBurst.fit] at hs
        rw [hs] at h; simp at h
      | ok s =>
        have hs' := hs
        simp only [LastBurst.fit] at hs'
        rw [hs'] at h
        simp only [pure, Except.pure, Except.ok.injEq, Prod.mk.injEq, Option.some.injEq] at h
        exact ⟨{ d1 := d1, resets := resets, before := before, s := s, enabled := by simpa using hc.2.1, nonzero := hc.1, idle := hc.2.2
                 reset := hr, words := by simpa using hw, enough := by omega, prev := hb, chunks := by simpa using hch, comp := hs
                 hd' := h.1.symm, hout := h.2.1.symm, hev := h.2.2.symm }⟩

theorem Dbi.update_eq {p : DbiParams w} {d d' : Dbi w} {t nBits : Nat} {data out : List (BitVec w)} {read : Bool} {ev : List DbiEvent}
    (b : DbiBurst p d t nBits data read d' out ev) : d.update p t nBits (some data) read = .ok (d', some out, ev) := by
  unfold Dbi.update
  have hc := b.comp
  simp only [LastBurst.fit] at hc
  simp only
  rw [if_neg (by simp [b.enabled, b.nonzero, b.idle]), b.reset]
  simp only [bind, Except.bind]
  rw [if_neg (by simp [b.words]), if_neg (by have := b.enough; omega), b.prev]
  simp only
  rw [if_neg (by simp [b.chunks]), hc]
  simp only [pure, Except.pure]
  have e1 := b.hd'
  have e2 := b.hout
  have e3 := b.hev
  simp only [LastBurst.fit, LastBurst.done] at e1
  rw [Except.ok.injEq, Prod.mk.injEq, Prod.mk.injEq]
  exact ⟨e1.symm, congrArg some e2.symm, e3.symm⟩

theorem DbiBurst.done_last {p : DbiParams w} {d d' : Dbi w} {t nBits : Nat} {data out : List (BitVec w)} {read : Bool} {ev : List DbiEvent}
    (b : DbiBurst p d t nBits data read d' out ev) :
    d'.last read = ((p.saveLast (b.d1.last read) b.d1.inverted t).fit p (nBits / p.chunkSize)).done p t nBits b.s.flags := by
  have e := congrArg (fun x : Dbi w => x.last read) b.hd'
  cases read <;> exact e

end DRAMPower

namespace DRAMPower
open Spec

variable {w : Nat}

/-! ## Acceptance -/

section accept

variable {p : DbiParams w} {t : Nat} {read : Bool} {s : DbiLoop w} {m : Nat}

theorem visit_ok (hp : p.chunksPerWidth ≠ some 0) {c : Nat} {b : Bool} (hc : c < s.flags.length) :
    ∃ s', p.visit t read s b c = .ok s' ∧ s'.flags.length = s.flags.length := by
  unfold DbiParams.visit
  rw [if_neg hp, if_neg (by omega)]
  exact ⟨_, rfl, by simp⟩

theorem compute_ok (hp : p.chunksPerWidth ≠ some 0) {before : Option (List (BitVec w))} {data : List (BitVec w)} {flags : List Bool}
    (hl : ∀ i, i < data.length → i / p.sub < flags.length) : ∃ s', p.compute before t read { data, flags } = .ok s' := by
  unfold DbiParams.compute
  split
  · obtain ⟨s', h, -⟩ := foldlM_range_ok (f := p.staticStep t read) (P := fun _ s => s.flags.length = flags.length)
      (n := data.length) (s := { data, flags }) rfl (by
        intro i a hi ha
        unfold DbiParams.staticStep; simp only
        split
        · obtain ⟨b, h1, h2⟩ := visit_ok (t := t) (read := read) (s := { a with a := 0, b := 0 }) hp (c := i / p.sub) (by rw [ha]; exact hl i hi)
          exact ⟨b, h1, by rw [h2]; exact ha⟩
        · exact ⟨_, rfl, ha⟩)
    exact ⟨s', h⟩
  · rename_i th before _
    obtain ⟨s', h, -⟩ := foldlM_range_ok (f := p.dynamicStep th before t read) (P := fun _ s => s.flags.length = flags.length)
      (n := data.length) (s := { data, flags }) rfl (by
        intro i a hi ha
        unfold DbiParams.dynamicStep; simp only
        split
        · obtain ⟨b, h1, h2⟩ := visit_ok (t := t) (read := read) (s := { a with a := 0 }) hp (c := i / p.sub) (by rw [ha]; exact hl i hi)
          exact ⟨b, h1, by rw [h2]; exact ha⟩
        · exact ⟨_, rfl, ha⟩)
    exact ⟨s', h⟩
  · obtain ⟨s', h, -⟩ := foldlM_range_ok (f := p.dynamicStep' t read) (P := fun _ s => s.flags.length = flags.length)
      (n := data.length) (s := { data, flags }) rfl (by
        intro i a hi ha
        obtain ⟨b, h1, h2⟩ := visit_ok (t := t) (read := read) (s := a) (b := false) hp (c := i / p.sub) (by rw [ha]; exact hl i hi)
        exact ⟨b, h1, by rw [h2]; exact ha⟩)
    exact ⟨s', h⟩

/-- The recorded burst has at least a beat, and the flags vector holds `n` chunks or was never used. -/
def LastBurst.Holds (p : DbiParams w) (l : LastBurst w) (n : Nat) : Prop :=
  (l.init = false ∧ l.capacity = 0) ∨ (p.short l = false ∧ l.nChunks ≤ l.inversions.length ∧ n ≤ l.inversions.length)

theorem reset_ok {d : Dbi w} {n : Nat} (h : (d.last read).Holds p n) :
    ∃ d1 ev, d.reset p t read = .ok (d1, ev) ∧ (d1.last read).Holds p n ∧ d1.last (!read) = d.last (!read) ∧ d1.inverted = d.inverted ∧
      d1.enable = d.enable := by
  unfold Dbi.reset
  have hsh : p.short (d.last read) = false := by
    rcases h with h | h
    · unfold DbiParams.short; cases p.chunksPerWidth <;> simp [h.1]
    · exact h.1
  simp only
  rw [if_neg (by simp [hsh])]
  split
  · exact ⟨_, _, rfl, h, rfl, rfl, rfl⟩
  rename_i hin
  split
  · exact ⟨_, _, rfl, h, rfl, rfl, rfl⟩
  split
  · exact ⟨_, _, rfl, h, rfl, rfl, rfl⟩
  rcases h with h | ⟨h1, h2, h3⟩
  · exact absurd h.1 hin
  rw [if_neg (by omega)]
  refine ⟨_, _, rfl, ?_, Dbi.last_setLast_ne _ _ _, ?_, ?_⟩
  · rw [Dbi.last_setLast]
    refine Or.inr ⟨h1, ?_, ?_⟩ <;>
    · simp only [List.length_append, List.length_take, List.length_replicate, List.length_drop]
      have : p.resetCount (d.last read) ≤ (d.last read).nChunks := by
        unfold DbiParams.resetCount
        unfold DbiParams.short at hsh
        cases hc : p.chunksPerWidth with
        | none => exact Nat.le_refl _
        | some m =>
          rw [hc] at hsh
          have : (d.last read).init = true := by simpa using hin
          simp [this] at hsh; exact hsh
      omega
  · cases read <;> rfl
  · cases read <;> rfl

theorem saveLast_fields (l : LastBurst w) (inv : List (BitVec w)) :
    (p.saveLast l inv t).init = l.init ∧ (p.saveLast l inv t).capacity = l.capacity ∧ (p.saveLast l inv t).inversions = l.inversions ∧
    (p.saveLast l inv t).nChunks = l.nChunks ∧ (p.saveLast l inv t).start = l.start ∧ (p.saveLast l inv t).stop = l.stop := by
  unfold DbiParams.saveLast; split <;> simp

theorem fit_length {l : LastBurst w} {n : Nat} (h : l.Holds p n) (hn : 0 < n) : n ≤ (l.fit p n).inversions.length := by
  unfold LastBurst.fit
  split
  · simp; omega
  · rcases h with h | h
    · omega
    · exact h.2.2

end accept

end DRAMPower
