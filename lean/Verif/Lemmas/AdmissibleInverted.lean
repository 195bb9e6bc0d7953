import Verif.Lemmas.Admissible
import Verif.Lemmas.InversionPins
import Verif.Props.C23
import Verif.Spec.Inverting

/-!
# Lemmas: the inversion accepts what it can follow
-/

namespace DRAMPower
open Spec

/-! ## One pin -/

/-- A pin that has got at most `k` levels for beat `t`, and none for a later one. -/
def PinAt {P : Nat} (q : Pin P) (t k : Nat) : Prop := q.storage.loadTime = q.lastSet ∧ q.lastSet ≤ t ∧ (q.lastSet = t → q.storage.count ≤ k)

theorem PinAt.later {P : Nat} {q : Pin P} {t k t' : Nat} (h : PinAt q t k) (ht : t < t') : PinAt q t' 0 :=
  ⟨h.1, by have := h.2.1; omega, fun e => by have := h.2.1; omega⟩

theorem storage_stats_ok {P : Nat} (d : BitsetContainer P) {start stop : Nat} (h : d.loadTime = start) : ∃ s, d.stats start stop = .ok s := by
  unfold BitsetContainer.stats
  rw [if_neg (by omega)]
  dsimp only
  rw [if_neg (by
    rw [h, Nat.sub_self, Nat.add_zero]
    split <;> omega)]
  exact ⟨_, rfl⟩

theorem pin_count_ok {P : Nat} {q : Pin P} (h : q.storage.loadTime = q.lastSet) (stop : Nat) (st : PinState) (s : BusStats) :
    ∃ s', q.count stop q.lastSet st s = .ok s' := by
  unfold Pin.count
  split
  · exact ⟨_, rfl⟩
  split
  · rename_i he
    obtain ⟨c, hc⟩ := storage_stats_ok q.storage (stop := stop) h
    rw [bind_of_ok hc]
    dsimp only
    split
    · have hl : ∃ b, q.storage.last = .ok b := by
        unfold BitsetContainer.last
        rw [if_neg (by unfold BitsetContainer.endTime at he; omega)]
        exact ⟨_, rfl⟩
      obtain ⟨b, hb⟩ := hl
      rw [bind_of_ok hb]
      exact ⟨_, rfl⟩
    · exact ⟨_, rfl⟩
  · exact ⟨_, rfl⟩

theorem pin_set_ok {P : Nat} {q : Pin P} {t k : Nat} (h : PinAt q t k) (hk : k + 1 ≤ P) (st : PinState) :
    ∃ q', q.set t st 1 = .ok q' ∧ PinAt q' t (k + 1) ∧ q'.lastSet = t := by
  obtain ⟨h1, h2, h3⟩ := h
  have hint : ∃ s, q.setInternal t 1 q.stats = .ok s := by
    unfold Pin.setInternal
    dsimp only
    rw [Nat.mul_one, if_neg (by omega)]
    exact pin_count_ok h1 _ _ _
  obtain ⟨s, hs⟩ := hint
  have hpush : ∃ d, q.storage.pushBack t (st == .H) = .ok d ∧ d.loadTime = t ∧ d.count ≤ k + 1 := by
    unfold BitsetContainer.pushBack
    dsimp only
    by_cases e : t ≠ q.storage.loadTime
    · rw [if_pos e, if_neg (by dsimp only; omega)]
      exact ⟨_, rfl, rfl, by dsimp only; omega⟩
    · have := h3 (by omega)
      rw [if_neg e, if_neg (by omega)]
      exact ⟨_, rfl, by dsimp only; omega, by dsimp only; omega⟩
  obtain ⟨d, hd, hd1, hd2⟩ := hpush
  have key : ∃ q', q.set t st 1 = .ok q' ∧ q'.storage = d ∧ q'.lastSet = t := by
    unfold Pin.set
    dsimp only
    rw [Nat.mul_one, bind_of_ok hs]
    split <;> split <;> (dsimp only; rw [bind_of_ok hd]; exact ⟨_, rfl, rfl, rfl⟩)
  obtain ⟨q', e1, e2, e3⟩ := key
  exact ⟨q', e1, ⟨by rw [e2, e3]; exact hd1, by omega, fun _ => by rw [e2]; exact hd2⟩, e3⟩

theorem pin_burst_ok {P : Nat} {t : Nat} : ∀ {bits : List PinState} {q : Pin P} {k : Nat}, PinAt q t k → k + bits.length ≤ P →
    ∃ q', q.burst t bits = .ok q' ∧ PinAt q' t (k + bits.length) ∧ (bits ≠ [] → q'.lastSet = t)
  | [], q, k, h, _ => ⟨q, rfl, h, fun e => absurd rfl e⟩
  | b :: bits, q, k, h, hk => by
    rw [List.length_cons] at hk
    obtain ⟨q1, e1, h1, l1⟩ := pin_set_ok h (by omega) b
    obtain ⟨q2, e2, h2, l2⟩ := pin_burst_ok (bits := bits) h1 (by omega)
    refine ⟨q2, ?_, by rw [List.length_cons, show k + (bits.length + 1) = k + 1 + bits.length by omega]; exact h2, fun _ => ?_⟩
    · unfold Pin.burst at e2 ⊢
      rw [List.foldlM_cons, bind_of_ok e1]
      exact e2
    · cases bits with
      | nil => have := ok_inj e2; rw [← this]; exact l1
      | cons _ _ => exact l2 (by simp)

/-! ## The pins of an interface -/

section
variable {std : Std} {N : Nat} {sp : IfSpec}

/-- The events fit on the pins. -/
def Fits (i : Interface std N) (t : Nat) (es : List DbiEvent) : Prop :=
  (∀ e ∈ es, e.load = t ∧ e.idx < (i.pinsOf e.read).length) ∧
  ∀ r p q, (i.pinsOf r)[p]? = some q → eventBits std r p es = [] ∨ ∃ k, PinAt q t k ∧ k + (eventBits std r p es).length ≤ pinSize std

theorem pinChange_fits {i : Interface std N} {t : Nat} {e : DbiEvent} {es : List DbiEvent} (h : Fits i t (e :: es)) :
    ∃ i', i.pinChange e = .ok i' ∧ Fits i' t es := by
  obtain ⟨h1, h2⟩ := h
  obtain ⟨ht, hi⟩ := h1 e (by simp)
  have hq : (i.pinsOf e.read)[e.idx]? = some ((i.pinsOf e.read)[e.idx]) := List.getElem?_eq_getElem hi
  have hone : (eventBits std e.read e.idx [e]) = [Interface.pinLevel std e.inverted] := by
    unfold eventBits
    rw [List.filter_cons, if_pos (by simp)]
    rfl
  have hsplit : ∀ r p, eventBits std r p (e :: es) = eventBits std r p [e] ++ eventBits std r p es := fun r p => eventBits_append std r p [e] es
  have hset : ∃ q', ((i.pinsOf e.read)[e.idx]).set e.load (Interface.pinLevel std e.inverted) 1 = .ok q' := by
    rcases h2 _ _ _ hq with hn | ⟨k, hk1, hk2⟩
    · rw [hsplit, hone] at hn; simp at hn
    · rw [hsplit, hone, List.length_append, List.length_singleton] at hk2
      obtain ⟨q', e1, _⟩ := pin_set_ok hk1 (by omega) (Interface.pinLevel std e.inverted)
      exact ⟨q', by rw [ht]; exact e1⟩
  obtain ⟨q', hq'⟩ := hset
  have hok : ∃ i', i.pinChange e = .ok i' := by
    unfold Interface.pinChange
    have : (if e.read then i.pinsRead else i.pinsWrite)[e.idx]? = some ((i.pinsOf e.read)[e.idx]) := hq
    rw [this]
    dsimp only
    rw [bind_of_ok hq']
    split <;> exact ⟨_, rfl⟩
  obtain ⟨i', hi'⟩ := hok
  refine ⟨i', hi', fun x hx => ?_, fun r p q hp => ?_⟩
  · obtain ⟨a1, a2⟩ := h1 x (by simp [hx])
    exact ⟨a1, by rw [(pinChange_pins hi' x.read).1]; exact a2⟩
  · obtain ⟨b1, _, _, b2⟩ := pinChange_pins hi' r
    have hlt : p < (i.pinsOf r).length := by rw [← b1]; exact (List.getElem?_eq_some_iff.1 hp).1
    obtain ⟨q1, c1, c2⟩ := b2 p _ (List.getElem?_eq_getElem hlt)
    have hqq : q = q1 := Option.some.inj (hp.symm.trans c1)
    subst hqq
    rw [ht] at c2
    rcases h2 r p _ (List.getElem?_eq_getElem hlt) with hn | ⟨k, hk1, hk2⟩
    · rw [hsplit] at hn
      exact Or.inl (List.append_eq_nil_iff.1 hn).2
    · rw [hsplit, List.length_append] at hk2
      obtain ⟨q2, d1, d2, _⟩ := pin_burst_ok (bits := eventBits std r p [e]) hk1 (by omega)
      have : q = q2 := ok_inj (c2.symm.trans d1)
      subst this
      exact Or.inr ⟨_, d2, by omega⟩

theorem pinChanges_fits {t : Nat} : ∀ {es : List DbiEvent} {i : Interface std N}, Fits i t es → ∃ i', es.foldlM Interface.pinChange i = .ok i'
  | [], i, _ => ⟨i, rfl⟩
  | e :: es, i, h => by
    obtain ⟨i1, h1, h2⟩ := pinChange_fits h
    obtain ⟨i2, h3⟩ := pinChanges_fits h2
    exact ⟨i2, by rw [List.foldlM_cons, bind_of_ok h1]; exact h3⟩

/-! ## Both directions -/

/-- The inversion of a direction can follow: `sizes` are those of the payloads to come in this direction, `more` says whether any data is to
come. -/
structure PrimedDir (std : Std) (sp : IfSpec) (l : LastBurst 8) (pins : List (Pin (pinSize std))) (dq : Nat) (sizes : Nat → Prop) (more : Prop) : Prop where
  holds : ∀ n, n = 0 ∨ sizes n → l.Holds (sp.dbi std) (n / (sp.dbi std).chunkSize)
  pins : hasPins std = true → pins.length = bytesOf sp ∧ (l.init = true → ∃ k, l.nChunks = (k + 1) * bytesOf sp) ∧
    ((¬ more ∧ ∀ t, ResetFree sp l t) ∨ (l.init = true → l.stop ≤ dq) ∧ ∀ q ∈ pins, PinAt q dq 0 ∧ (l.init = true → q.lastSet < l.stop))

theorem PrimedDir.mono {l : LastBurst 8} {pins : List (Pin (pinSize std))} {dq dq' : Nat} {sizes sizes' : Nat → Prop} {more more' : Prop}
    (h : PrimedDir std sp l pins dq sizes more) (hdq : dq ≤ dq') (hs : ∀ n, sizes' n → sizes n) (hm : more' → more) :
    PrimedDir std sp l pins dq' sizes' more' := by
  refine ⟨fun n hn => h.holds n (hn.imp id (hs n)), fun hp => ?_⟩
  obtain ⟨a, b, c⟩ := h.pins hp
  refine ⟨a, b, ?_⟩
  rcases c with ⟨c1, c2⟩ | ⟨c1, c2⟩
  · exact Or.inl ⟨fun m => c1 (hm m), c2⟩
  · refine Or.inr ⟨fun e => Nat.le_trans (c1 e) hdq, fun q hq => ⟨?_, (c2 q hq).2⟩⟩
    rcases Nat.eq_or_lt_of_le hdq with e | e
    · subst e; exact (c2 q hq).1
    · exact (c2 q hq).1.later e

/-- Payloads of a direction. -/
def sizesOf (cs : List ICmd) (r : Bool) (n : Nat) : Prop := ∃ c ∈ cs, direction c.type = some r ∧ n = c.nBits

/-- Some data is to come. -/
def moreData (cs : List ICmd) : Prop := ∃ c ∈ cs, direction c.type ≠ none

/-- The inversion can follow the commands to come. -/
def Primed (sp : IfSpec) (i : Interface std N) (dq : Nat) (cs : List ICmd) : Prop :=
  ∀ r, PrimedDir std sp (i.dbi.last r) (i.pinsOf r) dq (sizesOf cs r) (moreData cs)

theorem Primed.tail {i : Interface std N} {dq dq' : Nat} {c : ICmd} {cs : List ICmd} (h : Primed sp i dq (c :: cs)) (hdq : dq ≤ dq') : Primed sp i dq' cs :=
  fun r => (h r).mono hdq (fun _ ⟨x, hx, hd⟩ => ⟨x, by simp [hx], hd⟩) (fun ⟨x, hx, hd⟩ => ⟨x, by simp [hx], hd⟩)

theorem Primed.same {i i' : Interface std N} {dq : Nat} {cs : List ICmd} (h : Primed sp i dq cs) (hl : ∀ r, i'.dbi.last r = i.dbi.last r)
    (hr : i'.pinsRead = i.pinsRead) (hw : i'.pinsWrite = i.pinsWrite) : Primed sp i' dq cs := by
  intro r
  have : i'.pinsOf r = i.pinsOf r := by cases r <;> assumption
  rw [hl, this]
  exact h r

theorem hasPins_ne {std : Std} (h : hasPins std = true) : std ≠ .lpddr6 ∧ std ≠ .ddr5 := by cases std <;> first | cases h; done | decide

theorem mem_pins {pins : List (Pin (pinSize std))} {p : Nat} {q : Pin (pinSize std)} (h : pins[p]? = some q) : q ∈ pins := by
  obtain ⟨h1, h2⟩ := List.getElem?_eq_some_iff.1 h
  rw [← h2]; exact List.getElem_mem h1

/-- The events of a reset: at most one for each pin, only after the burst, and nothing is left to reset. -/
theorem resets_fit (hp : hasPins std = true) {d d' : Dbi 8} {t : Nat} {read : Bool} {ev : List DbiEvent} (hb : 0 < bytesOf sp)
    (hk : (d.last read).init = true → ∃ k, (d.last read).nChunks = (k + 1) * bytesOf sp) (h : d.reset (sp.dbi std) t read = .ok (d', ev)) :
    (∀ e ∈ ev, e.load = t ∧ e.read = read ∧ e.idx < bytesOf sp) ∧ (∀ p < bytesOf sp, (eventBits std read p ev).length ≤ 1) ∧
    ((d' = d ∧ ev = []) ∨ (d.last read).init = true ∧ (d.last read).stop < t ∧ ∀ t', ResetFree sp (d'.last read) t') := by
  obtain ⟨_, _, r1, r2, r3, k⟩ := reset_track (hasPins_ne hp).1 h
  rcases k with ⟨e1, e2⟩ | ⟨k1, k2, k3, k4, k5⟩
  · subst e2
    exact ⟨fun e he => by simp at he, fun _ _ => Nat.zero_le _, Or.inl ⟨e1, rfl⟩⟩
  · obtain ⟨k, hk⟩ := hk k1
    have hrow : (d.last read).nChunks - bytesOf sp = k * bytesOf sp := by rw [hk, Nat.add_mul, Nat.one_mul, Nat.add_sub_cancel]
    refine ⟨fun e he => ?_, fun p hp' => ?_, Or.inr ⟨k1, k2, fun t' => Or.inr (Or.inr fun c c1 c2 => ?_)⟩⟩
    · rw [k4] at he
      obtain ⟨c, _, rfl⟩ := List.mem_map.1 he
      exact ⟨rfl, rfl, Nat.mod_lt _ hb⟩
    · rw [k4, hrow, reset_bits hp']
      split <;> simp
    · rw [r3] at c1 c2
      exact k5 c c1 c2

theorem pins_still {pins pins' : List (Pin (pinSize std))} {t : Nat} {f : Nat → List PinState} (hlen : pins'.length = pins.length) (hf : ∀ p, f p = [])
    (h : ∀ (p : Nat) (q : Pin (pinSize std)), pins[p]? = some q → ∃ q', pins'[p]? = some q' ∧ q.burst t (f p) = .ok q') : pins' = pins := by
  refine List.ext_getElem? fun p => ?_
  rcases Nat.lt_or_ge p pins.length with hlt | hge
  · obtain ⟨q', c1, c2⟩ := h p _ (List.getElem?_eq_getElem hlt)
    rw [hf] at c2
    have : q' = pins[p] := (ok_inj c2).symm
    rw [c1, this, List.getElem?_eq_getElem hlt]
  · rw [List.getElem?_eq_none (by omega), List.getElem?_eq_none hge]

/-- A reset at the end. -/
theorem PrimedDir.reset {d d' : Dbi 8} {r : Bool} {pins pins' : List (Pin (pinSize std))} {dq t : Nat} {S S' : Nat → Prop} {M M' : Prop} {ev : List DbiEvent}
    (h : PrimedDir std sp (d.last r) pins dq S M) (hp : hasPins std = true) (hb : 0 < bytesOf sp) (hr : d.reset (sp.dbi std) t r = .ok (d', ev))
    (hh : (d'.last r).Holds (sp.dbi std) 0) (hS : ∀ n, ¬ S' n) (hM : ¬ M') (hlen : pins'.length = pins.length)
    (hq : ∀ (p : Nat) (q : Pin (pinSize std)), pins[p]? = some q → ∃ q', pins'[p]? = some q' ∧ q.burst t (eventBits std r p ev) = .ok q') :
    PrimedDir std sp (d'.last r) pins' dq S' M' := by
  obtain ⟨a1, a2, a3⟩ := h.pins hp
  obtain ⟨_, _, e⟩ := resets_fit hp hb a2 hr
  refine ⟨fun n hn => ?_, fun _ => ?_⟩
  · rcases hn with hn | hn
    · rw [hn, Nat.zero_div]; exact hh
    · exact absurd hn (hS n)
  · obtain ⟨_, _, r1, r2, r3, _⟩ := reset_track (hasPins_ne hp).1 hr
    refine ⟨hlen.trans a1, fun e => by rw [r3]; exact a2 (r1 ▸ e), ?_⟩
    rcases e with ⟨e1, e2⟩ | ⟨_, _, e3⟩
    · subst e2
      rw [pins_still hlen (fun _ => rfl) hq, e1]
      rcases a3 with a3 | a3
      · exact Or.inl ⟨hM, a3.2⟩
      · exact Or.inr a3
    · exact Or.inl ⟨hM, e3⟩

/-- Resets fit. -/
theorem PrimedDir.fits {d d' : Dbi 8} {r : Bool} {pins : List (Pin (pinSize std))} {dq t : Nat} {S : Nat → Prop} {M : Prop} {ev : List DbiEvent}
    (h : PrimedDir std sp (d.last r) pins dq S M) (hp : hasPins std = true) (hb : 0 < bytesOf sp) (hr : d.reset (sp.dbi std) t r = .ok (d', ev))
    {p : Nat} {q : Pin (pinSize std)} (hq : pins[p]? = some q) :
    eventBits std r p ev = [] ∨ ∃ k, PinAt q t k ∧ k + (eventBits std r p ev).length ≤ pinSize std := by
  obtain ⟨a1, a2, a3⟩ := h.pins hp
  obtain ⟨_, b1, e⟩ := resets_fit hp hb a2 hr
  have hlt : p < bytesOf sp := by rw [← a1]; exact (List.getElem?_eq_some_iff.1 hq).1
  rcases a3 with ⟨_, a3⟩ | ⟨a3, a4⟩
  · left
    rw [reset_free (hasPins_ne hp).1 (a3 t) hr]
    rfl
  · rcases e with ⟨_, e⟩ | ⟨e1, e2, _⟩
    · left; rw [e]; rfl
    · right
      obtain ⟨c1, c2⟩ := a4 q (mem_pins hq)
      have := c2 e1
      refine ⟨0, ⟨c1.1, by omega, fun e => by omega⟩, ?_⟩
      have := b1 p hlt
      have : 1 ≤ pinSize std := by cases std <;> decide
      omega

theorem reset_lpddr6 {d : Dbi 8} {t : Nat} {r : Bool} : d.reset (sp.dbi .lpddr6) t r = .ok (d, []) := by
  have hs : (sp.dbi .lpddr6).short (d.last r) = false := by
    unfold DbiParams.short DbiParams.chunksPerWidth IfSpec.dbi
    rfl
  unfold Dbi.reset
  dsimp only
  rw [hs, if_neg (by simp)]
  split
  · rfl
  split
  · rfl
  · rw [if_pos (show (sp.dbi .lpddr6).callback = false from rfl)]

/-- The end of a simulation. -/
theorem Primed.finish {i : Interface std N} {dq : Nat} {cs cs' : List ICmd} (h : Primed sp i dq cs) (h5 : std ≠ .ddr5) (hb : hasPins std = true → 0 < bytesOf sp)
    (hno : ¬ moreData cs') (t : Nat) :
    ∃ d pr pw, i.endOfSimulation sp t = .ok { i with dbi := d, pinsRead := pr, pinsWrite := pw } ∧ Primed sp { i with dbi := d, pinsRead := pr, pinsWrite := pw } dq cs' := by
  have hsz : ∀ r n, ¬ sizesOf cs' r n := fun r n ⟨c, hc, hd, _⟩ => hno ⟨c, hc, by rw [hd]; simp⟩
  unfold Interface.endOfSimulation Dbi.resetBoth
  cases hp : hasPins std with
  | false =>
    have h6 : std = .lpddr6 := by
      cases std
      · cases hp
      · exact absurd rfl h5
      · cases hp
      · cases hp
      · rfl
    subst h6
    rw [reset_lpddr6]
    simp only [bind, Except.bind]
    rw [reset_lpddr6]
    refine ⟨i.dbi, i.pinsRead, i.pinsWrite, rfl, fun r => ?_⟩
    exact (h r).mono (Nat.le_refl _) (fun n hn => absurd hn (hsz r n)) (fun m => absurd m hno)
  | true =>
    have hb := hb hp
    obtain ⟨d1, ev1, e1, k1, l1, _, _⟩ := reset_ok (t := t) (read := true) (d := i.dbi) ((h true).holds 0 (Or.inl rfl))
    have h1 : (d1.last false).Holds (sp.dbi std) (0 / (sp.dbi std).chunkSize) := by
      have : d1.last false = i.dbi.last false := l1
      rw [this]; exact (h false).holds 0 (Or.inl rfl)
    obtain ⟨d2, ev2, e2, k2, l2, _, _⟩ := reset_ok (t := t) (read := false) (d := d1) h1
    rw [Nat.zero_div] at k1 k2
    have hd1 : PrimedDir std sp (d1.last false) (i.pinsOf false) dq (sizesOf cs false) (moreData cs) := by
      have : d1.last false = i.dbi.last false := l1
      rw [this]; exact h false
    obtain ⟨a1, _, _⟩ := resets_fit hp hb ((h true).pins hp).2.1 e1
    obtain ⟨a2, _, _⟩ := resets_fit hp hb (hd1.pins hp).2.1 e2
    have bits : ∀ p, eventBits std true p (ev1 ++ ev2) = eventBits std true p ev1 ∧ eventBits std false p (ev1 ++ ev2) = eventBits std false p ev2 := by
      intro p
      have z1 : eventBits std (!true) p ev1 = [] := eventBits_other (fun e he => (a1 e he).2.1) p
      have z2 : eventBits std (!false) p ev2 = [] := eventBits_other (fun e he => (a2 e he).2.1) p
      rw [eventBits_append, eventBits_append]
      rw [Bool.not_true] at z1
      rw [Bool.not_false] at z2
      rw [z1, z2, List.append_nil, List.nil_append]
      exact ⟨rfl, rfl⟩
    have fit : Fits ({ i with dbi := d2 } : Interface std N) t (ev1 ++ ev2) := by
      refine ⟨fun e he => ?_, fun r p q hq => ?_⟩
      · rcases List.mem_append.1 he with he | he
        · obtain ⟨x1, x2, x3⟩ := a1 e he
          exact ⟨x1, by rw [x2]; exact Nat.lt_of_lt_of_eq x3 ((h true).pins hp).1.symm⟩
        · obtain ⟨x1, x2, x3⟩ := a2 e he
          exact ⟨x1, by rw [x2]; exact Nat.lt_of_lt_of_eq x3 ((h false).pins hp).1.symm⟩
      · cases r with
        | true => rw [(bits p).1]; exact (h true).fits hp hb e1 hq
        | false => rw [(bits p).2]; exact hd1.fits hp hb e2 hq
    obtain ⟨i', hi'⟩ := pinChanges_fits fit
    obtain ⟨pr, pw, e', _, _⟩ := pinChanges_ok hi'
    refine ⟨d2, pr, pw, ?_, ?_⟩
    · rw [e1]
      simp only [bind, Except.bind]
      rw [e2]
      simp only [pure, Except.pure]
      rw [hi', e']
    · have load : ∀ e ∈ ev1 ++ ev2, e.load = t := fun e he => (fit.1 e he).1
      intro r
      obtain ⟨b1, b2, _, b3⟩ := pinChanges_pins r load hi'
      rw [e'] at b1 b3
      cases r with
      | true =>
        have : d2.last true = d1.last true := l2
        show PrimedDir std sp (d2.last true) _ dq _ _
        rw [this]
        exact (h true).reset hp hb e1 k1 (hsz true) hno b1 (fun p q hq => by
          obtain ⟨q', c1, c2⟩ := b3 p q hq
          exact ⟨q', c1, by rw [(bits p).1] at c2; exact c2⟩)
      | false =>
        exact hd1.reset hp hb e2 k2 (hsz false) hno b1 (fun p q hq => by
          obtain ⟨q', c1, c2⟩ := b3 p q hq
          exact ⟨q', c1, by rw [(bits p).2] at c2; exact c2⟩)

theorem LastBurst.Holds.mono {p : DbiParams 8} {l : LastBurst 8} {m n : Nat} (h : l.Holds p m) (hn : n ≤ m) : l.Holds p n :=
  h.imp id fun ⟨a, b, c⟩ => ⟨a, b, Nat.le_trans hn c⟩

/-- What a burst needs and leaves, for standards with pins. -/
theorem PrimedDir.burst {d d' : Dbi 8} {r : Bool} {pins pins' : List (Pin (pinSize std))} {dq t B nBits : Nat} {S S' : Nat → Prop} {M M' : Prop}
    {data : List UInt8} {out : List (BitVec 8)} {ev : List DbiEvent} (hp : hasPins std = true) (hb : 0 < bytesOf sp) (hM : M) (hdq : dq ≤ t)
    (hB : 0 < B) (hroom : B < pinSize std) (hn : nBits / 8 = B * bytesOf sp) (hstop : nBits / (sp.devices * sp.bitWidth) = B)
    (h : PrimedDir std sp (d.last r) pins dq S M)
    (hu : d.update (sp.dbi std) t nBits (some (Interface.toWords data)) r = .ok (d', some out, ev)) :
    (∀ e ∈ ev, e.load = t ∧ e.read = r ∧ e.idx < bytesOf sp) ∧
    (∀ (p : Nat) (q : Pin (pinSize std)), pins[p]? = some q → ∃ k, PinAt q t k ∧ k + (eventBits std r p ev).length ≤ pinSize std) ∧
    ((∀ n, n = 0 ∨ S' n → (d'.last r).Holds (sp.dbi std) (n / (sp.dbi std).chunkSize)) → pins'.length = pins.length →
      (∀ (p : Nat) (q : Pin (pinSize std)), pins[p]? = some q → ∃ q', pins'[p]? = some q' ∧ q.burst t (eventBits std r p ev) = .ok q') →
      PrimedDir std sp (d'.last r) pins' (t + B) S' M') := by
  obtain ⟨a1, a2, a3⟩ := h.pins hp
  have a3 : (d.last r).init = true → (d.last r).stop ≤ dq := by
    rcases a3 with ⟨a3, _⟩ | ⟨a3, _⟩
    · exact absurd hM a3
    · exact a3
  have a4 : ∀ q ∈ pins, PinAt q t 0 := by
    rcases (h.pins hp).2.2 with ⟨x, _⟩ | ⟨_, x⟩
    · exact absurd hM x
    · intro q hq
      rcases Nat.eq_or_lt_of_le hdq with e | e
      · subst e; exact (x q hq).1
      · exact (x q hq).1.later e
  have h6 := (hasPins_ne hp).1
  obtain ⟨hcs, hcw, hcb, hwd⟩ := dbi_chunks (std := std) (sp := sp) h6
  obtain ⟨b⟩ := Dbi.update_ok hu
  have hsub : (sp.dbi std).sub = 1 := if_neg h6
  have hlen : ((Interface.toWords data).take (nBits / 8)).length = nBits / 8 := by rw [List.length_take, Nat.min_eq_left b.enough]
  have hinv := compute_inv (by omega) (Or.inl rfl) b.comp
  obtain ⟨r1, r2, _⟩ := resets_fit hp hb a2 b.reset
  have hev := b.hev
  unfold DbiParams.deliver at hev
  rw [hcb, if_pos rfl] at hev
  have hevs := hinv.evs
  rw [hlen, hsub, Nat.add_sub_cancel, Nat.div_one, hn] at hevs
  have hmap : b.s.events.map (fun e => (e.load, e.idx, e.inverted, e.read))
      = (List.range (B * bytesOf sp)).map (fun c => (t, c % bytesOf sp, b.s.flags.getD c false, r)) := by
    rw [hevs, List.map_map]
    refine List.map_congr_left fun c _ => ?_
    simp only [Function.comp_apply, DbiParams.event, hcw]
  have hbits : ∀ p < bytesOf sp, (eventBits std r p ev).length ≤ B + 1 ∧ eventBits std r p ev ≠ [] := by
    intro p hp'
    have h1 := burst_bits (std := std) hp' hmap
    have h2 := r2 p hp'
    rw [hev, eventBits_append, List.length_append, h1, List.length_map, List.length_range]
    refine ⟨by omega, fun e => ?_⟩
    have := congrArg List.length (List.append_eq_nil_iff.1 e).2
    rw [List.length_map, List.length_range, List.length_nil] at this
    omega
  have hlast := b.done_last
  refine ⟨fun e he => ?_, fun p q hq => ?_, fun hh hl hq => ⟨hh, fun _ => ⟨hl.trans a1, fun _ => ⟨B - 1, ?_⟩, Or.inr ⟨fun _ => ?_, fun q' hq' => ?_⟩⟩⟩⟩
  · rw [hev] at he
    rcases List.mem_append.1 he with he | he
    · exact r1 e he
    · rw [hevs] at he
      obtain ⟨c, _, rfl⟩ := List.mem_map.1 he
      simp only [DbiParams.event, hcw]
      exact ⟨trivial, trivial, Nat.mod_lt _ hb⟩
  · have hlt : p < bytesOf sp := by rw [← a1]; exact (List.getElem?_eq_some_iff.1 hq).1
    have := (hbits p hlt).1
    exact ⟨0, a4 q (mem_pins hq), by omega⟩
  · rw [hlast]
    show nBits / (sp.dbi std).chunkSize = _
    rw [hcs, hn, Nat.sub_add_cancel hB]
  · rw [hlast]
    simp only [LastBurst.done, hwd, hstop]
    exact Nat.le_refl _
  · obtain ⟨p, hp', hpq⟩ := List.getElem_of_mem hq'
    have hlt : p < pins.length := by omega
    obtain ⟨q1, c1, c2⟩ := hq p _ (List.getElem?_eq_getElem hlt)
    have e1 : q1 = q' := by
      rw [List.getElem?_eq_getElem hp', hpq] at c1
      exact (Option.some.inj c1).symm
    subst e1
    obtain ⟨g1, g2⟩ := hbits p (by omega)
    obtain ⟨q2, d1, d2, d3⟩ := pin_burst_ok (bits := eventBits std r p ev) (a4 _ (List.getElem_mem hlt)) (by omega)
    have : q1 = q2 := ok_inj (c2.symm.trans d1)
    subst this
    refine ⟨d2.later (by omega), fun _ => ?_⟩
    rw [hlast]
    simp only [LastBurst.done, hwd, hstop]
    have := d3 g2
    omega

/-- A data command. -/
theorem Primed.data {i : Interface std N} {dq : Nat} {c : ICmd} {cs : List ICmd} {read : Bool} (h : Primed sp i dq (c :: cs)) (hw : 0 < sp.bitWidth * sp.devices)
    (hd : 0 < sp.dataRate) (h8 : hasPins std = true → sp.devices * sp.bitWidth % 8 = 0) (hdir : direction c.type = some read)
    (ht : dq ≤ c.t * sp.dataRate) (hc : Carries std sp c) (hv : Invertible std sp (c :: cs)) :
    ∃ d pr pw, Inverts sp i c read d pr pw ∧
      Primed sp { i with dbi := d, pinsRead := pr, pinsWrite := pw } (c.t * sp.dataRate + dataBeats std sp c) cs := by
  have hle : dq ≤ c.t * sp.dataRate + dataBeats std sp c := Nat.le_trans ht (Nat.le_add_right _ _)
  have stay : Primed sp { i with dbi := i.dbi, pinsRead := i.pinsRead, pinsWrite := i.pinsWrite } (c.t * sp.dataRate + dataBeats std sp c) cs := h.tail hle
  by_cases h0 : c.nBits = 0
  · exact ⟨i.dbi, i.pinsRead, i.pinsWrite, by unfold Inverts; rw [if_pos h0]; exact ⟨rfl, rfl, rfl⟩, stay⟩
  by_cases hoff : std = .ddr5 ∨ i.dataBus.mode ≠ .bus ∨ i.dbi.enable = false ∨ c.nBits = 0 ∨ c.data = none
  · refine ⟨i.dbi, i.pinsRead, i.pinsWrite, ?_, stay⟩
    unfold Inverts
    rw [if_neg h0]
    refine ⟨c.data, ?_, hc.bytes, id⟩
    unfold Interface.invertData
    rw [if_pos hoff]
  simp only [not_or] at hoff
  obtain ⟨o1, o2, o3, o4, o5⟩ := hoff
  obtain ⟨x, hx⟩ : ∃ x, c.data = some x := by
    cases hx : c.data with
    | none => exact absurd hx o5
    | some x => exact ⟨x, rfl⟩
  have hen : i.dbi.enable = true := by simpa using o3
  have hbytes := hc.bytes x hx
  have hmem : sizesOf (c :: cs) read c.nBits := ⟨c, by simp, hdir, rfl⟩
  have hsub : 0 < (sp.dbi std).sub := by
    unfold IfSpec.dbi; dsimp only; split <;> decide
  have hz : (sp.dbi std).idle ≠ .Z := by
    unfold IfSpec.dbi; dsimp only; split <;> decide
  have hlater : ∀ c' ∈ cs, direction c'.type = some read → c'.nBits ≤ c.nBits := by
    intro c' hc' hd'
    exact (List.pairwise_cons.1 hv.sizes).1 c' hc' (by rw [hdir]; simp) (by rw [hd', hdir])
  have holds' : ∀ {d' : Dbi 8}, (d'.last read).Holds (sp.dbi std) (c.nBits / ((sp.dbi std).sub * 8)) →
      ∀ n, n = 0 ∨ sizesOf cs read n → (d'.last read).Holds (sp.dbi std) (n / (sp.dbi std).chunkSize) := by
    intro d' hh n hn
    refine hh.mono (Nat.div_le_div_right ?_)
    rcases hn with hn | ⟨c', hc', hd', e⟩
    · omega
    · rw [e]; exact hlater c' hc' hd'
  have words : (Interface.toWords x).length = x.length := by unfold Interface.toWords; rw [List.length_map]
  have shape : c.nBits % ((sp.dbi std).sub * 8) = 0 ∧ ∀ W, (sp.dbi std).width = some W → (sp.dbi std).sub * 8 ≤ W ∧ W ≤ c.nBits := by
    by_cases h6 : std = .lpddr6
    · obtain ⟨hn, _⟩ := hc.lpddr6 h6
      have e1 : (sp.dbi std).sub = 2 := if_pos h6
      have e2 : (sp.dbi std).width = none := if_pos h6
      rw [e1, e2]
      exact ⟨by omega, fun W e => by cases e⟩
    · have hp : hasPins std = true := by
        cases std <;> first | rfl | exact absurd rfl h6 | exact absurd rfl o1
      have e1 : (sp.dbi std).sub = 1 := if_neg h6
      have e2 : (sp.dbi std).width = some (sp.devices * sp.bitWidth) := if_neg h6
      have hm := hc.whole h6
      rw [Nat.mul_comm] at hm hw
      have h8 := h8 hp
      rw [e1, e2]
      refine ⟨?_, fun W e => ?_⟩
      · rw [Nat.one_mul]
        exact Nat.mod_eq_zero_of_dvd (Nat.dvd_trans (Nat.dvd_of_mod_eq_zero h8) (Nat.dvd_of_mod_eq_zero hm))
      · cases e
        exact ⟨by omega, Nat.le_of_dvd (by omega) (Nat.dvd_of_mod_eq_zero hm)⟩
  obtain ⟨d', out, ev, hu, _, hother, hholds⟩ := C23_step (p := sp.dbi std) (d := i.dbi) (t := c.t * sp.dataRate) (data := Interface.toWords x) (read := read)
    hsub (by decide) hz (by omega) shape.1 shape.2 hen ((h read).holds c.nBits (Or.inr hmem)) (by rw [words]; omega)
  have hout : c.nBits ≤ 8 * (Interface.ofWords out).length := by
    obtain ⟨b⟩ := Dbi.update_ok hu
    have e1 := (compute_received hsub b.comp).1
    rw [List.length_take, Nat.min_eq_left b.enough] at e1
    have := b.words
    unfold Interface.ofWords
    rw [List.length_map, b.hout, e1]
    omega
  have fin : ∀ {i' : Interface std N}, ev.foldlM Interface.pinChange { i with dbi := d' } = .ok i' →
      i.invertData sp c read = .ok (i', some (Interface.ofWords out)) := by
    intro i' hi'
    unfold Interface.invertData
    rw [if_neg (by simp only [not_or]; exact ⟨o1, o2, o3, o4, o5⟩), hx, Option.map_some, hu]
    show (ev.foldlM Interface.pinChange { i with dbi := d' } >>= _) = _
    rw [hi']
    rfl
  have inv : ∀ {pr pw : List (Pin (pinSize std))}, ev.foldlM Interface.pinChange { i with dbi := d' } = .ok { i with dbi := d', pinsRead := pr, pinsWrite := pw } →
      Inverts sp i c read d' pr pw := by
    intro pr pw he
    unfold Inverts
    rw [if_neg h0]
    exact ⟨_, fin he, fun y e => by cases e; exact hout, fun _ => by rw [hx]; rfl⟩
  cases hp : hasPins std with
  | false =>
    have h6 : std = .lpddr6 := by
      cases std
      · cases hp
      · exact absurd rfl o1
      · cases hp
      · cases hp
      · rfl
    have hev : ev = [] := by
      obtain ⟨b⟩ := Dbi.update_ok hu
      have := b.hev
      unfold DbiParams.deliver at this
      rw [this, if_neg (by subst h6; exact Bool.false_ne_true)]
    subst hev
    refine ⟨d', i.pinsRead, i.pinsWrite, inv rfl, fun r => ?_⟩
    rcases (show r = read ∨ r = !read by cases r <;> cases read <;> simp) with e | e
    · subst e
      exact ⟨holds' hholds, fun e => by rw [hp] at e; cases e⟩
    · rw [e]
      show PrimedDir std sp (d'.last (!read)) _ _ _ _
      rw [hother]
      exact stay (!read)
  | true =>
    have h6 := (hasPins_ne hp).1
    have h8 := h8 hp
    have hb : 0 < bytesOf sp := by unfold bytesOf; rw [Nat.mul_comm] at hw; omega
    have hB : dataBeats std sp c = c.nBits / (sp.devices * sp.bitWidth) := by
      unfold dataBeats burstBeats
      rw [if_neg (by simp [h6]), if_neg h0, Nat.mul_comm]
    have hpos : 0 < dataBeats std sp c := Nat.lt_of_lt_of_le hd hc.long
    have hroom : dataBeats std sp c < pinSize std := by
      refine hv.short (pinSize std) ?_ c (by simp) (by rw [hdir]; simp)
      cases std <;> first | rfl | cases hp
    have hW : sp.devices * sp.bitWidth = 8 * bytesOf sp := by unfold bytesOf; omega
    have hn : c.nBits / 8 = dataBeats std sp c * bytesOf sp := by
      have hm := hc.whole h6
      rw [Nat.mul_comm, hW] at hm
      rw [hB, hW]
      obtain ⟨k, hk⟩ := Nat.dvd_of_mod_eq_zero hm
      rw [hk, Nat.mul_div_cancel_left _ (by omega), Nat.mul_assoc, Nat.mul_div_cancel_left _ (by decide), Nat.mul_comm]
    have dir := (h read)
    rw [hB] at hn hroom hpos
    have key := fun pins' => PrimedDir.burst (pins' := pins') (S' := sizesOf cs read) (M' := moreData cs) hp hb ⟨c, by simp, by rw [hdir]; simp⟩ ht hpos hroom hn
      rfl dir hu
    obtain ⟨g1, g2, _⟩ := key []
    have other : ∀ p, eventBits std (!read) p ev = [] := fun p => eventBits_other (fun e he => (g1 e he).2.1) p
    have fit : Fits ({ i with dbi := d' } : Interface std N) (c.t * sp.dataRate) ev := by
      refine ⟨fun e he => ?_, fun r p q hq => ?_⟩
      · obtain ⟨x1, x2, x3⟩ := g1 e he
        exact ⟨x1, by rw [x2]; exact Nat.lt_of_lt_of_eq x3 (dir.pins hp).1.symm⟩
      · rcases (show r = read ∨ r = !read by cases r <;> cases read <;> simp) with e | e
        · subst e; exact Or.inr (g2 p q hq)
        · rw [e]; exact Or.inl (other p)
    obtain ⟨i', hi'⟩ := pinChanges_fits fit
    obtain ⟨pr, pw, e', _, _⟩ := pinChanges_ok hi'
    refine ⟨d', pr, pw, inv (by rw [hi', e']), fun r => ?_⟩
    obtain ⟨b1, _, _, b3⟩ := pinChanges_pins r (fun e he => (g1 e he).1) hi'
    rw [e'] at b1 b3
    rcases (show r = read ∨ r = !read by cases r <;> cases read <;> simp) with e | e
    · subst e
      obtain ⟨_, _, g3⟩ := key (Interface.pinsOf { i with dbi := d', pinsRead := pr, pinsWrite := pw } r)
      rw [hB]
      exact g3 (holds' hholds) b1 b3
    · rw [e] at b1 b3 ⊢
      have : Interface.pinsOf ({ i with dbi := d', pinsRead := pr, pinsWrite := pw } : Interface std N) (!read) = i.pinsOf (!read) :=
        pins_still b1 (fun p => other p) b3
      rw [this]
      show PrimedDir std sp (d'.last (!read)) _ _ _ _
      rw [hother]
      exact stay (!read)

theorem finish_std {a : BankArch} {ty : CmdType} (h : ifAction a std ty = .finish) : std ≠ .ddr5 ∧ ty = .END_OF_SIMULATION := by
  revert h
  cases std <;> cases ty <;> cases a <;> decide

/-- Any command. -/
theorem Primed.turn {i : Interface std N} {ca dq : Nat} {c : ICmd} {cs : List ICmd} (h : Primed sp i dq (c :: cs)) (hw : 0 < sp.bitWidth * sp.devices)
    (hd : 0 < sp.dataRate) (h8 : hasPins std = true → sp.devices * sp.bitWidth % 8 = 0) (hty : Handled sp.arch std c.type)
    (ha : Admissible std sp ca dq (c :: cs)) (hv : Invertible std sp (c :: cs)) :
    ∃ d pr pw, Turn sp i c d pr pw ∧ Primed sp { i with dbi := d, pinsRead := pr, pinsWrite := pw }
      (if direction c.type = none then dq else c.t * sp.dataRate + dataBeats std sp c) cs := by
  obtain ⟨_, a2, _, _⟩ := ha
  unfold Turn
  cases hf : ifAction sp.arch std c.type with
  | data read =>
    have hdir := data_direction _ _ _ _ hf
    have hne : direction c.type ≠ none := by rw [hdir]; simp
    rw [if_neg hne]
    exact h.data hw hd h8 hdir (a2 hne).1 (a2 hne).2 hv
  | finish =>
    obtain ⟨h5, he⟩ := finish_std hf
    have hn : direction c.type = none := by rw [he]; rfl
    rw [if_pos hn]
    by_cases h6 : std = .lpddr6
    · refine ⟨i.dbi, i.pinsRead, i.pinsWrite, ?_, h.tail (Nat.le_refl _)⟩
      subst h6
      unfold Interface.endOfSimulation Dbi.resetBoth
      rw [reset_lpddr6]
      simp only [bind, Except.bind]
      rw [reset_lpddr6]
      rfl
    · have hl : lineRoom std ≠ none := by
        cases std <;> first | (simp [lineRoom]; done) | exact absurd rfl h5 | exact absurd rfl h6
      refine h.finish h5 (fun hp => ?_) (fun ⟨x, hx, hx'⟩ => hx' ((List.pairwise_cons.1 (hv.ends hl)).1 x hx he)) c.t
      have := h8 hp
      rw [Nat.mul_comm] at hw
      unfold bytesOf; omega
  | _ =>
    have hn : direction c.type = none := by
      rcases handled_cases _ _ _ hty with ⟨_, _, _, hn⟩ | ⟨read, e, _⟩ | ⟨_, hn, _⟩
      · exact hn
      · rw [hf] at e; cases e
      · exact hn
    rw [if_pos hn]
    exact ⟨i.dbi, i.pinsRead, i.pinsWrite, ⟨rfl, rfl, rfl⟩, h.tail (Nat.le_refl _)⟩

theorem Spec.Invertible.tail {c : ICmd} {cs : List ICmd} (h : Invertible std sp (c :: cs)) : Invertible std sp cs :=
  ⟨fun r hr x hx => h.short r hr x (by simp [hx]), (List.pairwise_cons.1 h.sizes).2, fun hl => (List.pairwise_cons.1 (h.ends hl)).2⟩

theorem Primed.init {i : Interface std N} (hi : Interface.init std N sp = .ok i) (cs : List ICmd) :
    Primed sp i 0 cs ∧ (hasPins std = true → sp.devices * sp.bitWidth % 8 = 0) := by
  unfold Interface.init at hi
  obtain ⟨cb, _, hi⟩ := bind_ok hi
  obtain ⟨db, _, hi⟩ := bind_ok hi
  obtain ⟨di, h3, hi⟩ := bind_ok hi
  split at hi
  · exact absurd hi (by simp)
  have e := pure_ok hi
  subst e
  have key : (∀ r, (di.last r).init = false ∧ (di.last r).capacity = 0) ∧ (hasPins std = true → sp.devices * sp.bitWidth % 8 = 0) := by
    unfold Interface.initDbi at h3
    split at h3
    · rename_i h5
      rw [← ok_inj h3]
      exact ⟨fun r => by cases r <;> exact ⟨rfl, rfl⟩, fun hp => absurd h5 (hasPins_ne hp).2⟩
    · unfold Dbi.init at h3
      split at h3
      · rename_i n hn
        split at h3
        · rename_i h8
          rw [← ok_inj h3]
          refine ⟨fun r => by cases r <;> exact ⟨rfl, rfl⟩, fun hp => ?_⟩
          obtain ⟨hcs, _, _, hwd⟩ := dbi_chunks (std := std) (sp := sp) (hasPins_ne hp).1
          rw [hwd] at hn
          cases hn
          rw [hcs] at h8
          exact h8
        · exact absurd h3 (by simp)
      · rename_i hn
        rw [← ok_inj h3]
        refine ⟨fun r => by cases r <;> exact ⟨rfl, rfl⟩, fun hp => ?_⟩
        obtain ⟨_, _, _, hwd⟩ := dbi_chunks (std := std) (sp := sp) (hasPins_ne hp).1
        rw [hwd] at hn
        cases hn
  obtain ⟨k1, k2⟩ := key
  refine ⟨fun r => ⟨fun n _ => Or.inl (k1 r), fun hp => ⟨?_, fun e => ?_, Or.inr ⟨fun e => ?_, fun q hq => ?_⟩⟩⟩, k2⟩
  · show List.length (if r = true then sp.pins std else sp.pins std) = _
    rw [ite_self, IfSpec.pins, if_pos hp, List.length_replicate]
    rfl
  · exact absurd ((k1 r).1.symm.trans e) (by simp)
  · exact absurd ((k1 r).1.symm.trans e) (by simp)
  · have hq : q ∈ (if r = true then sp.pins std else sp.pins std) := hq
    rw [ite_self, IfSpec.pins, if_pos hp] at hq
    rw [List.eq_of_mem_replicate hq]
    exact ⟨⟨rfl, Nat.le_refl _, fun _ => Nat.le_refl _⟩, fun e => absurd ((k1 r).1.symm.trans e) (by simp)⟩

/-! ## Inversion that is never used -/

/-- The inversion has seen no burst. -/
def Untouched (i : Interface std N) : Prop := ∀ r, (i.dbi.last r).init = false

theorem Untouched.turn {i : Interface std N} {ca dq : Nat} {c : ICmd} {b : Prop} (h : Untouched i) (hr : Ready sp i ca dq)
    (hn : std = .ddr5 ∨ sp.toggling.isSome) (hp : direction c.type ≠ none → b ∧ Carries std sp c) :
    Turn sp i c i.dbi i.pinsRead i.pinsWrite := by
  unfold Turn
  split
  · rename_i read e
    unfold Inverts
    split
    · exact ⟨rfl, rfl, rfl⟩
    · have hdir : direction c.type ≠ none := by rw [data_direction _ _ _ _ e]; simp
      refine ⟨c.data, ?_, (hp hdir).2.bytes, id⟩
      unfold Interface.invertData
      rw [if_pos]
      rcases hn with hn | hn
      · exact Or.inl hn
      · have : i.dataBus.mode = .toggling := by
          rw [hr.data.1, IfSpec.mode, if_pos hn]
        exact Or.inr (Or.inl (by rw [this]; simp))
  · exact untouched_finish ⟨h true, h false⟩ c.t
  · exact ⟨rfl, rfl, rfl⟩

/-! ## Both -/

/-- What is known of the inversion before the commands `cs`. -/
def Steered (sp : IfSpec) (i : Interface std N) (dq : Nat) (cs : List ICmd) : Prop :=
  (std = .ddr5 ∨ sp.toggling.isSome) ∧ Untouched i ∨ Primed sp i dq cs ∧ Invertible std sp cs

theorem Steered.same {i i' : Interface std N} {dq : Nat} {cs : List ICmd} (h : Steered sp i dq cs) (hl : ∀ r, i'.dbi.last r = i.dbi.last r)
    (hr : i'.pinsRead = i.pinsRead) (hw : i'.pinsWrite = i.pinsWrite) : Steered sp i' dq cs := by
  rcases h with ⟨h1, h2⟩ | ⟨h1, h2⟩
  · exact Or.inl ⟨h1, fun r => by rw [hl]; exact h2 r⟩
  · exact Or.inr ⟨h1.same hl hr hw, h2⟩

theorem Steered.turn {i : Interface std N} {ca dq : Nat} {c : ICmd} {cs : List ICmd} (h : Steered sp i dq (c :: cs)) (hi : Ready sp i ca dq)
    (hw : 0 < sp.bitWidth * sp.devices) (hd : 0 < sp.dataRate) (h8 : hasPins std = true → sp.devices * sp.bitWidth % 8 = 0)
    (hty : Handled sp.arch std c.type) (ha : Admissible std sp ca dq (c :: cs)) :
    ∃ d pr pw, Turn sp i c d pr pw ∧ Steered sp { i with dbi := d, pinsRead := pr, pinsWrite := pw }
      (if direction c.type = none then dq else c.t * sp.dataRate + dataBeats std sp c) cs := by
  rcases h with ⟨h1, h2⟩ | ⟨h1, h2⟩
  · exact ⟨i.dbi, i.pinsRead, i.pinsWrite, h2.turn hi h1 ha.2.1, Or.inl ⟨h1, h2⟩⟩
  · obtain ⟨d, pr, pw, e1, e2⟩ := h1.turn hw hd h8 hty ha h2
    exact ⟨d, pr, pw, e1, Or.inr ⟨e2, h2.tail⟩⟩

end

end DRAMPower
