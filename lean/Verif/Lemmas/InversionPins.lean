import Verif.Props.C20
import Verif.Lemmas.TimeBase
import Verif.Spec.InversionPins

/-!
# Lemmas: the history of the inversion pins
-/

namespace DRAMPower
open Spec

/-! ## One pin -/

theorem pushBack_ok {P : Nat} {d d' : BitsetContainer P} {t : Nat} {b : Bool} (h : d.pushBack t b = .ok d') : d'.count ≤ P ∧ d'.loadTime = t ∧
    (d.loadTime = t → d'.count = d.count + 1) := by
  unfold BitsetContainer.pushBack at h
  dsimp only at h
  split at h <;> split at h <;> first | cases h; done | skip
  · rw [← Except.ok.inj h]
    rename_i h1 h2
    exact ⟨by dsimp only at *; omega, rfl, fun e => absurd e.symm h1⟩
  · rw [← Except.ok.inj h]
    rename_i h1 h2
    refine ⟨?_, ?_, fun _ => rfl⟩ <;> dsimp only <;> omega

theorem pin_set_storage {P : Nat} {p p' : Pin P} {t : Nat} {st : PinState} (h : p.set t st 1 = .ok p') :
    p.storage.pushBack t (st == .H) = .ok p'.storage := by
  unfold Pin.set at h
  obtain ⟨s, hs, h⟩ := bind_ok h
  dsimp only at h
  obtain ⟨d, hd, h⟩ := bind_ok h
  have e := pure_ok h
  rw [Nat.mul_one] at hd
  revert e hd
  split <;> split <;> intro hd e <;> rw [← e] <;> exact hd

/-- The bits of a burst fit. -/
theorem burst_size {P : Nat} {t : Nat} : ∀ {bits : List PinState} {p p' : Pin P}, p.storage.loadTime = t → p.storage.count ≤ P →
    p.burst t bits = .ok p' → p.storage.count + bits.length ≤ P
  | [], p, p', _, hc, _ => hc
  | b :: bits, p, p', hl, hc, h => by
    unfold Pin.burst at h
    rw [List.foldlM_cons] at h
    obtain ⟨q, h1, h2⟩ := bind_ok h
    obtain ⟨a1, a2, a3⟩ := pushBack_ok (pin_set_storage h1)
    have := burst_size (bits := bits) a2 a1 h2
    rw [a3 hl] at this
    rw [List.length_cons]
    omega

theorem burst_length {P : Nat} {t : Nat} {bits : List PinState} {p p' : Pin P} (h : p.burst t bits = .ok p') : bits.length ≤ P := by
  cases bits with
  | nil => exact Nat.zero_le _
  | cons b bits =>
    unfold Pin.burst at h
    rw [List.foldlM_cons] at h
    obtain ⟨q, h1, h2⟩ := bind_ok h
    obtain ⟨a1, a2, a3⟩ := pushBack_ok (pin_set_storage h1)
    have := burst_size (bits := bits) a2 a1 h2
    have hpos : 0 < q.storage.count := by
      have := pin_set_storage h1
      unfold BitsetContainer.pushBack at this
      dsimp only at this
      split at this <;> split at this <;> first | cases this; done | skip
      all_goals rw [← Except.ok.inj this]; exact Nat.succ_pos _
    rw [List.length_cons]
    omega

/-- When a history ends. -/
def pinEnd : Nat → List (Nat × List PinState) → Nat
  | free, [] => free
  | _, (t, bits) :: rest => pinEnd (t + bits.length) rest

theorem pinEnd_append : ∀ (l : List (Nat × List PinState)) (free t : Nat) (bits : List PinState), pinEnd free (l ++ [(t, bits)]) = t + bits.length
  | [], _, _, _ => rfl
  | _ :: l, _, t, bits => pinEnd_append l _ t bits

theorem pinBursts_append {P : Nat} : ∀ (l : List (Nat × List PinState)) {free t : Nat} {bits : List PinState}, PinBursts P free l → pinEnd free l ≤ t →
    bits ≠ [] → bits.length ≤ P → (∀ b ∈ bits, b ≠ .Z) → PinBursts P free (l ++ [(t, bits)])
  | [], _, _, _, _, h1, h2, h3, h4 => ⟨h1, h2, h3, h4, trivial⟩
  | (_, _) :: l, _, _, _, ⟨a1, a2, a3, a4, a5⟩, h1, h2, h3, h4 => ⟨a1, a2, a3, a4, pinBursts_append l a5 h1 h2 h3 h4⟩

theorem pin_run_append {P : Nat} {l : List (Nat × List PinState)} {p q r : Pin P} {t : Nat} {bits : List PinState} (h1 : p.run l = .ok q)
    (h2 : q.burst t bits = .ok r) : p.run (l ++ [(t, bits)]) = .ok r := by
  unfold Pin.run at h1 ⊢
  rw [List.foldlM_append, h1]
  show (List.foldlM (fun p b => p.burst b.1 b.2 1) q [(t, bits)] : Except Err (Pin P)) = _
  rw [List.foldlM_cons, h2]
  rfl

/-! ## The events of a call -/

/-- The pins of a direction. -/
def Interface.pinsOf {std : Std} {N : Nat} (i : Interface std N) (read : Bool) : List (Pin (pinSize std)) := if read then i.pinsRead else i.pinsWrite

/-- What the events put on a pin. -/
def eventBits (std : Std) (read : Bool) (p : Nat) (es : List DbiEvent) : List PinState :=
  (es.filter fun e => e.read == read && e.idx == p).map fun e => Interface.pinLevel std e.inverted

theorem pinChange_pins {std : Std} {N : Nat} {i i' : Interface std N} {e : DbiEvent} (h : i.pinChange e = .ok i') (r : Bool) :
    (i'.pinsOf r).length = (i.pinsOf r).length ∧ i'.dbi = i.dbi ∧ i'.dataBus = i.dataBus ∧
    ∀ (p : Nat) (q : Pin (pinSize std)), (i.pinsOf r)[p]? = some q → ∃ q', (i'.pinsOf r)[p]? = some q' ∧ q.burst e.load (eventBits std r p [e]) = .ok q' := by
  unfold Interface.pinChange at h
  split at h
  · cases h
  rename_i q0 hq0
  obtain ⟨q1, hq1, h⟩ := bind_ok h
  have one : q0.burst e.load [Interface.pinLevel std e.inverted] = .ok q1 := by
    show (List.foldlM (fun p b => p.set e.load b 1) q0 [_] : Except Err _) = _
    rw [List.foldlM_cons, hq1]
    rfl
  have none : ∀ {p : Nat} (q : Pin (pinSize std)), ¬ (e.read = r ∧ e.idx = p) → q.burst e.load (eventBits std r p [e]) = .ok q := by
    intro p q hn
    have : eventBits std r p [e] = [] := by
      unfold eventBits
      rw [List.filter_cons, if_neg (by simpa using hn)]
      rfl
    rw [this]; rfl
  have some : ∀ {p : Nat}, e.read = r ∧ e.idx = p → eventBits std r p [e] = [Interface.pinLevel std e.inverted] := by
    intro p hp
    unfold eventBits
    rw [List.filter_cons, if_pos (by simpa using hp)]
    rfl
  cases her : e.read with
  | true =>
    rw [her] at h hq0
    simp only [if_true] at h hq0
    rw [← pure_ok h]
    cases r with
    | false => exact ⟨rfl, rfl, rfl, fun p q hq => ⟨q, hq, none q (by simp [her])⟩⟩
    | true =>
      refine ⟨List.length_set .., rfl, rfl, fun p q hq => ?_⟩
      show ∃ q', (i.pinsRead.set e.idx q1)[p]? = _ ∧ _
      by_cases hp : e.idx = p
      · subst hp
        have hlt : e.idx < i.pinsRead.length := (List.getElem?_eq_some_iff.1 hq0).1
        refine ⟨q1, by rw [List.getElem?_set_self hlt], ?_⟩
        rw [some ⟨her, rfl⟩]
        have : q = q0 := Option.some.inj (hq.symm.trans hq0)
        rw [this]; exact one
      · exact ⟨q, by rw [List.getElem?_set_ne hp]; exact hq, none q (fun x => hp x.2)⟩
  | false =>
    rw [her] at h hq0
    simp only [Bool.false_eq_true, if_false] at h hq0
    rw [← pure_ok h]
    cases r with
    | true => exact ⟨rfl, rfl, rfl, fun p q hq => ⟨q, hq, none q (by simp [her])⟩⟩
    | false =>
      refine ⟨List.length_set .., rfl, rfl, fun p q hq => ?_⟩
      show ∃ q', (i.pinsWrite.set e.idx q1)[p]? = _ ∧ _
      by_cases hp : e.idx = p
      · subst hp
        have hlt : e.idx < i.pinsWrite.length := (List.getElem?_eq_some_iff.1 hq0).1
        refine ⟨q1, by rw [List.getElem?_set_self hlt], ?_⟩
        rw [some ⟨her, rfl⟩]
        have : q = q0 := Option.some.inj (hq.symm.trans hq0)
        rw [this]; exact one
      · exact ⟨q, by rw [List.getElem?_set_ne hp]; exact hq, none q (fun x => hp x.2)⟩

theorem eventBits_append (std : Std) (r : Bool) (p : Nat) (a b : List DbiEvent) :
    eventBits std r p (a ++ b) = eventBits std r p a ++ eventBits std r p b := by
  unfold eventBits
  rw [List.filter_append, List.map_append]

theorem pin_burst_append {P : Nat} {p q r : Pin P} {t : Nat} {a b : List PinState} (h1 : p.burst t a = .ok q) (h2 : q.burst t b = .ok r) :
    p.burst t (a ++ b) = .ok r := by
  unfold Pin.burst at h1 h2 ⊢
  rw [List.foldlM_append, h1]
  exact h2

theorem pinChanges_pins {std : Std} {N : Nat} {t : Nat} (r : Bool) : ∀ {es : List DbiEvent} {i i' : Interface std N}, (∀ e ∈ es, e.load = t) →
    es.foldlM Interface.pinChange i = .ok i' →
    (i'.pinsOf r).length = (i.pinsOf r).length ∧ i'.dbi = i.dbi ∧ i'.dataBus = i.dataBus ∧
    ∀ (p : Nat) (q : Pin (pinSize std)), (i.pinsOf r)[p]? = some q → ∃ q', (i'.pinsOf r)[p]? = some q' ∧ q.burst t (eventBits std r p es) = .ok q'
  | [], i, i', _, h => by
    rw [← pure_ok h]
    exact ⟨rfl, rfl, rfl, fun p q hq => ⟨q, hq, rfl⟩⟩
  | e :: es, i, i', he, h => by
    rw [List.foldlM_cons] at h
    obtain ⟨i1, h1, h2⟩ := bind_ok h
    obtain ⟨a1, a2, a3, a4⟩ := pinChange_pins h1 r
    obtain ⟨b1, b2, b3, b4⟩ := pinChanges_pins r (fun e' he' => he e' (by simp [he'])) h2
    refine ⟨b1.trans a1, b2.trans a2, b3.trans a3, fun p q hq => ?_⟩
    obtain ⟨q1, hq1, c1⟩ := a4 p q hq
    obtain ⟨q2, hq2, c2⟩ := b4 p q1 hq1
    rw [he e (by simp)] at c1
    exact ⟨q2, hq2, by rw [show e :: es = [e] ++ es from rfl, eventBits_append]; exact pin_burst_append c1 c2⟩

/-! ## The inversion state -/

/-- Bytes of the data bus. -/
def bytesOf (sp : IfSpec) : Nat := sp.devices * sp.bitWidth / 8

section
variable {std : Std} {sp : IfSpec} {d d' : Dbi 8} {t nBits : Nat} {read : Bool}

theorem dbi_chunks (h6 : std ≠ .lpddr6) : (sp.dbi std).chunkSize = 8 ∧ (sp.dbi std).chunksPerWidth = some (bytesOf sp) ∧
    (sp.dbi std).callback = true ∧ (sp.dbi std).width = some (sp.devices * sp.bitWidth) := by
  have hsub : (sp.dbi std).sub = 1 := if_neg h6
  have hc : (sp.dbi std).chunkSize = 8 := by unfold DbiParams.chunkSize; rw [hsub]
  have hw : (sp.dbi std).width = some (sp.devices * sp.bitWidth) := if_neg h6
  refine ⟨hc, ?_, decide_eq_true h6, hw⟩
  unfold DbiParams.chunksPerWidth
  rw [hc, hw]
  rfl

/-- A reset of a direction: the events it causes and the flags it leaves. -/
theorem reset_track (h6 : std ≠ .lpddr6) {ev : List DbiEvent} (h : d.reset (sp.dbi std) t read = .ok (d', ev)) :
    d'.last (!read) = d.last (!read) ∧ d'.enable = d.enable ∧ (d'.last read).init = (d.last read).init ∧ (d'.last read).stop = (d.last read).stop ∧
    (d'.last read).nChunks = (d.last read).nChunks ∧ ((d' = d ∧ ev = []) ∨ (d.last read).init = true ∧ (d.last read).stop < t ∧
      bytesOf sp ≤ (d.last read).nChunks ∧
      ev = ((List.range' ((d.last read).nChunks - bytesOf sp) (bytesOf sp)).filter fun c => (d.last read).inversions.getD c false).map
        (fun c => { load := t, time := (d.last read).stop, idx := c % bytesOf sp, inverted := false, read }) ∧
      ∀ c, (d.last read).nChunks - bytesOf sp ≤ c → c < (d.last read).nChunks → (d'.last read).inversions.getD c false = false) := by
  obtain ⟨_, hcw, hcb, _⟩ := dbi_chunks (std := std) (sp := sp) h6
  unfold Dbi.reset at h
  dsimp only at h
  split at h
  · cases h
  rename_i hshort
  split at h
  · cases h; exact ⟨rfl, rfl, rfl, rfl, rfl, Or.inl ⟨rfl, rfl⟩⟩
  rename_i hinit
  split at h
  · cases h; exact ⟨rfl, rfl, rfl, rfl, rfl, Or.inl ⟨rfl, rfl⟩⟩
  rename_i hstop
  split at h
  · rename_i hc; rw [hcb] at hc; cases hc
  split at h
  · cases h
  rename_i hlen
  have h := Except.ok.inj h
  have hi : (d.last read).init = true := by simpa using hinit
  have hge : bytesOf sp ≤ (d.last read).nChunks := by
    have : (sp.dbi std).short (d.last read) = false := by simpa using hshort
    unfold DbiParams.short at this
    rw [hcw] at this
    simp only [hi, Bool.true_and, decide_eq_false_iff_not] at this
    omega
  have hcount : (sp.dbi std).resetCount (d.last read) = bytesOf sp := by unfold DbiParams.resetCount; rw [hcw]
  have hpin : ∀ c, (sp.dbi std).pinOf c = c % bytesOf sp := by intro c; unfold DbiParams.pinOf; rw [hcw]
  simp only [hcount, hpin] at h
  have hd : d' = _ := (congrArg Prod.fst h).symm
  have he : ev = _ := (congrArg Prod.snd h).symm
  refine ⟨by rw [hd]; exact Dbi.last_setLast_ne _ _ _, by rw [hd]; cases read <;> rfl, ?_, ?_, ?_, Or.inr ⟨hi, by omega, hge, he, fun c h1 h2 => ?_⟩⟩
  · rw [hd]; show (Dbi.last (d.setLast read _) read).init = _; rw [Dbi.last_setLast]
  · rw [hd]; show (Dbi.last (d.setLast read _) read).stop = _; rw [Dbi.last_setLast]
  · rw [hd]; show (Dbi.last (d.setLast read _) read).nChunks = _; rw [Dbi.last_setLast]
  · rw [hd]
    show (Dbi.last (d.setLast read _) read).inversions.getD c false = false
    rw [Dbi.last_setLast]
    have hl : ((d.last read).inversions.take ((d.last read).nChunks - bytesOf sp)).length = (d.last read).nChunks - bytesOf sp := by
      rw [List.length_take]; omega
    show (List.take _ _ ++ (List.replicate (bytesOf sp) false ++ List.drop _ _)).getD c false = false
    rw [List.getD_eq_getElem?_getD, List.getElem?_append_right (by omega), hl, List.getElem?_append_left (by rw [List.length_replicate]; omega),
      List.getElem?_replicate]
    split <;> rfl

/-- Nothing would be reset. -/
def ResetFree (sp : IfSpec) (l : LastBurst 8) (t : Nat) : Prop :=
  l.init = false ∨ t ≤ l.stop ∨ ∀ c, l.nChunks - bytesOf sp ≤ c → c < l.nChunks → l.inversions.getD c false = false

theorem reset_free (h6 : std ≠ .lpddr6) {ev : List DbiEvent} (hf : ResetFree sp (d.last read) t) (h : d.reset (sp.dbi std) t read = .ok (d', ev)) :
    ev = [] := by
  obtain ⟨_, _, _, _, _, k⟩ := reset_track h6 h
  rcases k with ⟨_, e⟩ | ⟨k1, k2, k3, k4, _⟩
  · exact e
  · rcases hf with hf | hf | hf
    · rw [k1] at hf; cases hf
    · omega
    · rw [k4, List.map_eq_nil_iff, List.filter_eq_nil_iff]
      intro c hc
      rw [List.mem_range'_1] at hc
      rw [hf c (by omega) (by omega)]
      exact Bool.false_ne_true

/-- The flags of a transfer, after the events of a reset. -/
theorem update_all {m : Setting} (hm : m.inverting = true) (h5 : std ≠ .ddr5) (h6 : std ≠ .lpddr6) {data : List UInt8} {out : List (BitVec 8)}
    {ev : List DbiEvent} (h : d.update (sp.dbi std) t nBits (some (Interface.toWords data)) read = .ok (d', some out, ev)) :
    (∃ d1 before, d.reset (sp.dbi std) t read = .ok (d1, before) ∧ ev.map (fun e => (e.load, e.idx, e.inverted, e.read)) =
      before.map (fun e => (e.load, e.idx, e.inverted, e.read)) ++
        (List.range (nBits / 8)).map (fun c => (t, c % bytesOf sp, flagged std m data c, read))) ∧
    d'.last (!read) = d.last (!read) ∧ (d'.last read).init = true ∧ (d'.last read).stop = t + nBits / (sp.devices * sp.bitWidth) ∧
    (d'.last read).nChunks = nBits / 8 ∧ ∀ c < nBits / 8, (d'.last read).inversions.getD c false = flagged std m data c := by
  obtain ⟨hcs, hcw, hcb, hwd⟩ := dbi_chunks (std := std) (sp := sp) h6
  obtain ⟨b⟩ := Dbi.update_ok h
  have hsub : (sp.dbi std).sub = 1 := if_neg h6
  have hlen : ((Interface.toWords data).take (nBits / 8)).length = nBits / 8 := by rw [List.length_take, Nat.min_eq_left b.enough]
  have hinv := compute_inv (by omega) (Or.inl rfl) b.comp
  have hflag : ∀ c < nBits / 8, b.s.flags.getD c false = flagged std m data c := by
    intro c hc
    have hfl := static_flags hsub rfl b.idle b.comp c (by omega)
    have htk : ((Interface.toWords data).take (nBits / 8)).getD c 0 = (Interface.toWords data).getD c 0 := by
      simp [List.getD_eq_getElem?_getD, hc]
    rw [htk] at hfl
    have hcb : chunkBits std = 8 := if_neg h6
    have hcost : costly (sp.dbi std) = (std != .ddr4) := by
      unfold costly IfSpec.dbi
      cases std <;> rfl
    rw [hfl]
    unfold flagged
    rw [hm, hcb, hcost]
    have e5 : (std != .ddr5) = true := by simpa using h5
    rw [e5, Bool.true_and, Bool.true_and]
    have hwires : (wires 8 fun j => bitOf data (c * 8 + j) == (std != .ddr4)) =
        levels (std != .ddr4) [(Interface.toWords data).getD c 0] := by
      rw [levels_one]
      refine wires_congr fun j hj => ?_
      rw [bitOf_toWords, show (c * 8 + j) / 8 = c by omega, show (c * 8 + j) % 8 = j by omega]
    rw [hwires]
    have := level_sum ((Interface.toWords data).getD c 0)
    simp only [levels_one]
    cases (std != .ddr4) <;> simp only [Bool.not_true, Bool.not_false] <;> congr 1 <;> apply propext <;> omega
  obtain ⟨r1, _⟩ := reset_track h6 b.reset
  have hlast := b.done_last
  have hother : d'.last (!read) = d.last (!read) := by
    rw [← r1]
    refine (congrArg (fun x : Dbi 8 => x.last (!read)) b.hd').trans ?_
    cases read <;> rfl
  refine ⟨⟨_, _, b.reset, ?_⟩, hother, by rw [hlast]; rfl, by rw [hlast]; simp only [LastBurst.done, hwd],
    by rw [hlast]; simp only [LastBurst.done, hcs], fun c hc => ?_⟩
  · have hev := b.hev
    unfold DbiParams.deliver at hev
    rw [hcb, if_pos rfl, hinv.evs, hlen, hsub] at hev
    generalize b.resets = before at hev ⊢
    rw [hev, List.map_append, List.map_map, Nat.add_sub_cancel, Nat.div_one]
    congr 1
    refine List.map_congr_left fun c hc => ?_
    have := hflag c (List.mem_range.1 hc)
    simp only [Function.comp_apply, DbiParams.event, hcw]
    rw [this]
  · rw [hlast]
    exact hflag c hc

/-- The flags of a transfer. -/
theorem update_track {m : Setting} (hm : m.inverting = true) (h5 : std ≠ .ddr5) (h6 : std ≠ .lpddr6) {data : List UInt8} {out : List (BitVec 8)}
    {ev : List DbiEvent} (hf : ResetFree sp (d.last read) t)
    (h : d.update (sp.dbi std) t nBits (some (Interface.toWords data)) read = .ok (d', some out, ev)) :
    ev.map (fun e => (e.load, e.idx, e.inverted, e.read)) = (List.range (nBits / 8)).map (fun c => (t, c % bytesOf sp, flagged std m data c, read)) ∧
    d'.last (!read) = d.last (!read) ∧ (d'.last read).init = true ∧ (d'.last read).stop = t + nBits / (sp.devices * sp.bitWidth) ∧
    (d'.last read).nChunks = nBits / 8 ∧ ∀ c < nBits / 8, (d'.last read).inversions.getD c false = flagged std m data c := by
  obtain ⟨⟨d1, before, hr, he⟩, hrest⟩ := update_all hm h5 h6 h
  rw [reset_free h6 hf hr] at he
  exact ⟨he, hrest⟩

end

/-! ## The bits of a pin -/

theorem filter_range_eq {p : Nat} : ∀ {n : Nat}, p < n → (List.range n).filter (fun x => x == p) = [p]
  | 0, h => absurd h (Nat.not_lt_zero _)
  | n + 1, h => by
    rw [List.range_succ, List.filter_append]
    by_cases hp : p = n
    · subst hp
      have : (List.range p).filter (fun x => x == p) = [] := by
        rw [List.filter_eq_nil_iff]
        intro x hx
        have := List.mem_range.1 hx
        simp only [beq_iff_eq]
        omega
      rw [this]
      simp
    · rw [filter_range_eq (by omega)]
      have : (n == p) = false := by simp only [beq_eq_false_iff_ne]; omega
      rw [List.filter_cons, this]
      rfl

theorem range_rows (n : Nat) : ∀ b : Nat, List.range ((b + 1) * n) = List.range (b * n) ++ (List.range n).map (b * n + ·) := by
  intro b
  rw [Nat.add_mul, Nat.one_mul, List.range_add]

theorem filter_rows {n p : Nat} (hp : p < n) : ∀ b : Nat, (List.range (b * n)).filter (fun c => c % n == p) = (List.range b).map fun k => k * n + p
  | 0 => by rw [Nat.zero_mul]; rfl
  | b + 1 => by
    rw [range_rows, List.filter_append, filter_rows hp b, List.range_succ, List.map_append]
    congr 1
    rw [List.filter_map]
    have : ((List.range n).filter ((fun c => c % n == p) ∘ fun x => b * n + x)) = [p] := by
      have e : (List.range n).filter ((fun c => c % n == p) ∘ fun x => b * n + x) = (List.range n).filter fun x => x == p := by
        refine List.filter_congr fun x hx => ?_
        have hx := List.mem_range.1 hx
        simp only [Function.comp_apply]
        rw [Nat.mul_comm, Nat.mul_add_mod, Nat.mod_eq_of_lt hx]
      rw [e]
      exact filter_range_eq hp
    rw [this]
    rfl

theorem eventBits_map {std : Std} {r : Bool} {p : Nat} : ∀ {es : List DbiEvent} {l : List (Nat × Nat × Bool × Bool)},
    es.map (fun e => (e.load, e.idx, e.inverted, e.read)) = l →
    eventBits std r p es = (l.filter fun e => e.2.2.2 == r && e.2.1 == p).map fun e => Interface.pinLevel std e.2.2.1
  | [], _, h => by rw [← h]; rfl
  | e :: es, l, h => by
    rw [← h]
    have ih := eventBits_map (std := std) (r := r) (p := p) (es := es) rfl
    unfold eventBits at ih ⊢
    rw [List.map_cons, List.filter_cons, List.filter_cons]
    dsimp only
    split
    · rw [List.map_cons, List.map_cons, ih]
    · exact ih

/-- What the pins get in a transfer. -/
def markBits (std : Std) (p : Nat) (b : Marked) : Nat × List PinState :=
  (b.start, (List.range b.beats).map fun k => if b.flag k p then markLevel std else plainLevel std)

theorem pinLevel_eq (std : Std) (x : Bool) : Interface.pinLevel std x = if x then markLevel std else plainLevel std := by
  cases std <;> cases x <;> rfl

theorem plain_eq (std : Std) (sp : IfSpec) : (sp.dbi std).idle = plainLevel std := by
  cases std <;> rfl

theorem burst_bits {std : Std} {es : List DbiEvent} {t n beats p : Nat} {r : Bool} {f : Nat → Bool} (hp : p < n)
    (h : es.map (fun e => (e.load, e.idx, e.inverted, e.read)) = (List.range (beats * n)).map (fun c => (t, c % n, f c, r))) :
    eventBits std r p es = (List.range beats).map fun k => if f (k * n + p) then markLevel std else plainLevel std := by
  rw [eventBits_map h, List.filter_map]
  have : (List.range (beats * n)).filter ((fun e : Nat × Nat × Bool × Bool => e.2.2.2 == r && e.2.1 == p) ∘ fun c => (t, c % n, f c, r))
      = (List.range (beats * n)).filter fun c => c % n == p := by
    refine List.filter_congr fun c _ => ?_
    simp
  rw [this, filter_rows hp, List.map_map, List.map_map]
  refine List.map_congr_left fun k _ => ?_
  simp only [Function.comp_apply]
  exact pinLevel_eq _ _

theorem eventBits_other {std : Std} {es : List DbiEvent} {r : Bool} (h : ∀ e ∈ es, e.read = r) (p : Nat) : eventBits std (!r) p es = [] := by
  unfold eventBits
  rw [List.map_eq_nil_iff, List.filter_eq_nil_iff]
  intro e he
  rw [h e he]
  cases r <;> simp

/-! ## The history of the pins of a direction -/

/-- The transfers so far, and whether the pins have been reset since. -/
structure PinTrack (std : Std) (sp : IfSpec) (L : List Marked) (ended : Bool) (pins : List (Pin (pinSize std))) (l : LastBurst 8) (busy : Nat) : Prop where
  length : pins.length = bytesOf sp
  hist : ∀ p < bytesOf sp, ∃ q tail, pins[p]? = some q ∧
    (Pin.init (pinSize std) (plainLevel std) (plainLevel std)).run (L.map (markBits std p) ++ tail) = .ok q ∧
    PinBursts (pinSize std) 0 (L.map (markBits std p) ++ tail) ∧
    (tail = [] ∨ ended = true ∧ ∃ T, tail = [(T, [plainLevel std])] ∧ ∀ b ∈ L, b.stop ≤ T)
  fresh : L = [] → l.init = false
  last : ∀ L' b, L = L' ++ [b] → l.init = true ∧ l.stop = b.stop ∧ l.nChunks = b.beats * bytesOf sp ∧ 0 < b.beats ∧
    ∀ p < bytesOf sp, l.inversions.getD ((b.beats - 1) * bytesOf sp + p) false = (!ended && b.flag (b.beats - 1) p)
  busy : ∀ b ∈ L, b.stop ≤ busy
  order : ∀ L' a, L = L' ++ [a] → ∀ b ∈ L, b.stop ≤ a.stop

section
variable {std : Std} {sp : IfSpec} {L : List Marked} {ended : Bool} {pins pins' : List (Pin (pinSize std))} {l l' : LastBurst 8} {busy busy' : Nat}

theorem PinTrack.later (h : PinTrack std sp L ended pins l busy) (hb : busy ≤ busy') : PinTrack std sp L ended pins l busy' :=
  ⟨h.length, h.hist, h.fresh, h.last, fun b hb' => Nat.le_trans (h.busy b hb') hb, h.order⟩

/-- When the history of a pin ends. -/
theorem PinTrack.end_le (h : PinTrack std sp L false pins l busy) (p : Nat) : pinEnd 0 (L.map (markBits std p)) ≤ busy := by
  rcases List.eq_nil_or_concat L with e | ⟨L', b, e⟩
  · subst e; exact Nat.zero_le _
  · have e : L = L' ++ [b] := by rw [e]; simp
    subst e
    rw [List.map_append, List.map_cons, List.map_nil]
    unfold markBits
    rw [pinEnd_append, List.length_map, List.length_range]
    exact h.busy b (by simp)

theorem mark_driven (std : Std) (x : Bool) : (if x then markLevel std else plainLevel std) ≠ .Z := by cases std <;> cases x <;> nofun

/-- A transfer. -/
theorem PinTrack.burst (h : PinTrack std sp L false pins l busy) {b : Marked} (h0 : 0 < b.beats) (hb : busy ≤ b.start) (hlen : pins'.length = pins.length)
    (hp : ∀ p < bytesOf sp, ∀ q, pins[p]? = some q → ∃ q', pins'[p]? = some q' ∧ q.burst b.start (markBits std p b).2 = .ok q')
    (h1 : l'.init = true) (h2 : l'.stop = b.stop) (h3 : l'.nChunks = b.beats * bytesOf sp)
    (h4 : ∀ p < bytesOf sp, l'.inversions.getD ((b.beats - 1) * bytesOf sp + p) false = b.flag (b.beats - 1) p) :
    PinTrack std sp (L ++ [b]) false pins' l' b.stop where
  length := hlen.trans h.length
  hist := by
    intro p hp'
    obtain ⟨q, tail, a1, a2, a3, a4⟩ := h.hist p hp'
    rcases a4 with a4 | ⟨a4, _⟩
    rotate_left
    · cases a4
    subst a4
    rw [List.append_nil] at a2 a3
    obtain ⟨q', c1, c2⟩ := hp p hp' q a1
    have hsz := burst_length c2
    refine ⟨q', [], c1, ?_, ?_, Or.inl rfl⟩ <;> rw [List.append_nil, List.map_append, List.map_cons, List.map_nil]
    · exact pin_run_append a2 c2
    · refine pinBursts_append _ a3 (Nat.le_trans (h.end_le p) hb) ?_ hsz ?_
      · intro e
        have := congrArg List.length e
        rw [List.length_map, List.length_range] at this
        simp at this
        omega
      · intro x hx
        obtain ⟨k, _, e⟩ := List.mem_map.1 hx
        rw [← e]; exact mark_driven _ _
  fresh := by intro e; simp at e
  last := by
    intro L' b' e
    have : b' = b := by
      have := congrArg List.getLast? e
      simp at this
      exact this.symm
    subst this
    exact ⟨h1, h2, h3, h0, h4⟩
  busy := by
    intro b' hb'
    rcases List.mem_append.1 hb' with hb' | hb'
    · have := h.busy b' hb'
      unfold Marked.stop
      unfold Marked.stop at this
      omega
    · cases List.mem_singleton.1 hb'
      exact Nat.le_refl _
  order := by
    intro L' a e b' hb'
    have : a = b := by
      have := congrArg List.getLast? e
      simp at this
      exact this.symm
    subst this
    rcases List.mem_append.1 hb' with hb' | hb'
    · have := h.busy b' hb'
      unfold Marked.stop
      unfold Marked.stop at this
      omega
    · cases List.mem_singleton.1 hb'
      exact Nat.le_refl _

/-- Whether a transfer at a beat makes the pins reset. -/
theorem PinTrack.free (h : PinTrack std sp L false pins l busy) (hn : 0 < bytesOf sp) {b : Marked} {rest : List Marked}
    (hs : Settling (bytesOf sp) (L ++ b :: rest)) : ResetFree sp l b.start := by
  rcases List.eq_nil_or_concat L with e | ⟨L', a, e0⟩
  · exact Or.inl (h.fresh e)
  · have e : L = L' ++ [a] := by rw [e0]; simp
    clear e0
    obtain ⟨k1, k2, k3, k4, k5⟩ := h.last L' a e
    have hpair : b.start ≤ a.stop ∨ ∀ p < bytesOf sp, a.flag (a.beats - 1) p = false := by
      subst e
      clear h k1 k2 k3 k4 k5
      induction L' with
      | nil => exact hs.1
      | cons x L' ih =>
        cases L' with
        | nil => exact ih hs.2
        | cons y L' => exact ih hs.2
    rcases hpair with hp | hp
    · exact Or.inr (Or.inl (by rw [k2]; exact hp))
    · refine Or.inr (Or.inr fun c h1 h2 => ?_)
      rw [k3] at h1 h2
      obtain ⟨m, hm⟩ : ∃ m, a.beats = m + 1 := ⟨a.beats - 1, by omega⟩
      rw [hm, Nat.add_mul, Nat.one_mul] at h1 h2
      have := k5 (c - m * bytesOf sp) (by omega)
      rw [hm, Nat.add_sub_cancel, Nat.add_sub_of_le (by omega)] at this
      rw [this]
      have := hp (c - m * bytesOf sp) (by omega)
      rw [hm, Nat.add_sub_cancel] at this
      rw [this]
      rfl

theorem row_filter {n p k : Nat} (hp : p < n) : (List.range' (k * n) n).filter (fun c => c % n == p) = [k * n + p] := by
  rw [List.range'_eq_map_range, List.filter_map]
  have e : (List.range n).filter ((fun c => c % n == p) ∘ fun x => k * n + x) = (List.range n).filter fun x => x == p := by
    refine List.filter_congr fun x hx => ?_
    have hx := List.mem_range.1 hx
    simp only [Function.comp_apply]
    rw [Nat.mul_comm, Nat.mul_add_mod, Nat.mod_eq_of_lt hx]
  rw [e, filter_range_eq hp]
  rfl

theorem reset_bits {n p k t stop : Nat} {r : Bool} {f : Nat → Bool} (hp : p < n) :
    eventBits std r p (((List.range' (k * n) n).filter f).map fun c => { load := t, time := stop, idx := c % n, inverted := false, read := r })
      = if f (k * n + p) then [plainLevel std] else [] := by
  unfold eventBits
  rw [List.filter_map, List.filter_filter, List.map_map]
  have e : (List.range' (k * n) n).filter (fun c => (((fun e : DbiEvent => e.read == r && e.idx == p) ∘
      fun c => ({ load := t, time := stop, idx := c % n, inverted := false, read := r } : DbiEvent)) c) && f c)
      = ((List.range' (k * n) n).filter fun c => c % n == p).filter f := by
    rw [List.filter_filter]
    refine List.filter_congr fun c _ => ?_
    simp [Bool.and_comm]
  rw [e, row_filter hp, List.filter_cons]
  split
  · simp only [List.map_cons, List.filter_nil, List.map_nil, Function.comp_apply]
    rw [pinLevel_eq]
    rfl
  · rfl

/-- A reset. -/
theorem PinTrack.reset (h : PinTrack std sp L ended pins l busy) (h6 : std ≠ .lpddr6) {d d' : Dbi 8} {t : Nat} {read : Bool} {ev : List DbiEvent}
    (hl : d.last read = l) (hr : d.reset (sp.dbi std) t read = .ok (d', ev)) (hlen : pins'.length = pins.length)
    (hp : ∀ (p : Nat) (q : Pin (pinSize std)), pins[p]? = some q → ∃ q', pins'[p]? = some q' ∧ q.burst t (eventBits std read p ev) = .ok q') :
    ∃ ended', PinTrack std sp L ended' pins' (d'.last read) busy := by
  obtain ⟨_, _, r1, r2, r3, k⟩ := reset_track h6 hr
  rw [hl] at r1 r2 r3 k
  rcases k with ⟨k1, k2⟩ | ⟨k1, k2, k3, k4, k5⟩
  · have : pins' = pins := by
      refine List.ext_getElem? fun p => ?_
      rcases Nat.lt_or_ge p pins.length with hlt | hge
      · obtain ⟨q', c1, c2⟩ := hp p _ (List.getElem?_eq_getElem hlt)
        rw [k2] at c2
        have : q' = pins[p] := (ok_inj c2).symm
        rw [c1, this, List.getElem?_eq_getElem hlt]
      · rw [List.getElem?_eq_none (by omega), List.getElem?_eq_none hge]
    rw [this, k1, hl]
    exact ⟨ended, h⟩
  · rcases List.eq_nil_or_concat L with e | ⟨L', a, e0⟩
    · have := h.fresh e
      rw [k1] at this; cases this
    have e : L = L' ++ [a] := by rw [e0]; simp
    clear e0
    obtain ⟨a1, a2, a3, a4, a5⟩ := h.last L' a e
    have hrow : l.nChunks - bytesOf sp = (a.beats - 1) * bytesOf sp := by
      rw [a3, Nat.sub_mul, Nat.one_mul]
    rw [hrow] at k4 k5
    refine ⟨true, hlen.trans h.length, fun p hp' => ?_, fun e' => by rw [e'] at e; simp at e, fun L'' b e' => ?_, h.busy, h.order⟩
    · obtain ⟨q, tail, c1, c2, c3, c4⟩ := h.hist p hp'
      obtain ⟨q', d1, d2⟩ := hp p q c1
      rw [k4, reset_bits hp', a5 p hp'] at d2
      by_cases hflag : (!ended && a.flag (a.beats - 1) p) = true
      · have hend : ended = false := by cases ended with | false => rfl | true => cases hflag
        rcases c4 with c4 | ⟨c4, _⟩
        rotate_left
        · rw [hend] at c4; cases c4
        subst c4
        rw [List.append_nil] at c2 c3
        rw [if_pos hflag] at d2
        have hT : ∀ b ∈ L, b.stop ≤ t := by
          intro b hb
          have := h.order L' a e b hb
          omega
        refine ⟨q', [(t, [plainLevel std])], d1, pin_run_append c2 d2, ?_, Or.inr ⟨rfl, t, rfl, hT⟩⟩
        refine pinBursts_append _ c3 ?_ (by simp) (burst_length d2) (by intro b hb; cases List.mem_singleton.1 hb; exact mark_driven std false)
        rw [e, List.map_append, List.map_cons, List.map_nil]
        unfold markBits
        rw [pinEnd_append, List.length_map, List.length_range]
        exact hT a (by rw [e]; simp)
      · rw [if_neg hflag] at d2
        have : q' = q := (ok_inj d2).symm
        subst this
        refine ⟨q', tail, d1, c2, c3, ?_⟩
        rcases c4 with c4 | ⟨_, c4⟩
        · exact Or.inl c4
        · exact Or.inr ⟨rfl, c4⟩
    · have : b = a := by
        have := congrArg List.getLast? (e.symm.trans e')
        simp at this
        exact this.symm
      subst this
      refine ⟨r1.trans a1, r2.trans a2, r3.trans a3, a4, fun p hp' => ?_⟩
      rw [k5 _ (by omega) (by
        rw [a3]
        obtain ⟨m, hm⟩ : ∃ m, b.beats = m + 1 := ⟨b.beats - 1, by omega⟩
        rw [hm, Nat.add_mul, Nat.one_mul, Nat.add_sub_cancel]; omega)]
      rfl

end

section
variable {std : Std} {N : Nat} {sp : IfSpec} {i i' : Interface std N} {m : Setting} {c : ICmd}

/-- The pins and the inversion state. -/
structure SamePins (i i' : Interface std N) : Prop where
  read : i'.pinsRead = i.pinsRead
  write : i'.pinsWrite = i.pinsWrite
  last : ∀ r, i'.dbi.last r = i.dbi.last r

theorem SamePins.refl (i : Interface std N) : SamePins i i := ⟨rfl, rfl, fun _ => rfl⟩

theorem SamePins.trans {i'' : Interface std N} (h : SamePins i i') (h' : SamePins i' i'') : SamePins i i'' :=
  ⟨h'.read.trans h.read, h'.write.trans h.write, fun r => (h'.last r).trans (h.last r)⟩

theorem SamePins.of (h : SamePins i i') : ∀ r, i'.pinsOf r = i.pinsOf r := by
  intro r; cases r
  · exact h.write
  · exact h.read

/-- A transfer that inverts. -/
structure InvertCall (sp : IfSpec) (m : Setting) (c : ICmd) (read : Bool) (i i' : Interface std N) : Prop where
  data : ∃ x, c.data = some x ∧ ∃ d out ev i1, i.dbi.update (sp.dbi std) (c.t * sp.dataRate) c.nBits (some (Interface.toWords x)) read = .ok (d, some out, ev) ∧
    ev.foldlM Interface.pinChange { i with dbi := d } = .ok i1 ∧ SamePins i1 i'
  inverting : m.inverting = true
  mode : sp.toggling = none
  some : c.nBits ≠ 0
  notFive : std ≠ .ddr5

theorem InvertCall.next {read : Bool} {i'' : Interface std N} (h : InvertCall sp m c read i i') (h' : SamePins i' i'') : InvertCall sp m c read i i'' := by
  obtain ⟨x, hx, d, out, ev, i1, h1, h2, h3⟩ := h.data
  exact ⟨⟨x, hx, d, out, ev, i1, h1, h2, h3.trans h'⟩, h.inverting, h.mode, h.some, h.notFive⟩

/-- No transfer that inverts. -/
def Plain (std : Std) (sp : IfSpec) (m : Setting) (c : ICmd) : Prop :=
  std = .ddr5 ∨ sp.toggling ≠ none ∨ m.inverting = false ∨ c.nBits = 0 ∨ c.data = none

theorem invertData_pins {read : Bool} {data : Option (List UInt8)} (hs : Shaped sp i) (hi : Set6 m i) (h : i.invertData sp c read = .ok (i', data)) :
    (SamePins i i' ∧ Plain std sp m c) ∨ InvertCall sp m c read i i' := by
  unfold Interface.invertData at h
  split at h
  · rename_i hoff
    have := ok_inj h
    simp only [Prod.mk.injEq] at this
    rw [← this.1]
    refine Or.inl ⟨.refl _, ?_⟩
    rcases hoff with e | e | e | e | e
    · exact Or.inl e
    · exact Or.inr (Or.inl fun h => e ((mode_bus hs).2 h))
    · exact Or.inr (Or.inr (Or.inl (hi.inverting.symm.trans e)))
    · exact Or.inr (Or.inr (Or.inr (Or.inl e)))
    · exact Or.inr (Or.inr (Or.inr (Or.inr e)))
  · rename_i hon
    simp only [not_or] at hon
    obtain ⟨h5, hmode, hen, h0, hdata⟩ := hon
    obtain ⟨⟨d, out, ev⟩, h1, h2⟩ := bind_ok h
    obtain ⟨i1, h3, h4⟩ := bind_ok h2
    have := pure_ok h4
    simp only [Prod.mk.injEq] at this
    obtain ⟨e2, _⟩ := this
    subst e2
    cases hx : c.data with
    | none => exact absurd hx hdata
    | some x =>
      rw [hx, Option.map_some] at h1
      cases out with
      | none =>
        obtain ⟨_, _, hc⟩ := C23_off h1
        rcases hc with e | e | e | e
        · cases e
        · exact absurd e h0
        · exact absurd e hen
        · have : (sp.dbi std).idle ≠ .Z := by unfold IfSpec.dbi; dsimp only; split <;> decide
          exact absurd e this
      | some o =>
        refine Or.inr ⟨⟨x, hx, d, o, ev, i1, h1, h3, .refl _⟩, by rw [← hi.inverting]; simpa using hen, (mode_bus hs).1 (by simpa using hmode), h0, h5⟩

theorem transfer_pins {read : Bool} {len : Nat} (hs : Shaped sp i) (hi : Set6 m i) (h : i.transfer sp c read = .ok (i', len)) :
    (SamePins i i' ∧ Plain std sp m c) ∨ InvertCall sp m c read i i' := by
  unfold Interface.transfer at h
  split at h
  · rename_i h0
    refine Or.inl ⟨?_, Or.inr (Or.inr (Or.inr (Or.inl h0)))⟩
    split at h
    · have := congrArg Prod.fst (ok_inj h)
      dsimp only at this
      rw [← this]; exact .refl _
    · obtain ⟨i1, h1, h⟩ := bind_ok h
      obtain ⟨d, _, e⟩ := loadData_ok h1
      have := congrArg Prod.fst (pure_ok h)
      dsimp only at this
      rw [← this, e]; exact ⟨rfl, rfl, fun _ => rfl⟩
  · obtain ⟨⟨i1, data⟩, h1, h⟩ := bind_ok h
    have k := invertData_pins hs hi h1
    dsimp only at h
    have same : SamePins i1 i' := by
      split at h
      · obtain ⟨⟨f, bytes, n⟩, _, h⟩ := bind_ok h
        obtain ⟨i2, h2, h⟩ := bind_ok h
        obtain ⟨d, _, e⟩ := loadData_ok h2
        have := congrArg Prod.fst (pure_ok h)
        dsimp only at this
        rw [← this, e]; exact ⟨rfl, rfl, fun _ => rfl⟩
      · obtain ⟨i2, h2, h⟩ := bind_ok h
        obtain ⟨d, _, e⟩ := loadData_ok h2
        have := congrArg Prod.fst (pure_ok h)
        dsimp only at this
        rw [← this, e]; exact ⟨rfl, rfl, fun _ => rfl⟩
    rcases k with ⟨k1, k2⟩ | k
    · exact Or.inl ⟨k1.trans same, k2⟩
    · exact Or.inr (k.next same)

theorem handleCommandBus_same (h : i.handleCommandBus sp c = .ok i') : SamePins i i' := by
  obtain ⟨i1, w, n, b, h1, h2, e⟩ := handleCommandBus_ok h
  subst e
  rcases encodeCommand_ok h1 with ⟨_, _, k, _, e⟩ | ⟨_, _, k, _, e⟩ <;> subst e <;> exact ⟨rfl, rfl, fun _ => rfl⟩

theorem handleData_pins {read : Bool} (hs : Shaped sp i) (hi : Set6 m i) (h : i.handleData sp c read = .ok i') :
    (SamePins i i' ∧ Plain std sp m c) ∨ InvertCall sp m c read i i' := by
  obtain ⟨i1, len, i2, i3, i4, h1, h2, h3, h4, h5⟩ := handleData_ok h
  have k1 := transfer_pins hs hi h1
  obtain ⟨r2, wd2, e2⟩ := dqs_ok h2
  have k2 : SamePins i1 i2 := by rw [e2]; exact ⟨rfl, rfl, fun _ => rfl⟩
  obtain ⟨wk, e3⟩ := runWck_ok h3
  have k3 : SamePins i2 i3 := by rw [e3]; exact ⟨rfl, rfl, fun _ => rfl⟩
  obtain ⟨a, a6, eo⟩ := overrides_eq i3 len read
  have k4 := handleCommandBus_same h4
  rw [eo] at k4
  have k4' : SamePins i3 i4 := ⟨k4.read, k4.write, k4.last⟩
  have k5 : SamePins i4 i' := by
    rcases prePostamble_ok h5 with ⟨_, e⟩ | ⟨_, r, r', _, _, e⟩
    · rw [e]; exact .refl _
    · rw [e]; exact ⟨rfl, rfl, fun _ => rfl⟩
  have same := ((k2.trans k3).trans k4').trans k5
  rcases k1 with ⟨k1, k2⟩ | k
  · exact Or.inl ⟨k1.trans same, k2⟩
  · exact Or.inr (k.next same)

theorem markedOf_other {r : Bool} (h : direction c.type ≠ some r) : markedOf std sp r m (.cmd c) = none := by
  cases hx : c.data with
  | none => simp only [markedOf, hx]
  | some x => simp only [markedOf, hx]; exact if_neg fun k => h k.1

theorem markedOf_plain {r : Bool} (h5 : std ≠ .ddr5) (h : Plain std sp m c) : markedOf std sp r m (.cmd c) = none := by
  cases hx : c.data with
  | none => simp only [markedOf, hx]
  | some x =>
    simp only [markedOf, hx]
    refine if_neg fun k => ?_
    rcases h with e | e | e | e | e
    · exact h5 e
    · exact e k.2.2.1
    · rw [k.2.1] at e; cases e
    · exact k.2.2.2 e
    · rw [hx] at e; cases e

/-- The effect of a call on the pins. -/
inductive PinStep (sp : IfSpec) (m : Setting) (i : Interface std N) : IfOp → Interface std N → Prop
  | same {op i'} : SamePins i i' → (∀ r, markedOf std sp r m op = none) → PinStep sp m i op i'
  | burst {c read i'} : direction c.type = some read → InvertCall sp m c read i i' → PinStep sp m i (.cmd c) i'
  | finish {c d ev i1 i'} : c.type = .END_OF_SIMULATION → i.dbi.resetBoth (sp.dbi std) c.t = .ok (d, ev) →
      ev.foldlM Interface.pinChange { i with dbi := d } = .ok i1 → SamePins i1 i' → PinStep sp m i (.cmd c) i'

theorem finish_end {a : BankArch} {ty : CmdType} (h : ifAction a std ty = .finish) : ty = .END_OF_SIMULATION := by
  revert h; cases std <;> cases ty <;> cases a <;> decide

theorem step_pins (h5 : std ≠ .ddr5) (hs : Shaped sp i) (hi : Set6 m i) {op : IfOp} (h : i.step sp op = .ok i') : PinStep sp m i op i' := by
  cases op with
  | cmd c =>
    obtain ⟨i1, h1, e⟩ := ifCommand_ok h
    have last : SamePins i1 i' := by rw [e]; exact ⟨rfl, rfl, fun _ => rfl⟩
    cases ha : ifAction sp.arch std c.type with
    | bus =>
      rw [ha] at h1
      have hd := direction_other (a := sp.arch) (std := std) (ty := c.type) (by simp [ha]) (by simp [ha])
      exact .same ((handleCommandBus_same h1).trans last) fun r => markedOf_other (by rw [hd]; nofun)
    | data read =>
      rw [ha] at h1
      have hd := direction_data ha
      rcases handleData_pins hs hi h1 with ⟨k1, k2⟩ | k
      · exact .same (k1.trans last) fun r => markedOf_plain h5 k2
      · exact .burst hd (k.next last)
    | finish =>
      rw [ha] at h1
      unfold Interface.act Interface.endOfSimulation at h1
      obtain ⟨⟨d, ev⟩, g1, g2⟩ := bind_ok h1
      exact .finish (finish_end ha) g1 g2 last
    | skip =>
      rw [ha] at h1
      have hd := direction_other (a := sp.arch) (std := std) (ty := c.type) (by simp [ha]) (by simp [ha])
      cases h1
      exact .same last fun r => markedOf_other (by rw [hd]; nofun)
    | unsupported => rw [ha] at h1; cases h1
    | invalid => rw [ha] at h1; cases h1
  | dbi e => cases h; exact .same ⟨rfl, rfl, fun r => by cases r <;> rfl⟩ fun _ => rfl
  | metaData a b => cases h; exact .same ⟨rfl, rfl, fun _ => rfl⟩ fun _ => rfl
  | parity b =>
    simp only [Interface.step, Interface.setParityCheckMode] at h
    split at h
    · cases h; exact .same ⟨rfl, rfl, fun _ => rfl⟩ fun _ => rfl
    · cases h
  | enable t =>
    simp only [Interface.step] at h
    cases he : i.enabled with
    | true =>
      unfold Interface.enable at h
      rw [if_pos he] at h
      cases h
      exact .same (.refl _) fun _ => rfl
    | false =>
      obtain ⟨w, k, _, _, e⟩ := enable_ok he h
      subst e
      exact .same ⟨rfl, rfl, fun _ => rfl⟩ fun _ => rfl
  | disable t =>
    simp only [Interface.step] at h
    cases he : i.enabled with
    | false =>
      unfold Interface.disable at h
      rw [if_pos he] at h
      cases h
      exact .same (.refl _) fun _ => rfl
    | true =>
      obtain ⟨w, k, _, _, e⟩ := disable_ok he h
      subst e
      exact .same ⟨rfl, rfl, fun _ => rfl⟩ fun _ => rfl

end

end DRAMPower
