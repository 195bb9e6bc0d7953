import Verif.Spec.Outline
import Verif.Lemmas.Project
import Verif.Lemmas.SimObject

/-!
# Interfaces that differ in what their data wires show
-/

namespace DRAMPower
open Spec
variable {std : Std} {N : Nat} {sp : IfSpec} {i i' j j' : Interface std N} {c : ICmd}

/-- Everything but data wires, inversion and metadata agrees. -/
structure Elsewhere (sp : IfSpec) (i j : Interface std N) : Prop where
  last : j.last = i.last
  ca : j.ca = i.ca
  ca6 : j.ca6 = i.ca6
  cmdBus : j.cmdBus = i.cmdBus
  readDQS : j.readDQS = i.readDQS
  writeDQS : j.writeDQS = i.writeDQS
  wck : j.wck = i.wck
  clock : j.clock = i.clock
  ranks : j.ranks = i.ranks
  enabled : j.enabled = i.enabled
  togglingRead : j.dataBus.togglingRead = i.dataBus.togglingRead
  togglingWrite : j.dataBus.togglingWrite = i.dataBus.togglingWrite
  shaped : Shaped sp i
  shaped' : Shaped sp j

theorem Elsewhere.refl (h : Shaped sp i) : Elsewhere sp i i := ⟨rfl, rfl, rfl, rfl, rfl, rfl, rfl, rfl, rfl, rfl, rfl, rfl, h, h⟩

theorem load_elsewhere {d d' e e' : DataBus N} {read : Bool} {t n : Nat} {x y : Option (List UInt8)} (hm : e.mode = d.mode)
    (h1 : e.togglingRead = d.togglingRead) (h2 : e.togglingWrite = d.togglingWrite) (hd : Interface.loadFunc d read t n x = .ok d')
    (he : Interface.loadFunc e read t n y = .ok e') : e'.togglingRead = d'.togglingRead ∧ e'.togglingWrite = d'.togglingWrite := by
  have bus : ∀ {d d' : DataBus N} {x : Option (List UInt8)}, d.mode = .bus → Interface.loadFunc d read t n x = .ok d' →
      d'.togglingRead = d.togglingRead ∧ d'.togglingWrite = d.togglingWrite := by
    intro d d' x hb h
    unfold Interface.loadFunc DataBus.loadRead DataBus.loadWrite at h
    rw [hb] at h
    cases x with
    | none => cases read <;> (rw [← ok_inj h]; exact ⟨rfl, rfl⟩)
    | some x =>
      dsimp only at h
      cases read with
      | true =>
        rw [if_pos rfl] at h
        split at h
        · rw [← ok_inj h]; exact ⟨rfl, rfl⟩
        · obtain ⟨b, _, h⟩ := bind_ok h
          rw [← pure_ok h]; exact ⟨rfl, rfl⟩
      | false =>
        rw [if_neg (by decide)] at h
        split at h
        · rw [← ok_inj h]; exact ⟨rfl, rfl⟩
        · obtain ⟨b, _, h⟩ := bind_ok h
          rw [← pure_ok h]; exact ⟨rfl, rfl⟩
  cases hk : d.mode with
  | bus =>
    obtain ⟨a1, a2⟩ := bus hk hd
    obtain ⟨b1, b2⟩ := bus (hm.trans hk) he
    exact ⟨by rw [a1, b1, h1], by rw [a2, b2, h2]⟩
  | toggling =>
    have hk' := hm.trans hk
    unfold Interface.loadFunc DataBus.loadRead DataBus.loadWrite at hd he
    rw [hk] at hd
    rw [hk'] at he
    dsimp only at hd he
    cases read with
    | true =>
      rw [if_pos rfl] at hd he
      rw [h1] at he
      obtain ⟨a, a1, a2⟩ := bind_ok hd
      obtain ⟨b, b1, b2⟩ := bind_ok he
      have e := ok_inj (a1.symm.trans b1)
      rw [← pure_ok a2, ← pure_ok b2]
      exact ⟨e.symm, h2⟩
    | false =>
      rw [if_neg (by decide)] at hd he
      rw [h2] at he
      obtain ⟨a, a1, a2⟩ := bind_ok hd
      obtain ⟨b, b1, b2⟩ := bind_ok he
      have e := ok_inj (a1.symm.trans b1)
      rw [← pure_ok a2, ← pure_ok b2]
      exact ⟨h1, e.symm⟩

/-- What a transfer makes of the toggling-rate model. -/
theorem transfer_loads {read : Bool} {len : Nat} (hs : Shaped sp i) (h : i.transfer sp c read = .ok (i', len)) :
    (c.nBits = 0 ∧ sp.mode = .bus ∧ i'.dataBus = i.dataBus) ∨
    ∃ x, Interface.loadFunc i.dataBus read c.t
      (if c.nBits = 0 then sp.burstLength * (sp.bitWidth * sp.devices) else if std = .lpddr6 then c.nBits + c.nBits / 256 * 32 else c.nBits) x = .ok i'.dataBus ∧
      (c.nBits = 0 → sp.mode = .toggling) := by
  have hm := hs.mode
  unfold Interface.transfer at h
  split at h
  · rename_i h0
    split at h
    · rename_i hb
      have e := ok_inj h
      simp only [Prod.mk.injEq] at e
      exact .inl ⟨h0, hm.symm.trans hb, by rw [← e.1]⟩
    · rename_i hb
      obtain ⟨i1, h1, h2⟩ := bind_ok h
      have e := pure_ok h2
      simp only [Prod.mk.injEq] at e
      obtain ⟨d, h3, e3⟩ := loadData_ok h1
      refine .inr ⟨none, ?_, fun _ => hm.symm.trans hb⟩
      rw [if_pos h0, ← hs.width, ← e.1, e3]
      exact h3
  · rename_i h0
    obtain ⟨⟨i1, data⟩, h1, h2⟩ := bind_ok h
    obtain ⟨db, pr, pw, e1, _, _⟩ := invertData_ok h1
    dsimp only at h2
    split at h2
    · rename_i h6
      obtain ⟨⟨f, bytes, n⟩, h3, h4⟩ := bind_ok h2
      obtain ⟨i2, h5, h6'⟩ := bind_ok h4
      have e := pure_ok h6'
      simp only [Prod.mk.injEq] at e
      obtain ⟨d, h7, e7⟩ := loadData_ok h5
      refine .inr ⟨bytes, ?_, fun h => absurd h h0⟩
      rw [if_neg h0, if_pos h6, ← (formatData_size h3).1, ← e.1, e7]
      rw [e1] at h7
      exact h7
    · rename_i h6
      obtain ⟨i2, h5, h6'⟩ := bind_ok h2
      have e := pure_ok h6'
      simp only [Prod.mk.injEq] at e
      obtain ⟨d, h7, e7⟩ := loadData_ok h5
      refine .inr ⟨data, ?_, fun h => absurd h h0⟩
      rw [if_neg h0, if_neg h6, ← e.1, e7]
      rw [e1] at h7
      exact h7

theorem Elsewhere.transfer (h : Elsewhere sp i j) {read : Bool} {n n' : Nat} {x : Option (List UInt8)} (hi : i.transfer sp c read = .ok (i', n))
    (hj : j.transfer sp { c with data := x } read = .ok (j', n')) : n' = n ∧ Elsewhere sp i' j' := by
  have e1 := transfer_beats h.shaped hi
  have e2 := transfer_beats h.shaped' hj
  refine ⟨e2.trans e1.symm, ?_⟩
  obtain ⟨⟨d, db, pr, pw, f, a1, _, _⟩, a2, a3, _⟩ := transfer_ok hi
  obtain ⟨⟨d', db', pr', pw', f', b1, _, _⟩, b2, b3, _⟩ := transfer_ok hj
  have ht : j'.dataBus.togglingRead = i'.dataBus.togglingRead ∧ j'.dataBus.togglingWrite = i'.dataBus.togglingWrite := by
    rcases transfer_loads h.shaped hi with ⟨k1, k2, k3⟩ | ⟨u, k1, k2⟩
    · rcases transfer_loads h.shaped' hj with ⟨l1, l2, l3⟩ | ⟨v, l1, l2⟩
      · rw [k3, l3]
        exact ⟨h.togglingRead, h.togglingWrite⟩
      · have := (l2 k1).symm.trans k2
        cases this
    · rcases transfer_loads h.shaped' hj with ⟨l1, l2, l3⟩ | ⟨v, l1, l2⟩
      · have := (k2 l1).symm.trans l2
        cases this
      · exact load_elsewhere (h.shaped'.mode.trans h.shaped.mode.symm) h.togglingRead h.togglingWrite k1 l1
  have s1 : Shaped sp i' := ⟨a3.trans h.shaped.width, a2.trans h.shaped.mode, by rw [a1]; exact h.shaped.ca⟩
  have s2 : Shaped sp j' := ⟨b3.trans h.shaped'.width, b2.trans h.shaped'.mode, by rw [b1]; exact h.shaped'.ca⟩
  exact ⟨by rw [a1, b1]; exact h.last, by rw [a1, b1]; exact h.ca, by rw [a1, b1]; exact h.ca6, by rw [a1, b1]; exact h.cmdBus,
    by rw [a1, b1]; exact h.readDQS, by rw [a1, b1]; exact h.writeDQS, by rw [a1, b1]; exact h.wck, by rw [a1, b1]; exact h.clock,
    by rw [a1, b1]; exact h.ranks, by rw [a1, b1]; exact h.enabled, ht.1, ht.2, s1, s2⟩

theorem Elsewhere.dqs (h : Elsewhere sp i j) {t s : Nat} {read : Bool} (hi : i.dqs t s read = .ok i') (hj : j.dqs t s read = .ok j') :
    Elsewhere sp i' j' := by
  obtain ⟨s1, s2, s3⟩ := h.shaped
  obtain ⟨s1', s2', s3'⟩ := h.shaped'
  unfold Interface.dqs at hi hj
  rw [h.readDQS, h.writeDQS] at hj
  cases read with
  | true =>
    rw [if_pos rfl] at hi hj
    obtain ⟨k, a1, a2⟩ := bind_ok hi
    obtain ⟨l, b1, b2⟩ := bind_ok hj
    obtain rfl := ok_inj (a1.symm.trans b1)
    rw [← pure_ok a2, ← pure_ok b2]
    exact { h with readDQS := rfl, writeDQS := rfl, shaped := ⟨s1, s2, s3⟩, shaped' := ⟨s1', s2', s3'⟩ }
  | false =>
    rw [if_neg (by decide)] at hi hj
    split at hi
    · rename_i hm
      rw [if_pos hm] at hj
      rw [← ok_inj hi, ← ok_inj hj]
      exact h
    · rename_i hm
      rw [if_neg hm] at hj
      obtain ⟨k, a1, a2⟩ := bind_ok hi
      obtain ⟨l, b1, b2⟩ := bind_ok hj
      obtain rfl := ok_inj (a1.symm.trans b1)
      rw [← pure_ok a2, ← pure_ok b2]
      exact { h with readDQS := rfl, writeDQS := rfl, shaped := ⟨s1, s2, s3⟩, shaped' := ⟨s1', s2', s3'⟩ }

theorem Elsewhere.runWck (h : Elsewhere sp i j) {t s : Nat} (hi : i.runWck sp t s = .ok i') (hj : j.runWck sp t s = .ok j') :
    Elsewhere sp i' j' := by
  obtain ⟨s1, s2, s3⟩ := h.shaped
  obtain ⟨s1', s2', s3'⟩ := h.shaped'
  unfold Interface.runWck at hi hj
  rw [h.wck] at hj
  split at hi
  · rename_i hm
    rw [if_pos hm] at hj
    obtain ⟨k, a1, a2⟩ := bind_ok hi
    obtain ⟨l, b1, b2⟩ := bind_ok hj
    obtain rfl := ok_inj (a1.symm.trans b1)
    rw [← pure_ok a2, ← pure_ok b2]
    exact { h with wck := rfl, shaped := ⟨s1, s2, s3⟩, shaped' := ⟨s1', s2', s3'⟩ }
  · rename_i hm
    rw [if_neg hm] at hj
    rw [← ok_inj hi, ← ok_inj hj]
    exact h

theorem Elsewhere.overrides (h : Elsewhere sp i j) (n : Nat) (read : Bool) : Elsewhere sp (i.overrides n read) (j.overrides n read) := by
  obtain ⟨s1, s2, s3⟩ := h.shaped
  obtain ⟨s1', s2', s3'⟩ := h.shaped'
  unfold Interface.overrides
  rw [h.ca, h.ca6]
  split
  · exact { h with ca := rfl, ca6 := rfl, shaped := ⟨s1, s2, s3⟩, shaped' := ⟨s1', s2', s3'⟩ }
  · exact { h with ca := rfl, ca6 := rfl, shaped := ⟨s1, s2, s3⟩, shaped' := ⟨s1', s2', s3'⟩ }

theorem Elsewhere.handleCommandBus (h : Elsewhere sp i j) {x : Option (List UInt8)} (hi : i.handleCommandBus sp c = .ok i')
    (hj : j.handleCommandBus sp { c with data := x } = .ok j') : Elsewhere sp i' j' := by
  obtain ⟨s1, s2, s3⟩ := h.shaped
  obtain ⟨s1', s2', s3'⟩ := h.shaped'
  obtain ⟨i1, w, n, b, a1, a2, a3⟩ := handleCommandBus_ok hi
  obtain ⟨j1, w', n', b', b1, b2, b3⟩ := handleCommandBus_ok hj
  rw [h.cmdBus] at b2
  have key : j1.ca = i1.ca ∧ j1.ca6 = i1.ca6 ∧ w' = w ∧ n' = n := by
    rcases encodeCommand_ok a1 with ⟨q, e1, k, e2, e3⟩ | ⟨q, e1, k, e2, e3⟩
    · rcases encodeCommand_ok b1 with ⟨q', f1, l, f2, f3⟩ | ⟨q', f1, l, f2, f3⟩
      · rw [h.ca6] at f2
        have := ok_inj (e2.symm.trans f2)
        simp only [Prod.mk.injEq] at this
        rw [e3, f3]
        exact ⟨h.ca, this.1.symm, this.2.symm, f1.trans e1.symm⟩
      · exact absurd q q'
    · rcases encodeCommand_ok b1 with ⟨q', f1, l, f2, f3⟩ | ⟨q', f1, l, f2, f3⟩
      · exact absurd q' q
      · rw [h.ca] at f2
        have := ok_inj (e2.symm.trans f2)
        simp only [Prod.mk.injEq] at this
        rw [e3, f3]
        exact ⟨this.1.symm, h.ca6, this.2.symm, f1.trans e1.symm⟩
  obtain ⟨k1, k2, rfl, rfl⟩ := key
  have hb := ok_inj (a2.symm.trans b2)
  have hw : b.width = caWidth std := (loadWord_keeps a2).1.trans s3
  rw [a3, b3]
  exact { h with ca := k1, ca6 := k2, cmdBus := hb.symm, shaped := ⟨s1, s2, hw⟩, shaped' := ⟨s1', s2', hb ▸ hw⟩ }

theorem Elsewhere.prePostamble (h : Elsewhere sp i j) {x : Option (List UInt8)} {n : Nat} {read : Bool} (hi : i.prePostamble sp c n read = .ok i')
    (hj : j.prePostamble sp { c with data := x } n read = .ok j') : Elsewhere sp i' j' := by
  obtain ⟨s1, s2, s3⟩ := h.shaped
  obtain ⟨s1', s2', s3'⟩ := h.shaped'
  rcases prePostamble_ok hi with ⟨q, e⟩ | ⟨q, r, r', e1, e2, e3⟩
  · rcases prePostamble_ok hj with ⟨q', f⟩ | ⟨q', _⟩
    · rw [e, f]; exact h
    · exact absurd q' q
  · rcases prePostamble_ok hj with ⟨q', f⟩ | ⟨q', l, l', f1, f2, f3⟩
    · exact absurd q q'
    · rw [h.ranks] at f1
      obtain rfl := Option.some.inj (e1.symm.trans f1)
      obtain rfl := ok_inj (e2.symm.trans f2)
      rw [e3, f3]
      exact { h with ranks := by rw [h.ranks], shaped := ⟨s1, s2, s3⟩, shaped' := ⟨s1', s2', s3'⟩ }

theorem Elsewhere.pins (h : Elsewhere sp i j) {d e : Dbi 8} {a b a' b' : List (Pin (pinSize std))} :
    Elsewhere sp { i with dbi := d, pinsRead := a, pinsWrite := b } { j with dbi := e, pinsRead := a', pinsWrite := b' } := by
  obtain ⟨s1, s2, s3⟩ := h.shaped
  obtain ⟨s1', s2', s3'⟩ := h.shaped'
  exact { h with shaped := ⟨s1, s2, s3⟩, shaped' := ⟨s1', s2', s3'⟩ }

theorem Elsewhere.doCommand (h : Elsewhere sp i j) {x : Option (List UInt8)} (hi : i.doCommand sp c = .ok i')
    (hj : j.doCommand sp { c with data := x } = .ok j') : Elsewhere sp i' j' := by
  obtain ⟨i1, a1, a2⟩ := ifCommand_ok hi
  obtain ⟨j1, b1, b2⟩ := ifCommand_ok hj
  have key : Elsewhere sp i1 j1 := by
    dsimp only at b1
    revert a1 b1
    cases ifAction sp.arch std c.type with
    | bus => exact fun a b => h.handleCommandBus a b
    | data read =>
      intro a b
      obtain ⟨k1, n, k2, k3, k4, p1, p2, p3, p4, p5⟩ := handleData_ok a
      obtain ⟨l1, n', l2, l3, l4, q1, q2, q3, q4, q5⟩ := handleData_ok b
      obtain ⟨rfl, h1⟩ := h.transfer p1 q1
      exact ((((h1.dqs p2 q2).runWck p3 q3).overrides n' read).handleCommandBus p4 q4).prePostamble p5 q5
    | finish =>
      intro a b
      obtain ⟨d, pr, pw, e, _, _⟩ := endOfSimulation_ok a
      obtain ⟨d', pr', pw', e', _, _⟩ := endOfSimulation_ok b
      rw [e, e']
      exact h.pins
    | skip =>
      intro a b
      rw [← ok_inj a, ← ok_inj b]
      exact h
    | _ => exact fun a _ => by cases a
  obtain ⟨s1, s2, s3⟩ := key.shaped
  obtain ⟨s1', s2', s3'⟩ := key.shaped'
  rw [a2, b2]
  exact { key with last := rfl, shaped := ⟨s1, s2, s3⟩, shaped' := ⟨s1', s2', s3'⟩ }

theorem bare_data {c c' : ICmd} (h : bare c' = bare c) : c' = { c with data := c'.data } := by
  cases c
  cases c'
  simp only [bare, ICmd.mk.injEq] at h ⊢
  simp_all

theorem Elsewhere.enable (h : Elsewhere sp i j) {t : Nat} (hi : i.enable sp t = .ok i') (hj : j.enable sp t = .ok j') : Elsewhere sp i' j' := by
  obtain ⟨s1, s2, s3⟩ := h.shaped
  obtain ⟨s1', s2', s3'⟩ := h.shaped'
  unfold Interface.enable at hi hj
  rw [h.enabled, h.wck, h.clock] at hj
  split at hi
  · rename_i q
    rw [if_pos q] at hj
    rw [← ok_inj hi, ← ok_inj hj]
    exact h
  · rename_i q
    rw [if_neg q] at hj
    dsimp only at hi hj
    split at hi
    all_goals
      rename_i hw
      first | rw [if_pos hw] at hj | rw [if_neg hw] at hj
      obtain ⟨w, a1, hi⟩ := bind_ok hi
      obtain ⟨k, a2, hi⟩ := bind_ok hi
      obtain ⟨w', b1, hj⟩ := bind_ok hj
      obtain ⟨k', b2, hj⟩ := bind_ok hj
      obtain rfl := ok_inj (a1.symm.trans b1)
      obtain rfl := ok_inj (a2.symm.trans b2)
      rw [← pure_ok hi, ← pure_ok hj]
      exact { h with wck := rfl, clock := rfl, last := rfl, enabled := rfl, shaped := ⟨s1, s2, s3⟩, shaped' := ⟨s1', s2', s3'⟩ }

theorem Elsewhere.disable (h : Elsewhere sp i j) {t : Nat} (hi : i.disable sp t = .ok i') (hj : j.disable sp t = .ok j') : Elsewhere sp i' j' := by
  obtain ⟨s1, s2, s3⟩ := h.shaped
  obtain ⟨s1', s2', s3'⟩ := h.shaped'
  unfold Interface.disable at hi hj
  rw [h.enabled, h.wck, h.clock] at hj
  split at hi
  · rename_i q
    rw [if_pos q] at hj
    rw [← ok_inj hi, ← ok_inj hj]
    exact h
  · rename_i q
    rw [if_neg q] at hj
    dsimp only at hi hj
    split at hi
    all_goals
      rename_i hw
      first | rw [if_pos hw] at hj | rw [if_neg hw] at hj
      obtain ⟨w, a1, hi⟩ := bind_ok hi
      obtain ⟨k, a2, hi⟩ := bind_ok hi
      obtain ⟨w', b1, hj⟩ := bind_ok hj
      obtain ⟨k', b2, hj⟩ := bind_ok hj
      obtain rfl := ok_inj (a1.symm.trans b1)
      obtain rfl := ok_inj (a2.symm.trans b2)
      rw [← pure_ok hi, ← pure_ok hj]
      exact { h with wck := rfl, clock := rfl, last := rfl, enabled := rfl, shaped := ⟨s1, s2, s3⟩, shaped' := ⟨s1', s2', s3'⟩ }

theorem Elsewhere.parity (h : Elsewhere sp i j) {b : Bool} (hi : i.setParityCheckMode sp b = .ok i') (hj : j.setParityCheckMode sp b = .ok j') :
    Elsewhere sp i' j' := by
  obtain ⟨s1, s2, s3⟩ := h.shaped
  obtain ⟨s1', s2', s3'⟩ := h.shaped'
  unfold Interface.setParityCheckMode at hi hj
  rw [h.ca6] at hj
  split at hi
  · rename_i q
    rw [if_pos q] at hj
    rw [← ok_inj hi, ← ok_inj hj]
    exact { h with ca6 := rfl, shaped := ⟨s1, s2, s3⟩, shaped' := ⟨s1', s2', s3'⟩ }
  · cases hi

/-- Corresponding calls. -/
theorem Elsewhere.step (h : Elsewhere sp i j) {op op' o : IfOp} (h1 : opOutline op = some o) (h2 : opOutline op' = some o)
    (hi : i.step sp op = .ok i') (hj : j.step sp op' = .ok j') : Elsewhere sp i' j' := by
  cases op with
  | cmd c =>
    cases Option.some.inj h1
    cases op' with
    | cmd c' =>
      have hb := bare_data (IfOp.cmd.inj (Option.some.inj h2))
      rw [hb] at hj
      exact h.doCommand hi hj
    | _ => cases h2
  | dbi e => cases h1
  | metaData a b => cases h1
  | parity b =>
    cases Option.some.inj h1
    cases op' with
    | parity b' => cases Option.some.inj h2; exact h.parity hi hj
    | _ => cases h2
  | enable t =>
    cases Option.some.inj h1
    cases op' with
    | enable t' => cases Option.some.inj h2; exact h.enable hi hj
    | _ => cases h2
  | disable t =>
    cases Option.some.inj h1
    cases op' with
    | disable t' => cases Option.some.inj h2; exact h.disable hi hj
    | _ => cases h2

/-- A call that only switches. -/
theorem Elsewhere.left (h : Elsewhere sp i j) {op : IfOp} (h1 : opOutline op = none) (hi : i.step sp op = .ok i') : Elsewhere sp i' j := by
  obtain ⟨s1, s2, s3⟩ := h.shaped
  cases op with
  | dbi e => rw [← ok_inj hi]; exact { h with shaped := ⟨s1, s2, s3⟩ }
  | metaData a b => rw [← ok_inj hi]; exact { h with shaped := ⟨s1, s2, s3⟩ }
  | _ => cases h1

theorem Elsewhere.right (h : Elsewhere sp i j) {op : IfOp} (h1 : opOutline op = none) (hj : j.step sp op = .ok j') : Elsewhere sp i j' := by
  obtain ⟨s1, s2, s3⟩ := h.shaped'
  cases op with
  | dbi e => rw [← ok_inj hj]; exact { h with shaped' := ⟨s1, s2, s3⟩ }
  | metaData a b => rw [← ok_inj hj]; exact { h with shaped' := ⟨s1, s2, s3⟩ }
  | _ => cases h1

theorem Elsewhere.rights : ∀ {ops : List IfOp} {j j' : Interface std N}, Elsewhere sp i j → ops.filterMap opOutline = [] → j.run sp ops = .ok j' →
    Elsewhere sp i j'
  | [], _, _, h, _, hr => by rw [← ok_inj hr]; exact h
  | op :: ops, j, j', h, ho, hr => by
    obtain ⟨k, k1, k2⟩ := Interface.run_cons hr
    cases hop : opOutline op with
    | some o => rw [List.filterMap_cons_some hop] at ho; cases ho
    | none =>
      rw [List.filterMap_cons_none hop] at ho
      exact rights (h.right hop k1) ho k2

/-- Whole sessions. -/
theorem Elsewhere.run : ∀ {ops ops' : List IfOp} {i i' j j' : Interface std N}, Elsewhere sp i j → ops'.filterMap opOutline = ops.filterMap opOutline →
    i.run sp ops = .ok i' → j.run sp ops' = .ok j' → Elsewhere sp i' j'
  | [], ops', i, i', j, j', h, ho, hi, hj => by
    rw [← ok_inj hi]
    exact h.rights ho hj
  | op :: ops, ops', i, i', j, j', h, ho, hi, hj => by
    obtain ⟨k, k1, k2⟩ := Interface.run_cons hi
    cases hop : opOutline op with
    | none =>
      rw [List.filterMap_cons_none hop] at ho
      exact run (h.left hop k1) ho k2 hj
    | some o =>
      rw [List.filterMap_cons_some hop] at ho
      obtain ⟨l, op', r, rfl, h1, h2, h3⟩ := List.filterMap_eq_cons_iff.1 ho
      rw [Interface.run_append] at hj
      obtain ⟨m, m1, m2⟩ := bind_ok hj
      obtain ⟨q, q1, q2⟩ := Interface.run_cons m2
      have hm := h.rights (List.filterMap_eq_nil_iff.2 h1) m1
      exact run (hm.step hop h2 k1 q1) h3 k2 q2

/-- The figures. -/
theorem Elsewhere.figures (h : Elsewhere sp i j) {t : Nat} {s x y : SimStats} (hx : i.getWindowStats sp t s = .ok x)
    (hy : j.getWindowStats sp t s = .ok y) : otherFigures y = otherFigures x := by
  unfold Interface.getWindowStats DataBus.getStats at hx hy
  rw [h.cmdBus, h.togglingRead, h.togglingWrite, h.clock, h.wck, h.readDQS, h.writeDQS, h.ranks] at hy
  obtain ⟨c, a1, hx⟩ := bind_ok hx
  obtain ⟨d, a2, hx⟩ := bind_ok hx
  obtain ⟨_, _, hx⟩ := bind_ok hx
  obtain ⟨_, _, hx⟩ := bind_ok hx
  obtain ⟨c', b1, hy⟩ := bind_ok hy
  obtain ⟨d', b2, hy⟩ := bind_ok hy
  obtain ⟨_, _, hy⟩ := bind_ok hy
  obtain ⟨_, _, hy⟩ := bind_ok hy
  obtain rfl := ok_inj (a1.symm.trans b1)
  have hd : d'.togglingRead = d.togglingRead ∧ d'.togglingWrite = d.togglingWrite := by
    obtain ⟨_, _, a2⟩ := bind_ok a2
    obtain ⟨_, _, a2⟩ := bind_ok a2
    obtain ⟨p, a3, a2⟩ := bind_ok a2
    obtain ⟨q, a4, a2⟩ := bind_ok a2
    obtain ⟨_, _, b2⟩ := bind_ok b2
    obtain ⟨_, _, b2⟩ := bind_ok b2
    obtain ⟨p', b3, b2⟩ := bind_ok b2
    obtain ⟨q', b4, b2⟩ := bind_ok b2
    rw [← pure_ok a2, ← pure_ok b2]
    exact ⟨(ok_inj (a3.symm.trans b3)).symm, (ok_inj (a4.symm.trans b4)).symm⟩
  rw [← pure_ok hx, ← pure_ok hy]
  simp only [otherFigures, hd.1, hd.2]

end DRAMPower
