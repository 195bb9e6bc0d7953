import Verif.Lemmas.InversionPins

/-!
# The inversion pins during a trace
-/

namespace DRAMPower
open Spec

section
variable {M : Nat} {b b' : Bus M} {t n : Nat} {x : List UInt8}

/-- When the burst on a bus ends. -/
def Bus.busyTo (b : Bus M) : Nat := b.lastLoad + b.storage.count

/-- What an accepted load says about the bus. -/
theorem load_busy (h : b.load t x n = .ok b') : b'.datarate = b.datarate ∧ b'.width = b.width ∧ b.busyTo ≤ b'.busyTo ∧
    (b.enabled = true → b.busyTo ≤ t * b.datarate ∧ b'.busyTo = t * b.datarate + n / b.width) := by
  unfold Bus.load at h
  split at h
  · rename_i he
    cases h
    exact ⟨rfl, rfl, Nat.le_refl _, fun e => by rw [e] at he; cases he⟩
  split at h
  · cases h
  dsimp only at h
  split at h
  · cases h
  rename_i hge
  obtain ⟨b1, h1, h2⟩ := bind_ok h
  have e1 : b1.datarate = b.datarate ∧ b1.width = b.width := by
    unfold Bus.addPrevious at h1
    split at h1
    · cases h1
    obtain ⟨s, _, h1⟩ := bind_ok h1
    dsimp only at h1
    split at h1
    · obtain ⟨p, _, h1⟩ := bind_ok h1
      rw [← pure_ok h1]
      constructor <;> (dsimp only; split <;> rfl)
    · rw [← pure_ok h1]
      constructor <;> (dsimp only; split <;> rfl)
  obtain ⟨s, g1, g2⟩ := bind_ok h2
  have e2 : s.count = n / b.width := by
    unfold BusContainer.insertData at g1
    dsimp only at g1
    split at g1
    · cases g1
    split at g1
    · cases g1
    split at g1
    · cases g1
    cases g1
    dsimp only
    rw [e1.2]
  obtain ⟨w, g3, g4⟩ := bind_ok g2
  dsimp only at g4
  have e3 : b'.datarate = b.datarate ∧ b'.width = b.width ∧ b'.busyTo = t * b.datarate + n / b.width := by
    split at g4 <;> (cases g4; exact ⟨e1.1, e1.2, by unfold Bus.busyTo; dsimp only; rw [e2]⟩)
  have : b.busyTo = b.lastLoad + b.storage.count := rfl
  refine ⟨e3.1, e3.2.1, by omega, fun _ => ⟨by omega, e3.2.2⟩⟩

end

section
variable {std : Std} {N : Nat} {sp : IfSpec} {i i' : Interface std N} {m : Setting}

/-- The bus of a direction and its inversion pins after transfers. -/
structure Track (sp : IfSpec) (r : Bool) (L : List Marked) (ended : Bool) (i : Interface std N) : Prop where
  ok : DataOk i.dataBus
  rate : (i.dataBus.bus (dirOf r)).datarate = sp.dataRate
  width : (i.dataBus.bus (dirOf r)).width = sp.bitWidth * sp.devices
  pins : PinTrack std sp L ended (i.pinsOf r) (i.dbi.last r) (i.dataBus.bus (dirOf r)).busyTo

theorem busLoad_run {M : Nat} {b b' : Bus M} {same : Bool} {t n : Nat} {x : Option (List UInt8)} (h : b.run (busLoad same t n x) = .ok b') :
    b'.datarate = b.datarate ∧ b'.width = b.width ∧ b.busyTo ≤ b'.busyTo ∧
    (b.enabled = true → same = true → n ≠ 0 → x ≠ none → b.busyTo ≤ t * b.datarate ∧ b'.busyTo = t * b.datarate + n / b.width) := by
  cases x with
  | none => cases h; exact ⟨rfl, rfl, Nat.le_refl _, fun _ _ _ e => absurd rfl e⟩
  | some x =>
    simp only [busLoad] at h
    split at h
    · simp only [Bus.run, Bus.step] at h
      split at h
      · rename_i b1 h1
        cases h
        obtain ⟨k1, k2, k3, k4⟩ := load_busy h1
        exact ⟨k1, k2, k3, fun e _ _ _ => k4 e⟩
      · cases h
    · rename_i hc
      cases h
      exact ⟨rfl, rfl, Nat.le_refl _, fun _ e e' _ => absurd ⟨e, e'⟩ hc⟩

/-- The bus of a direction during a step. -/
theorem step_bus (hs : Shaped sp i) (hi : Set6 m i) (hok : DataOk i.dataBus) (r : Bool) {op : IfOp} (h : i.step sp op = .ok i') :
    DataOk i'.dataBus ∧ (i'.dataBus.bus (dirOf r)).datarate = (i.dataBus.bus (dirOf r)).datarate ∧
    (i'.dataBus.bus (dirOf r)).width = (i.dataBus.bus (dirOf r)).width ∧
    (i.dataBus.bus (dirOf r)).busyTo ≤ (i'.dataBus.bus (dirOf r)).busyTo ∧
    ∀ c x, op = .cmd c → direction c.type = some r → sp.toggling = none → c.nBits ≠ 0 → c.data = some x →
      (i.dataBus.bus (dirOf r)).busyTo ≤ c.t * (i.dataBus.bus (dirOf r)).datarate ∧
      (i'.dataBus.bus (dirOf r)).busyTo = c.t * (i.dataBus.bus (dirOf r)).datarate + dataBits std c / (i.dataBus.bus (dirOf r)).width := by
  have k := step_data hs hi h
  rcases k.sent with ⟨e, hnone⟩ | ⟨c, read, x, e, hdir, hrun, hcall⟩
  · rw [e]
    refine ⟨hok, rfl, rfl, Nat.le_refl _, fun c x ec hd _ h0 _ => ?_⟩
    exact absurd (hnone c ec (by rw [hd]; nofun)).1 h0
  · obtain ⟨d1, d2, d3⟩ := data_run _ hok hrun
    have hb := (d3 (dirOf r)).1
    cases hmode : i.dataBus.mode with
    | toggling =>
      rw [hmode] at hb
      have : busShare (dirOf r) .toggling [dataOp read c.t (callBits std sp c) x] = [] := by
        cases r <;> cases read <;> cases x <;> simp [busShare, busCall, dataOp, dirOf, transferOf]
      rw [this] at hb
      have hb : i.dataBus.bus (dirOf r) = i'.dataBus.bus (dirOf r) := ok_inj hb
      rw [← hb]
      refine ⟨d1, rfl, rfl, Nat.le_refl _, fun c' y _ _ ht => ?_⟩
      have := (mode_bus hs).2 ht
      rw [hmode] at this; cases this
    | bus =>
      rw [hmode, busShare_one] at hb
      obtain ⟨k1, k2, k3, k4⟩ := busLoad_run hb
      refine ⟨d1, k1, k2, k3, fun c' y ec hd ht h0 hy => ?_⟩
      rw [e] at ec
      cases ec
      have er : read = r := Option.some.inj (hdir.symm.trans hd)
      subst er
      have hcb : callBits std sp c = dataBits std c := if_neg h0
      rw [hcb] at k4
      have hpos : dataBits std c ≠ 0 := by
        unfold dataBits
        split <;> omega
      have hm : sp.mode = .bus := hs.mode.symm.trans hmode
      obtain ⟨bytes, hx, _⟩ := hcall.some hm h0 y hy
      have hen : (i.dataBus.bus (dirOf read)).enabled = true := by
        cases read
        · exact hok.bw.trans (by rw [hmode]; rfl)
        · exact hok.br.trans (by rw [hmode]; rfl)
      exact k4 hen (by cases read <;> rfl) hpos (by rw [hx]; nofun)

theorem pins_unchanged {P : Nat} {l l' : List (Pin P)} {t : Nat} (hlen : l'.length = l.length)
    (hp : ∀ (p : Nat) (q : Pin P), l[p]? = some q → ∃ q', l'[p]? = some q' ∧ q.burst t [] = .ok q') : l' = l := by
  refine List.ext_getElem? fun p => ?_
  rcases Nat.lt_or_ge p l.length with hlt | hge
  · obtain ⟨q', c1, c2⟩ := hp p _ (List.getElem?_eq_getElem hlt)
    have : q' = l[p] := (ok_inj c2).symm
    rw [c1, this, List.getElem?_eq_getElem hlt]
  · rw [List.getElem?_eq_none (by omega), List.getElem?_eq_none hge]

theorem reset_events (h6 : std ≠ .lpddr6) {d d' : Dbi 8} {t : Nat} {read : Bool} {ev : List DbiEvent} (h : d.reset (sp.dbi std) t read = .ok (d', ev)) :
    ∀ e ∈ ev, e.load = t ∧ e.read = read := by
  obtain ⟨_, _, _, _, _, k⟩ := reset_track h6 h
  rcases k with ⟨_, e⟩ | ⟨_, _, _, k4, _⟩
  · rw [e]; nofun
  · intro e he
    rw [k4] at he
    obtain ⟨c, _, e⟩ := List.mem_map.1 he
    rw [← e]; exact ⟨rfl, rfl⟩

/-- The events of a transfer, whatever was before. -/
theorem update_events (h6 : std ≠ .lpddr6) {d d' : Dbi 8} {t nBits : Nat} {read : Bool} {data out : List (BitVec 8)} {ev : List DbiEvent}
    (h : d.update (sp.dbi std) t nBits (some data) read = .ok (d', some out, ev)) :
    (∀ e ∈ ev, e.load = t ∧ e.read = read) ∧ d'.last (!read) = d.last (!read) := by
  obtain ⟨hcs, hcw, hcb, hwd⟩ := dbi_chunks (std := std) (sp := sp) h6
  obtain ⟨b⟩ := Dbi.update_ok h
  have hsub : (sp.dbi std).sub = 1 := if_neg h6
  have hinv := compute_inv (by omega) (Or.inl rfl) b.comp
  refine ⟨?_, ?_⟩
  · have hev := b.hev
    unfold DbiParams.deliver at hev
    rw [hcb, if_pos rfl] at hev
    rw [hev]
    intro e he
    rcases List.mem_append.1 he with he | he
    · exact reset_events h6 b.reset e he
    · rw [hinv.evs] at he
      obtain ⟨c, _, e⟩ := List.mem_map.1 he
      rw [← e]
      simp only [DbiParams.event, hcw, and_self]
  · rw [← (reset_track h6 b.reset).1]
    refine (congrArg (fun x : Dbi 8 => x.last (!read)) b.hd').trans ?_
    cases read <;> rfl

/-- The end of the simulation. -/
theorem PinTrack.finish {r : Bool} {L : List Marked} {ended : Bool} {busy t : Nat} {d : Dbi 8} {ev : List DbiEvent} {i1 : Interface std N}
    (h : PinTrack std sp L ended (i.pinsOf r) (i.dbi.last r) busy) (h6 : std ≠ .lpddr6) (hr : i.dbi.resetBoth (sp.dbi std) t = .ok (d, ev))
    (hp : ev.foldlM Interface.pinChange { i with dbi := d } = .ok i1) :
    ∃ ended', PinTrack std sp L ended' (i1.pinsOf r) (i1.dbi.last r) busy := by
  unfold Dbi.resetBoth at hr
  obtain ⟨⟨d1, ev1⟩, g1, g2⟩ := bind_ok hr
  obtain ⟨⟨d2, ev2⟩, g3, g4⟩ := bind_ok g2
  have g4 := pure_ok g4
  simp only [Prod.mk.injEq] at g4
  obtain ⟨e1, e2⟩ := g4
  subst e1 e2
  have v1 := reset_events h6 g1
  have v2 := reset_events h6 g3
  have hload : ∀ e ∈ ev1 ++ ev2, e.load = t := by
    intro e he
    rcases List.mem_append.1 he with he | he
    · exact (v1 e he).1
    · exact (v2 e he).1
  obtain ⟨p1, p2, _, p4⟩ := pinChanges_pins r hload hp
  have hd : i1.dbi = d2 := p2
  rw [hd]
  have p4 : ∀ (p : Nat) (q : Pin (pinSize std)), (i.pinsOf r)[p]? = some q → ∃ q', (i1.pinsOf r)[p]? = some q' ∧
      q.burst t (eventBits std r p ev1 ++ eventBits std r p ev2) = .ok q' := by
    intro p q hq
    rw [← eventBits_append]
    exact p4 p q hq
  have t1 := reset_track h6 g1
  have t2 := reset_track h6 g3
  cases r with
  | true =>
    have hl : d2.last true = d1.last true := t2.1
    rw [hl]
    refine h.reset h6 rfl g1 p1 fun p q hq => ?_
    obtain ⟨q', a1, a2⟩ := p4 p q hq
    have : eventBits std true p ev2 = [] := eventBits_other (fun e he => (v2 e he).2) p
    rw [this, List.append_nil] at a2
    exact ⟨q', a1, a2⟩
  | false =>
    have hl : d1.last false = i.dbi.last false := t1.1
    refine h.reset h6 hl g3 p1 fun p q hq => ?_
    obtain ⟨q', a1, a2⟩ := p4 p q hq
    have : eventBits std false p ev1 = [] := eventBits_other (fun e he => (v1 e he).2) p
    rw [this, List.nil_append] at a2
    exact ⟨q', a1, a2⟩

theorem width_bytes (hw : 8 * bytesOf sp = sp.devices * sp.bitWidth) {n : Nat} (hn : n % (sp.bitWidth * sp.devices) = 0) :
    n / 8 = n / (sp.bitWidth * sp.devices) * bytesOf sp := by
  rw [Nat.mul_comm sp.bitWidth, ← hw] at hn ⊢
  have := Nat.div_add_mod n (8 * bytesOf sp)
  rw [hn, Nat.add_zero, Nat.mul_assoc] at this
  have h8 : n / 8 = bytesOf sp * (n / (8 * bytesOf sp)) := by
    conv => lhs; rw [← this]
    rw [Nat.mul_div_cancel_left _ (by decide)]
  rw [h8, Nat.mul_comm]

theorem step_track (h5 : std ≠ .ddr5) (h6 : std ≠ .lpddr6) (hw : 8 * bytesOf sp = sp.devices * sp.bitWidth) (hn : 0 < bytesOf sp)
    (hs : Shaped sp i) (hi : Set6 m i) {r : Bool} {L rest : List Marked} {ended : Bool} (hT : Track sp r L ended i) {op : IfOp}
    (hset : Settling (bytesOf sp) (L ++ (markedOf std sp r m op).toList ++ rest))
    (hwhole : ∀ c, op = .cmd c → c.nBits % (sp.bitWidth * sp.devices) = 0)
    (hend : ended = true → ∀ c, op = .cmd c → direction c.type = none) (h : i.step sp op = .ok i') :
    ∃ ended', Track sp r (L ++ (markedOf std sp r m op).toList) ended' i' ∧
      (ended' = true → ended = true ∨ ∃ c, op = .cmd c ∧ c.type = .END_OF_SIMULATION) := by
  obtain ⟨b1, b2, b3, b4, b5⟩ := step_bus hs hi hT.ok r h
  have k := step_pins h5 hs hi h
  have keep : ∀ {e : Bool}, PinTrack std sp (L ++ (markedOf std sp r m op).toList) e (i'.pinsOf r) (i'.dbi.last r) (i'.dataBus.bus (dirOf r)).busyTo →
      Track sp r (L ++ (markedOf std sp r m op).toList) e i' := fun h => ⟨b1, b2.trans hT.rate, b3.trans hT.width, h⟩
  cases k with
  | same k1 k2 =>
    refine ⟨ended, keep ?_, Or.inl⟩
    rw [k2 r, k1.of, k1.last]
    exact (List.append_nil L).symm ▸ hT.pins.later b4
  | @finish c d ev i1 _ k1 k2 k3 k4 =>
    have hnone : markedOf std sp r m (.cmd c) = none := markedOf_other (by rw [k1]; nofun)
    obtain ⟨ended', q⟩ := hT.pins.finish h6 k2 k3
    refine ⟨ended', keep ?_, fun _ => Or.inr ⟨c, rfl, k1⟩⟩
    rw [hnone, k4.of, k4.last]
    exact (List.append_nil L).symm ▸ q.later b4
  | @burst c read _ hd k =>
    have hne : ended = false := by
      cases ended with
      | false => rfl
      | true =>
        have := hend rfl c rfl
        rw [hd] at this
        cases this
    subst hne
    obtain ⟨x, hx, d, out, ev, i1, u1, u2, u3⟩ := k.data
    by_cases hr : read = r
    · subst hr
      obtain ⟨c1, c2⟩ := b5 c x rfl hd k.mode k.some hx
      rw [hT.rate, hT.width] at c2
      rw [hT.rate] at c1
      have hbits : dataBits std c = c.nBits := if_neg h6
      rw [hbits] at c2
      have hwh := hwhole c rfl
      have hchunks := width_bytes hw hwh
      have hpos : 0 < c.nBits / (sp.bitWidth * sp.devices) := by
        have := Nat.div_add_mod c.nBits (sp.bitWidth * sp.devices)
        rw [hwh] at this
        rcases Nat.eq_zero_or_pos (c.nBits / (sp.bitWidth * sp.devices)) with e | e
        · rw [e] at this; exact absurd this.symm k.some
        · exact e
      have hpins : inversionPins std sp = bytesOf sp := if_neg (by simp [h5, h6])
      have hbeats : dataBeats std sp c = c.nBits / (sp.bitWidth * sp.devices) := by rw [dataBeats_eq k.some, hbits]
      have hmark : markedOf std sp read m (.cmd c) = some ⟨c.t * sp.dataRate, c.nBits / (sp.bitWidth * sp.devices),
          fun k p => flagged std m x (k * bytesOf sp + p)⟩ := by
        simp only [markedOf, hx]
        rw [if_pos ⟨hd, k.inverting, k.mode, k.some⟩, hbeats, hpins]
      rw [hmark] at hset keep ⊢
      rw [Option.toList_some] at hset keep ⊢
      have hfree := hT.pins.free hn (b := ⟨c.t * sp.dataRate, c.nBits / (sp.bitWidth * sp.devices), fun k p => flagged std m x (k * bytesOf sp + p)⟩)
        (rest := rest) (by rw [List.append_assoc] at hset; exact hset)
      obtain ⟨t1, t2, t3, t4, t5, t6⟩ := update_track k.inverting h5 h6 hfree u1
      have hload : ∀ e ∈ ev, e.load = c.t * sp.dataRate := by
        intro e he
        have : (e.load, e.idx, e.inverted, e.read) ∈ ev.map (fun e => (e.load, e.idx, e.inverted, e.read)) := List.mem_map_of_mem he
        rw [t1] at this
        obtain ⟨_, _, e⟩ := List.mem_map.1 this
        exact (congrArg Prod.fst e).symm
      obtain ⟨p1, p2, p3, p4⟩ := pinChanges_pins read hload u2
      have hdbi : i1.dbi = d := p2
      refine ⟨false, keep ?_, nofun⟩
      rw [c2, u3.of, u3.last, hdbi]
      rw [hchunks] at t1
      have hwd : sp.devices * sp.bitWidth = sp.bitWidth * sp.devices := Nat.mul_comm _ _
      refine hT.pins.burst (b := ⟨c.t * sp.dataRate, c.nBits / (sp.bitWidth * sp.devices), fun k p => flagged std m x (k * bytesOf sp + p)⟩)
        hpos c1 p1 (fun p hp q hq => ?_) t3 (by rw [t4, hwd]; rfl) (t5.trans hchunks) (fun p hp => ?_)
      · obtain ⟨q', a1, a2⟩ := p4 p q hq
        rw [burst_bits hp t1] at a2
        exact ⟨q', a1, a2⟩
      · refine t6 _ ?_
        rw [hchunks]
        dsimp only
        obtain ⟨z, hz⟩ : ∃ z, c.nBits / (sp.bitWidth * sp.devices) = z + 1 := ⟨_, (Nat.succ_pred_eq_of_pos hpos).symm⟩
        rw [hz, Nat.add_sub_cancel, Nat.add_mul]
        omega
    · have hr' : (!read) = r := by cases r <;> cases read <;> simp_all
      have hmark : markedOf std sp r m (.cmd c) = none := markedOf_other (by rw [hd]; intro e; exact hr (Option.some.inj e))
      refine ⟨false, keep ?_, nofun⟩
      obtain ⟨v1, v2⟩ := update_events h6 u1
      rw [hr'] at v2
      obtain ⟨p1, p2, _, p4⟩ := pinChanges_pins r (fun e he => (v1 e he).1) u2
      have hdbi : i1.dbi = d := p2
      have hpins : i1.pinsOf r = i.pinsOf r := by
        refine pins_unchanged (t := c.t * sp.dataRate) p1 fun p q hq => ?_
        obtain ⟨q', a1, a2⟩ := p4 p q hq
        have : eventBits std r p ev = [] := hr' ▸ eventBits_other (fun e he => (v1 e he).2) p
        rw [this] at a2
        exact ⟨q', a1, a2⟩
      rw [hmark, u3.of, u3.last, hdbi, hpins, v2]
      exact (List.append_nil L).symm ▸ hT.pins.later b4

theorem run_track (h5 : std ≠ .ddr5) (h6 : std ≠ .lpddr6) (hw : 8 * bytesOf sp = sp.devices * sp.bitWidth) (hn : 0 < bytesOf sp) (r : Bool) :
    ∀ (ops : List IfOp) {i i' : Interface std N} {m : Setting} {L : List Marked} {ended : Bool}, Shaped sp i → Set6 m i → Track sp r L ended i →
      Settling (bytesOf sp) (L ++ marked std sp r m ops) → WholeBeats sp ops → Ends ops →
      (ended = true → ∀ c, .cmd c ∈ ops → direction c.type = none) → i.run sp ops = .ok i' →
      ∃ ended', Track sp r (L ++ marked std sp r m ops) ended' i' := by
  intro ops
  induction ops with
  | nil =>
    intro i i' m L ended _ _ hT _ _ _ _ h
    cases h
    exact ⟨ended, (List.append_nil L).symm ▸ hT⟩
  | cons op ops ih =>
    intro i i' m L ended hs hi hT hset hwh hends hend h
    obtain ⟨i1, h1, h2⟩ := Interface.run_cons h
    have e : L ++ marked std sp r m (op :: ops) = L ++ (markedOf std sp r m op).toList ++ marked std sp r (m.after op) ops := by
      rw [marked, List.append_assoc]
    rw [e] at hset ⊢
    obtain ⟨ended', hT', hwhen⟩ := step_track h5 h6 hw hn hs hi hT hset (fun c e => hwh c (by simp [e])) (fun e c ec => hend e c (by simp [ec])) h1
    refine ih (step_clocks hs h1).shaped (step_data hs hi h1).set hT' hset (fun c hc => hwh c (List.mem_cons_of_mem _ hc))
      (List.pairwise_cons.1 hends).2 (fun e c hc => ?_) h2
    rcases hwhen e with e | e
    · exact hend e c (List.mem_cons_of_mem _ hc)
    · exact (List.pairwise_cons.1 hends).1 _ hc e c rfl

end

/-! ## The waveform of a pin -/

section
variable {P : Nat}

theorem pin_set_last {p q : Pin P} {t : Nat} {s : PinState} (h : p.set t s 1 = .ok q) : q.lastSet = t := by
  unfold Pin.set at h
  obtain ⟨x, _, h⟩ := bind_ok h
  obtain ⟨d, _, h⟩ := bind_ok h
  rw [← pure_ok h]
  exact Nat.mul_one t

theorem pin_burst_last : ∀ {bits : List PinState} {p q : Pin P} {t : Nat}, bits ≠ [] → p.burst t bits = .ok q → q.lastSet = t
  | [], _, _, _, h, _ => absurd rfl h
  | b :: bits, p, q, t, _, h => by
    unfold Pin.burst at h
    rw [List.foldlM_cons] at h
    obtain ⟨p1, h1, h2⟩ := bind_ok h
    cases bits with
    | nil => rw [← pure_ok h2]; exact pin_set_last h1
    | cons b' bits => exact pin_burst_last (by simp) h2

theorem pinBursts_split : ∀ {l : List (Nat × List PinState)} {free : Nat} {x : Nat × List PinState}, PinBursts P free (l ++ [x]) →
    PinBursts P free l ∧ x.2 ≠ [] ∧ (∀ y ∈ l, y.1 + y.2.length ≤ x.1) ∧ free ≤ x.1
  | [], free, (t, bits), h => ⟨trivial, h.2.1, nofun, h.1⟩
  | (u, bs) :: l, free, x, h => by
    obtain ⟨h1, h2, h3, h4, h5⟩ := h
    obtain ⟨k1, k2, k3, k4⟩ := pinBursts_split h5
    refine ⟨⟨h1, h2, h3, h4, k1⟩, k2, fun y hy => ?_, by omega⟩
    rcases List.mem_cons.1 hy with e | hy
    · subst e; exact k4
    · exact k3 y hy

theorem pin_run_last {l : List (Nat × List PinState)} {p q : Pin P} {free : Nat} (hb : PinBursts P free l) (h : p.run l = .ok q) :
    ∀ b ∈ l, b.1 ≤ q.lastSet := by
  rcases List.eq_nil_or_concat l with e | ⟨l', x, e0⟩
  · subst e; nofun
  have e : l = l' ++ [x] := by rw [e0]; simp
  clear e0
  subst e
  obtain ⟨_, k2, k3, _⟩ := pinBursts_split hb
  unfold Pin.run at h
  rw [List.foldlM_append] at h
  obtain ⟨p1, _, h2⟩ := bind_ok h
  rw [List.foldlM_cons] at h2
  obtain ⟨p2, h3, h4⟩ := bind_ok h2
  have e := pin_burst_last k2 h3
  rw [← pure_ok h4, e]
  intro b hb
  rcases List.mem_append.1 hb with hb | hb
  · have := k3 b hb
    omega
  · rw [List.mem_singleton.1 hb]; exact Nat.le_refl _

theorem after_append (idle : PinState) (l : List (Nat × List PinState)) (x : Nat × List PinState) :
    PinLine.after idle (l ++ [x]) = (PinLine.after idle l).burst x.1 x.2 := by
  unfold PinLine.after
  rw [List.foldl_append]
  rfl

end

section
variable {std : Std}

theorem markLine_append (l : List Marked) (b : Marked) (p k : Nat) : markLine std (l ++ [b]) p k =
    if decide (b.start ≤ k) && decide (k < b.stop) && b.flag (k - b.start) p then markLevel std else markLine std l p k := by
  unfold markLine
  rw [List.any_append, List.any_cons, List.any_nil, Bool.or_false]
  cases h : (l.any fun b => decide (b.start ≤ k) && decide (k < b.stop) && b.flag (k - b.start) p) <;>
    cases h' : (decide (b.start ≤ k) && decide (k < b.stop) && b.flag (k - b.start) p) <;> rfl

theorem markLine_after {l : List Marked} {p k : Nat} (h : ∀ b ∈ l, b.stop ≤ k) : markLine std l p k = plainLevel std := by
  unfold markLine
  refine if_neg ?_
  rw [Bool.not_eq_true, List.any_eq_false]
  intro b hb
  have := h b hb
  have : ¬ k < b.stop := by omega
  simp [this]

/-- The waveform of the bursts is that of the specification. -/
theorem after_mark (p : Nat) : ∀ (n : Nat) {l : List Marked}, l.length = n → PinBursts (pinSize std) 0 (l.map (markBits std p)) →
    PinLine.after (plainLevel std) (l.map (markBits std p)) = markLine std l p := by
  intro n
  induction n with
  | zero =>
    intro l hl _
    rw [List.eq_nil_of_length_eq_zero hl]
    rfl
  | succ n ih =>
    intro l hl h
    rcases List.eq_nil_or_concat l with e | ⟨l', b, e0⟩
    · subst e; cases hl
    have e : l = l' ++ [b] := by rw [e0]; simp
    clear e0
    subst e
    rw [List.map_append, List.map_cons, List.map_nil] at h ⊢
    obtain ⟨k1, _, k3, _⟩ := pinBursts_split h
    rw [after_append, ih (by simp at hl; exact hl) k1]
    funext k
    rw [markLine_append]
    unfold PinLine.burst markBits
    dsimp only
    rw [List.length_map, List.length_range]
    by_cases hk : b.start ≤ k ∧ k < b.start + b.beats
    · rw [if_pos hk]
      have hin : k - b.start < b.beats := by omega
      have hstop : k < b.stop := hk.2
      have hget : ((List.range b.beats).map fun k => if b.flag k p then markLevel std else plainLevel std).getD (k - b.start) .L =
          if b.flag (k - b.start) p then markLevel std else plainLevel std := by
        rw [List.getD_eq_getElem?_getD, List.getElem?_map, List.getElem?_range hin]
        rfl
      rw [hget, decide_eq_true hk.1, decide_eq_true hstop, Bool.true_and, Bool.true_and]
      split
      · rfl
      · refine (markLine_after fun a ha => ?_).symm
        have := k3 _ (List.mem_map_of_mem (f := markBits std p) ha)
        unfold markBits at this
        dsimp only at this
        rw [List.length_map, List.length_range] at this
        unfold Marked.stop
        omega
    · rw [if_neg hk]
      refine (if_neg ?_).symm
      intro hc
      simp only [Bool.and_eq_true, decide_eq_true_eq] at hc
      exact hk hc.1

theorem after_tail {l : List Marked} {p : Nat} {tail : List (Nat × List PinState)} (h : PinBursts (pinSize std) 0 (l.map (markBits std p) ++ tail))
    (ht : tail = [] ∨ ∃ T, tail = [(T, [plainLevel std])] ∧ ∀ b ∈ l, b.stop ≤ T) :
    PinLine.after (plainLevel std) (l.map (markBits std p) ++ tail) = markLine std l p := by
  rcases ht with e | ⟨T, e, hT⟩
  · subst e
    rw [List.append_nil] at h ⊢
    exact after_mark p _ rfl h
  · subst e
    obtain ⟨k1, _⟩ := pinBursts_split h
    rw [after_append, after_mark p _ rfl k1]
    funext k
    unfold PinLine.burst
    dsimp only
    split
    · rename_i hk
      have : k = T := by rw [List.length_singleton] at hk; omega
      subst this
      rw [Nat.sub_self, markLine_after hT]
      rfl
    · rfl

theorem pinStats_sum {P : Nat} {t : Nat} : ∀ {pins : List (Pin P)} {f : Nat → BusStats} {s s' : BusStats},
    (∀ (p : Nat) (q : Pin P) (x : BusStats), pins[p]? = some q → q.getStats t 2 = .ok x → x = f p) → Interface.pinStats pins t s = .ok s' →
    s' = (List.range pins.length).foldl (fun s p => s + f p) s
  | [], _, _, _, _, h => (pure_ok h).symm
  | q :: pins, f, s, s', hf, h => by
    unfold Interface.pinStats at h
    rw [List.foldlM_cons] at h
    obtain ⟨s1, h1, h2⟩ := bind_ok h
    obtain ⟨x, h3, h4⟩ := bind_ok h1
    have e := hf 0 q x rfl h3
    have := pinStats_sum (f := fun p => f (p + 1)) (fun p q x hq hx => hf (p + 1) q x hq hx) h2
    rw [this, List.length_cons, List.range_succ_eq_map, List.foldl_cons, List.foldl_map, ← pure_ok h4, e]

/-- The figures of the pins of a direction. -/
theorem PinTrack.stats {sp : IfSpec} {L : List Marked} {ended : Bool} {pins : List (Pin (pinSize std))} {l : LastBurst 8} {busy t : Nat} {s s' : BusStats}
    (h5 : std ≠ .ddr5) (h6 : std ≠ .lpddr6) (h : PinTrack std sp L ended pins l busy) (hs : Interface.pinStats pins t s = .ok s') :
    s' = markStats std sp L (t * 2) s := by
  have hpins : inversionPins std sp = bytesOf sp := if_neg (by simp [h5, h6])
  unfold markStats
  rw [hpins, ← h.length]
  refine pinStats_sum (fun p q x hq hx => ?_) hs
  have hp : p < bytesOf sp := by
    rw [← h.length]
    exact (List.getElem?_eq_some_iff.1 hq).1
  obtain ⟨q', tail, a1, a2, a3, a4⟩ := h.hist p hp
  have e : q' = q := Option.some.inj (a1.symm.trans hq)
  subst e
  obtain ⟨q2, c1, c2⟩ := C20_partial (pinSize std) (plainLevel std) (plainLevel std) _ a3
  have e : q2 = q' := ok_inj (c1.symm.trans a2)
  subst e
  have hlast := pin_run_last a3 a2
  have hlate : q2.lastSet ≤ t * 2 := by
    unfold Pin.getStats at hx
    dsimp only at hx
    split at hx
    · cases hx
    · omega
  have := c2 t 2 fun b hb => Nat.le_trans (hlast b hb) hlate
  rw [after_tail a3 (by rcases a4 with a4 | ⟨_, a4⟩; exact Or.inl a4; exact Or.inr a4)] at this
  exact ok_inj (hx.symm.trans this)

end

end DRAMPower
