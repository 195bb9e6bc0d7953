import Verif.Spec.SequenceWires
import Verif.Props.C70
import Verif.Props.C74

/-! # Waveforms of two traces one after the other -/

namespace DRAMPower
open Spec

variable {std : Std} {sp : IfSpec} {T t : Nat}

/-! ## Figures -/

theorem busStats_ext {a b : BusStats} (h1 : a.ones = b.ones) (h2 : a.zeroes = b.zeroes) (h3 : a.bitChanges = b.bitChanges)
    (h4 : a.onesToZeroes = b.onesToZeroes) (h5 : a.zeroesToOnes = b.zeroesToOnes) : a = b := by
  cases a; cases b; simp_all

theorem figures_assoc (a b c : BusStats) : a + b + c = a + (b + c) := by
  refine busStats_ext ?_ ?_ ?_ ?_ ?_ <;> exact Nat.add_assoc _ _ _

theorem figures_times (k : Nat) (a b : BusStats) : k * (a + b) = k * a + k * b := by
  refine busStats_ext ?_ ?_ ?_ ?_ ?_ <;> exact Nat.add_mul _ _ _

/-- Two waveforms one after the other. -/
theorem line_join {width n : Nat} {idle : Levels} {a b l : Line} (h1 : ∀ k < n, l k = a k) (h2 : ∀ k, l (n + k) = b k)
    (h0 : ∀ k, n = k + 1 → (a k).getD idle = idle) (m : Nat) :
    Line.stats width idle l (n + m) = Line.stats width idle a n + Line.stats width idle b m := by
  induction m with
  | zero =>
    have : ∀ k ≤ n, Line.stats width idle l k = Line.stats width idle a k := by
      intro k
      induction k with
      | zero => intro _; rfl
      | succ k ih =>
        intro hk
        unfold Line.stats
        rw [ih (by omega)]
        congr 1
        unfold Line.at
        rw [h1 k (by omega)]
        have : l.before idle k = a.before idle k := by
          cases k with
          | zero => rfl
          | succ j => unfold Line.before; dsimp only; rw [h1 j (by omega)]
        rw [this]
    rw [Nat.add_zero, this n (Nat.le_refl _)]
    exact (add_none _).symm
  | succ m ih =>
    show Line.stats width idle l (n + m) + Line.at width idle l (n + m) =
      Line.stats width idle a n + (Line.stats width idle b m + Line.at width idle b m)
    rw [ih, figures_assoc]
    congr 2
    unfold Line.at
    rw [h2 m]
    have : l.before idle (n + m) = b.before idle m := by
      cases m with
      | zero =>
        rw [Nat.add_zero]
        cases n with
        | zero => rfl
        | succ k =>
          show (l k).getD idle = idle
          rw [h1 k (by omega)]
          exact h0 k rfl
      | succ j =>
        show (l (n + j)).getD idle = (b j).getD idle
        rw [h2 j]
    rw [this]

theorem halfCycles_join {n : Nat} (h : n % 2 = 0) (m : Nat) : halfCycles (n + m) = halfCycles n + halfCycles m := by
  induction m with
  | zero => exact (add_none _).symm
  | succ m ih =>
    show halfCycles (n + m) + (if (n + m) % 2 = 0 then _ else _) = halfCycles n + (halfCycles m + if m % 2 = 0 then _ else _)
    have : (n + m) % 2 = m % 2 := by omega
    rw [ih, figures_assoc, this]

theorem strobe_append (rate : Nat) (a b : List (Nat × Nat)) (t : Nat) : strobe rate (a ++ b) t = strobe rate a t + strobe rate b t := by
  induction a with
  | nil => exact (BusStats.zero_add _).symm
  | cons x a ih =>
    show halfCycles _ + strobe rate (a ++ b) t = halfCycles _ + strobe rate a t + strobe rate b t
    rw [ih, figures_assoc]

/-- Bursts that are over. -/
theorem strobe_over {rate : Nat} {l : List (Nat × Nat)} (h : ∀ b ∈ l, b.2 ≤ (T - b.1) * rate) : strobe rate l (T + t) = strobe rate l T := by
  induction l with
  | nil => rfl
  | cons x l ih =>
    show halfCycles _ + strobe rate l (T + t) = halfCycles _ + strobe rate l T
    rw [ih fun b hb => h b (by simp [hb])]
    have hx := h x (by simp)
    have : (T - x.1) * rate ≤ (T + t - x.1) * rate := Nat.mul_le_mul_right _ (by omega)
    rw [Nat.min_eq_left hx, Nat.min_eq_left (hx.trans this)]

/-- Bursts that begin later. -/
def moved (T : Nat) (l : List (Nat × Nat)) : List (Nat × Nat) := l.map fun b => (b.1 + T, b.2)

theorem strobe_moved (rate : Nat) (l : List (Nat × Nat)) : strobe rate (moved T l) (T + t) = strobe rate l t := by
  induction l with
  | nil => rfl
  | cons x l ih =>
    show halfCycles (min x.2 ((T + t - (x.1 + T)) * rate)) + strobe rate (moved T l) (T + t) = _
    rw [ih, show T + t - (x.1 + T) = t - x.1 by omega]
    rfl

theorem burst_ends {dr T : Nat} {b : Nat × Nat} (hd : 0 < dr) (h : dr ∣ b.2 ∧ b.1 * dr + b.2 ≤ T * dr) (rate : Nat) :
    b.2 ≤ (T - b.1) * dr ∧ b.2 / dr * rate ≤ (T - b.1) * rate := by
  obtain ⟨⟨q, hq⟩, h2⟩ := h
  rw [hq] at h2 ⊢
  have hl : b.1 + q ≤ T := by
    have : (b.1 + q) * dr ≤ T * dr := by rw [Nat.add_mul, Nat.mul_comm q]; exact h2
    exact Nat.le_of_mul_le_mul_right this hd
  refine ⟨?_, ?_⟩
  · rw [Nat.mul_comm dr q]
    exact Nat.mul_le_mul_right _ (by omega)
  · rw [Nat.mul_div_cancel_left _ hd]
    exact Nat.mul_le_mul_right _ (by omega)

/-! ## What two traces send -/

/-- One trace after the other. -/
def joined (first second : List ICmd) (T : Nat) : List IfOp := (first ++ laterI T second).map .cmd

variable {first second : List ICmd}

theorem bursts_joined (read : Bool) : bursts std sp read (joined first second T) =
    bursts std sp read (first.map .cmd) ++ moved T (bursts std sp read (second.map .cmd)) := by
  unfold bursts joined
  rw [List.map_append, List.filterMap_append]
  congr 1
  unfold laterI moved
  rw [List.map_map, List.filterMap_map, List.filterMap_map, List.map_filterMap]
  refine List.filterMap_congr fun c _ => ?_
  simp only [Function.comp, burstOf]
  split <;> rfl

theorem anyBursts_joined : anyBursts std sp (joined first second T) =
    anyBursts std sp (first.map .cmd) ++ moved T (anyBursts std sp (second.map .cmd)) := by
  unfold anyBursts joined
  rw [List.map_append, List.filterMap_append]
  congr 1
  unfold laterI moved
  rw [List.map_map, List.filterMap_map, List.filterMap_map, List.map_filterMap]
  refine List.filterMap_congr fun c _ => ?_
  simp only [Function.comp, anyBurstOf]
  split <;> rfl

theorem burstsOver_joined (h1 : BurstsOver std sp (first.map .cmd) T) (h2 : BurstsOver std sp (second.map .cmd) t) :
    BurstsOver std sp (joined first second T) (T + t) := by
  unfold BurstsOver
  rw [anyBursts_joined]
  intro b hb
  rcases List.mem_append.1 hb with hb | hb
  · have := h1 b hb
    refine ⟨this.1, this.2.trans (Nat.mul_le_mul_right _ (by omega))⟩
  · obtain ⟨d, hd, rfl⟩ := List.mem_map.1 hb
    have := h2 d hd
    refine ⟨this.1, ?_⟩
    show (d.1 + T) * _ + d.2 ≤ _
    rw [Nat.add_mul, Nat.add_mul]
    omega

/-- The command bus before a command. -/
theorem caLine_early {l : Line} : ∀ {cs : List ICmd} {n k : Nat}, (∀ c ∈ cs, n ≤ c.t * commandRate std) → k < n →
    ((cs.map IfOp.cmd).foldl (caDrive std sp) l) k = l k := by
  intro cs
  induction cs generalizing l with
  | nil => intros; rfl
  | cons c cs ih =>
    intro n k h hk
    rw [List.map_cons, List.foldl_cons, ih (fun x hx => h x (by simp [hx])) hk]
    have := h c (by simp)
    unfold caDrive
    dsimp only
    rw [if_neg (by omega)]

/-- The command bus after all commands. -/
theorem caLine_late {l : Line} : ∀ {cs : List ICmd} {k : Nat},
    (∀ c ∈ cs, caBeats std c.type = 0 ∨ c.t * commandRate std + caBeats std c.type ≤ k) → ((cs.map IfOp.cmd).foldl (caDrive std sp) l) k = l k := by
  intro cs
  induction cs generalizing l with
  | nil => intros; rfl
  | cons c cs ih =>
    intro k h
    rw [List.map_cons, List.foldl_cons, ih (fun x hx => h x (by simp [hx]))]
    have := h c (by simp)
    unfold caDrive
    dsimp only
    rw [if_neg (by omega)]

theorem caLine_moved : ∀ {cs : List ICmd} {l m : Line}, (∀ k, l (T * commandRate std + k) = m k) →
    ∀ k, (((laterI T cs).map IfOp.cmd).foldl (caDrive std sp) l) (T * commandRate std + k) = ((cs.map IfOp.cmd).foldl (caDrive std sp) m) k := by
  intro cs
  induction cs with
  | nil => intro l m h; exact h
  | cons c cs ih =>
    intro l m h
    refine ih fun k => ?_
    unfold caDrive
    dsimp only
    rw [h k, show (c.t + T) * commandRate std = T * commandRate std + c.t * commandRate std by rw [Nat.add_mul, Nat.add_comm]]
    have e : T * commandRate std + k - (T * commandRate std + c.t * commandRate std) = k - c.t * commandRate std := by omega
    rw [e]
    have : (T * commandRate std + c.t * commandRate std ≤ T * commandRate std + k ∧
        T * commandRate std + k < T * commandRate std + c.t * commandRate std + caBeats std c.type) ↔
        (c.t * commandRate std ≤ k ∧ k < c.t * commandRate std + caBeats std c.type) := by omega
    simp only [this]
    rfl

theorem laterI_late {c : ICmd} (h : c ∈ laterI T second) (r : Nat) : T * r ≤ c.t * r := by
  obtain ⟨d, _, rfl⟩ := List.mem_map.1 h
  exact Nat.mul_le_mul_right _ (Nat.le_add_left _ _)

theorem command_join (hw : WiresIdle std sp first T) :
    Line.stats (commandWires std) (caIdleLevels std) (caLine std sp (joined first second T)) ((T + t) * commandRate std) =
      Line.stats (commandWires std) (caIdleLevels std) (caLine std sp (first.map .cmd)) (T * commandRate std) +
      Line.stats (commandWires std) (caIdleLevels std) (caLine std sp (second.map .cmd)) (t * commandRate std) := by
  rw [Nat.add_mul]
  refine line_join (fun k hk => ?_) (fun k => ?_) (fun k hk => ?_) _
  · unfold caLine joined
    rw [List.map_append, List.foldl_append]
    exact caLine_early (fun c hc => laterI_late hc _) hk
  · unfold caLine joined
    rw [List.map_append, List.foldl_append]
    refine caLine_moved (fun k => ?_) k
    refine caLine_late fun c hc => (hw.commands c hc).imp_right fun h => by omega
  · unfold caLine
    rw [caLine_late fun c hc => (hw.commands c hc).imp_right fun h => by omega]
    rfl

/-! ## The data bus -/

theorem dataLineFrom_cmds {read : Bool} {m : Setting} : ∀ {cs : List ICmd} {l : Line},
    dataLineFrom std sp read m l (cs.map .cmd) = (cs.map IfOp.cmd).foldl (dataDrive std sp read m) l := by
  intro cs
  induction cs with
  | nil => intro l; rfl
  | cons c cs ih => intro l; exact ih

variable {read : Bool} {m : Setting}

theorem dataDrive_off {c : ICmd} {l : Line} {k : Nat} (h : direction c.type ≠ none → dataBeats std sp c = 0 ∨ k < c.t * sp.dataRate ∨
    c.t * sp.dataRate + dataBeats std sp c ≤ k) : dataDrive std sp read m l (.cmd c) k = l k := by
  unfold dataDrive
  dsimp only
  cases c.data with
  | none => rfl
  | some data =>
    dsimp only
    split
    · rename_i hd
      have := h (by rw [hd]; simp)
      dsimp only
      rw [if_neg (by omega)]
    · rfl

theorem dataLine_off : ∀ {cs : List ICmd} {l : Line} {k : Nat}, (∀ c ∈ cs, direction c.type ≠ none → dataBeats std sp c = 0 ∨
    k < c.t * sp.dataRate ∨ c.t * sp.dataRate + dataBeats std sp c ≤ k) → ((cs.map IfOp.cmd).foldl (dataDrive std sp read m) l) k = l k := by
  intro cs
  induction cs with
  | nil => intros; rfl
  | cons c cs ih =>
    intro l k h
    rw [List.map_cons, List.foldl_cons, ih (fun x hx => h x (by simp [hx]))]
    exact dataDrive_off (h c (by simp))

theorem dataLine_moved : ∀ {cs : List ICmd} {l l' : Line}, (∀ k, l (T * sp.dataRate + k) = l' k) →
    ∀ k, (((laterI T cs).map IfOp.cmd).foldl (dataDrive std sp read m) l) (T * sp.dataRate + k) =
      ((cs.map IfOp.cmd).foldl (dataDrive std sp read m) l') k := by
  intro cs
  induction cs with
  | nil => intro l l' h; exact h
  | cons c cs ih =>
    intro l l' h
    refine ih fun k => ?_
    unfold dataDrive
    dsimp only
    cases c.data with
    | none => exact h k
    | some data =>
      dsimp only
      split
      · dsimp only
        rw [h k, show (c.t + T) * sp.dataRate = T * sp.dataRate + c.t * sp.dataRate by rw [Nat.add_mul, Nat.add_comm]]
        have e : T * sp.dataRate + k - (T * sp.dataRate + c.t * sp.dataRate) = k - c.t * sp.dataRate := by omega
        have e' : dataBeats std sp { t := c.t + T, type := c.type, co := c.co, dbank := c.dbank, subChannel := c.subChannel, nBits := c.nBits, data := some data } = dataBeats std sp c := rfl
        rw [e, e']
        have : (T * sp.dataRate + c.t * sp.dataRate ≤ T * sp.dataRate + k ∧
            T * sp.dataRate + k < T * sp.dataRate + c.t * sp.dataRate + dataBeats std sp c) ↔
            (c.t * sp.dataRate ≤ k ∧ k < c.t * sp.dataRate + dataBeats std sp c) := by omega
        simp only [this]
        rfl
      · exact h k

theorem data_join (hw : WiresIdle std sp first T) (read : Bool) :
    payloadFigures std sp read (joined first second T) (T + t) =
      payloadFigures std sp read (first.map .cmd) T + payloadFigures std sp read (second.map .cmd) t := by
  unfold payloadFigures
  split
  · rw [Nat.add_mul]
    unfold dataLine
    refine line_join (fun k hk => ?_) (fun k => ?_) (fun k hk => ?_) _
    · unfold joined
      rw [dataLineFrom_cmds, dataLineFrom_cmds, List.map_append, List.foldl_append]
      exact dataLine_off fun c hc _ => .inr (.inl (Nat.lt_of_lt_of_le hk (laterI_late hc _)))
    · unfold joined
      rw [dataLineFrom_cmds, dataLineFrom_cmds, List.map_append, List.foldl_append]
      refine dataLine_moved (fun k => ?_) k
      exact dataLine_off fun c hc hd => (hw.bursts c hc hd).imp_right fun h => .inr (by omega)
    · rw [dataLineFrom_cmds, dataLine_off fun c hc hd => (hw.bursts c hc hd).imp_right fun h => .inr (by omega)]
      rfl
  · exact (add_none _).symm

/-! ## Inversion pins -/

theorem marked_cmds (cs : List ICmd) : marked std sp read {} (cs.map .cmd) = [] := C52_off rfl (by simp)

/-- Pins that stay at one level. -/
theorem pins_join (n m : Nat) : markStats std sp [] (n + m) {} = markStats std sp [] n {} + markStats std sp [] m {} := by
  have pin : ∀ (p : PinState) (n m : Nat), (PinLine.stats (fun _ => p) p (n + m)) = PinLine.stats (fun _ => p) p n + PinLine.stats (fun _ => p) p m := by
    intro p n m
    have b : ∀ n, PinLine.before (fun _ => p) p n = p := fun n => by cases n <;> rfl
    induction m with
    | zero => exact (add_none _).symm
    | succ m ih =>
      show PinLine.stats (fun _ => p) p (n + m) + pinBeat (PinLine.before (fun _ => p) p (n + m)) p =
        PinLine.stats (fun _ => p) p n + (PinLine.stats (fun _ => p) p m + pinBeat (PinLine.before (fun _ => p) p m) p)
      rw [b, b, ih, figures_assoc]
  have line : ∀ p, markLine std [] p = fun _ => plainLevel std := fun p => by funext k; simp [markLine]
  unfold markStats
  simp only [line]
  generalize List.range (inversionPins std sp) = l
  have key : ∀ (l : List Nat) (a b : BusStats),
      l.foldl (fun s _ => s + PinLine.stats (fun _ => plainLevel std) (plainLevel std) (n + m)) (a + b) =
      l.foldl (fun s _ => s + PinLine.stats (fun _ => plainLevel std) (plainLevel std) n) a +
        l.foldl (fun s _ => s + PinLine.stats (fun _ => plainLevel std) (plainLevel std) m) b := by
    intro l
    induction l with
    | nil => intro a b; rfl
    | cons x l ih =>
      intro a b
      simp only [List.foldl_cons]
      rw [← ih, pin]
      congr 1
      refine busStats_ext ?_ ?_ ?_ ?_ ?_ <;> simp only [BusStats.add_ones, BusStats.add_zeroes, BusStats.add_bitChanges,
        BusStats.add_onesToZeroes, BusStats.add_zeroesToOnes] <;> omega
  exact key l {} {}

/-! ## All groups of wires -/

variable {wck : Nat}

/-- The figures of all groups of wires add up. -/
theorem figures_join (hd : 0 < sp.dataRate) (hm : wck % 2 = 0) (ht : sp.toggling = none) (hw : WiresIdle std sp first T)
    (hb : BurstsOver std sp (first.map .cmd) T) (g : Group) :
    g.figures (expectedStats std sp wck (joined first second T) (T + t)) =
      g.figures (expectedStats std sp wck (first.map .cmd) T) + g.figures (expectedStats std sp wck (second.map .cmd) t) := by
  have strobes : ∀ read, strobe sp.dataRate (bursts std sp read (joined first second T)) (T + t) =
      strobe sp.dataRate (bursts std sp read (first.map .cmd)) T + strobe sp.dataRate (bursts std sp read (second.map .cmd)) t := fun read => by
    rw [bursts_joined, strobe_append, strobe_moved, strobe_over fun b hx => (burst_ends hd (hb b (anyBursts_mem hx)) 0).1]
  have rates : ∀ read (ops : List IfOp) (t : Nat), rateFigures std sp read ops t = {} := fun read ops t => by unfold rateFigures; rw [ht]
  cases g with
  | clock =>
    show 2 * halfCycles ((T + t) * 2) = 2 * halfCycles (T * 2) + 2 * halfCycles (t * 2)
    rw [Nat.add_mul, halfCycles_join (by omega), figures_times]
  | dataClock =>
    show 2 * (if sp.wckAlwaysOn then _ else _) = 2 * (if sp.wckAlwaysOn then _ else _) + 2 * (if sp.wckAlwaysOn then _ else _)
    rw [← figures_times]
    congr 1
    split
    · rw [Nat.add_mul, halfCycles_join (by rw [Nat.mul_mod, hm, Nat.mul_zero])]
    · unfold burstClock
      rw [anyBursts_joined, List.map_append, strobe_append]
      have e : (moved T (anyBursts std sp (second.map .cmd))).map (fun b => (b.1, b.2 / sp.dataRate * wck)) =
          moved T ((anyBursts std sp (second.map .cmd)).map fun b => (b.1, b.2 / sp.dataRate * wck)) := by
        unfold moved; rw [List.map_map, List.map_map]; rfl
      rw [e, strobe_moved, strobe_over]
      intro b hx
      obtain ⟨x, hx', rfl⟩ := List.mem_map.1 hx
      exact (burst_ends hd (hb x hx') wck).2
  | command => exact command_join hw
  | readStrobe => show _ * _ = _ * _ + _ * _; rw [strobes true, figures_times]
  | writeStrobe => show _ * _ = _ * _ + _ * _; rw [strobes false, figures_times]
  | readData => exact data_join hw true
  | writeData => exact data_join hw false
  | readRate => show rateFigures _ _ _ _ _ = rateFigures _ _ _ _ _ + rateFigures _ _ _ _ _; simp only [rates]; rfl
  | writeRate => show rateFigures _ _ _ _ _ = rateFigures _ _ _ _ _ + rateFigures _ _ _ _ _; simp only [rates]; rfl
  | readInv =>
    show markStats _ _ _ _ _ = markStats _ _ _ _ _ + markStats _ _ _ _ _
    unfold joined
    rw [marked_cmds, marked_cmds, marked_cmds, Nat.add_mul]
    exact pins_join _ _
  | writeInv =>
    show markStats _ _ _ _ _ = markStats _ _ _ _ _ + markStats _ _ _ _ _
    unfold joined
    rw [marked_cmds, marked_cmds, marked_cmds, Nat.add_mul]
    exact pins_join _ _

/-- Energies add up if the figures do. -/
theorem energy_join {ws : WireSpec} {a b c : SimStats} (h : std = .ddr4 → FreeAmbles ws) (hg : ∀ g : Group, g.figures a = g.figures b + g.figures c) :
    interfaceEnergy std ws a = sumInfo (interfaceEnergy std ws b) (interfaceEnergy std ws c) := by
  have lossy : ∀ x y : BusStats, Group.lossy std (x + y) = Group.lossy std x + Group.lossy std y := fun x y => by cases std <;> rfl
  have s1 : ∀ d, sideSum std d (Group.static std ws a) = sideSum std d (Group.static std ws b) + sideSum std d (Group.static std ws c) := by
    intro d
    unfold sideSum
    rw [← List.sum_map_add]
    congr 1
    refine List.map_congr_left fun g _ => ?_
    unfold Group.static
    rw [hg g, lossy]
    split
    · push_cast; ring
    · simp
  have s2 : ∀ d, sideSum std d (Group.dynamic ws a) = sideSum std d (Group.dynamic ws b) + sideSum std d (Group.dynamic ws c) := by
    intro d
    unfold sideSum
    rw [← List.sum_map_add]
    congr 1
    refine List.map_congr_left fun g _ => ?_
    unfold Group.dynamic
    rw [hg g, BusStats.add_zeroesToOnes]
    push_cast; ring
  have free : ∀ (st : SimStats) (read : Bool), ambleStatic std ws st read = 0 ∧ ambleDynamic std ws st read = 0 := by
    intro st read
    unfold ambleStatic ambleDynamic
    by_cases h4 : std = .ddr4
    · obtain ⟨a, b⟩ := h h4
      cases read
      · rcases b with b | ⟨b1, b2⟩
        · simp [b]
        · simp [b1, b2]
      · rcases a with b | ⟨b1, b2⟩
        · simp [b]
        · simp [b1, b2]
    · simp [h4]
  unfold interfaceEnergy sumInfo
  simp only [(free _ _).1, (free _ _).2, add_zero, s1, s2]

end DRAMPower
