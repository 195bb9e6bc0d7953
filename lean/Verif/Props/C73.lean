import Verif.Lemmas.EndMarker
import Verif.Props.C06
import Verif.Props.C52
import Verif.Props.C53

/-!
# C73: the end marker has no influence on the figures

`END_OF_SIMULATION` only tells that a trace is over. With or without it, anywhere in a trace, the answers to later queries are the same.
-/

namespace DRAMPower
open Spec

/-- What a new interface answers at `t` after calls; `s` are the statistics of the core. -/
def wiresAnswer (std : Std) (N : Nat) (sp : IfSpec) (ops : List IfOp) (t : Nat) (s : SimStats) : Except Err SimStats := do
  let i ← Interface.init std N sp
  let i ← i.run sp ops
  i.getWindowStats sp t s

/-- The total energy a new simulator reports at `t` after commands. -/
def energyAnswer (std : Std) (N : Nat) (ms : MemSpec) (sp : IfSpec) (ps : PowerSpec) (ws : WireSpec) (cs : List ICmd) (t : Nat) : Except Err Rat :=
  match Simulator.init std N ms sp with
  | .error e => .error e
  | .ok s => match s.run ms sp cs with
    | .done s => (s.getTotalEnergy ms sp ps ws t).map (·.2)
    | .refused e => .error e
    | .halfway _ e => .error e

/-- The property for the wires, for the traces before and after the marker that `p` admits. -/
def C73_statement (p : Std → IfSpec → List IfOp → List IfOp → Prop) : Prop :=
  ∀ (std : Std) (N : Nat) (sp : IfSpec) (pre post : List IfOp) (e : ICmd) (t : Nat) (s : SimStats),
    e.type = .END_OF_SIMULATION → (∀ c, .cmd c ∈ pre → c.t ≤ e.t) → (∀ c, .cmd c ∈ post → e.t ≤ c.t) → (∀ c, .cmd c ∈ post → c.t ≤ t) → e.t ≤ t →
    p std sp pre post → wiresAnswer std N sp (pre ++ .cmd e :: post) t s = wiresAnswer std N sp (pre ++ post) t s

/-- The core: acceptance, errors and all figures are the same with and without the marker, wherever it stands. -/
theorem C73_core (std : Std) (ms : MemSpec) (pre post : List Cmd) (e : Cmd) (he : e.type = .END_OF_SIMULATION)
    (ho : Ordered (pre ++ e :: post)) (t : Nat) (ht : NotBefore (pre ++ e :: post) t) :
    fresh std ms (pre ++ e :: post) t = fresh std ms (pre ++ post) t := by
  unfold fresh
  rw [run_append, run_append]
  cases (Core.init ms).run std ms pre with
  | error x => rfl
  | ok c =>
    dsimp only
    obtain ⟨c', h1, h2⟩ := endMarker_timeless (std := std) (ms := ms) he c
    simp only [Core.run, h1]
    have hp : (e :: post).Pairwise fun a b => a.t ≤ b.t := (List.pairwise_append.1 ho).2.1
    have k := run_timeless (ms := ms) h2 (List.pairwise_cons.1 hp).1 (List.pairwise_cons.1 hp).2
    cases hc : c.run std ms post <;> cases hd : c'.run std ms post <;> rw [hc, hd] at k
    · rw [k]
    · exact k.elim
    · exact k.elim
    · rename_i a b
      have k1 := k t (ht e (by simp)) fun x hx => ht x (by simp [hx])
      simp only [Core.getWindowStats, Core.statsAt, k1.1]

theorem init_freshDbi {std : Std} {N : Nat} {sp : IfSpec} {i : Interface std N} (hi : Interface.init std N sp = .ok i) : i.Fresh := by
  obtain ⟨_, _, _, _, _, _, _, _, _, _, _, _, _, _, _, hd⟩ := init_parts hi
  unfold Interface.initDbi Dbi.init at hd
  intro r
  split at hd
  · rw [← Except.ok.inj hd]; cases r <;> rfl
  · split at hd
    · split at hd
      · rw [← Except.ok.inj hd]; cases r <;> rfl
      · cases hd
    · rw [← Except.ok.inj hd]; cases r <;> rfl

/-- The wires, if nothing has been inverted before the marker; also for markers and queries whose time is out of order. -/
theorem C73_anywhere (std : Std) (N : Nat) (sp : IfSpec) (pre post : List IfOp) (e : ICmd) (t : Nat) (s : SimStats)
    (he : e.type = .END_OF_SIMULATION) (hn : std = .ddr5 ∨ ∀ r, marked std sp r {} pre = []) :
    wiresAnswer std N sp (pre ++ .cmd e :: post) t s = wiresAnswer std N sp (pre ++ post) t s := by
  unfold wiresAnswer
  cases hi : Interface.init std N sp with
  | error x => rfl
  | ok i =>
    show (i.run sp (pre ++ .cmd e :: post) >>= _) = (i.run sp (pre ++ post) >>= _)
    rw [Interface.run_append', Interface.run_append']
    cases hr : i.run sp pre with
    | error x => rfl
    | ok j =>
      have hf : std = .ddr5 ∨ j.Fresh := by
        by_cases h5 : std = .ddr5
        · exact .inl h5
        · refine .inr (Interface.run_fresh h5 (init_shaped hi) (init_set hi) ?_ hr (hn.resolve_left h5))
          exact init_freshDbi hi
      have h1 : j.step sp (.cmd e) = .ok (j.at' e.t) := Interface.fresh_end hf he
      simp only [Interface.run, h1]
      have k := Interface.run_timeless (sp := sp) (ops := post) (show j.Timeless (j.at' e.t) from ⟨_, rfl⟩)
      cases hc : j.run sp post <;> cases hd : (j.at' e.t).run sp post <;> rw [hc, hd] at k
      · rw [k]
      · exact k.elim
      · exact k.elim
      · exact Interface.getWindowStats_timeless k t s

/-- The wires, if nothing has been inverted before the marker.
Missing from the property: markers after transfers with inversion, see `C73_end_partial`, `C73_violation` and `C73_violation_refused`. -/
theorem C73_partial : C73_statement fun std sp pre _ => std = .ddr5 ∨ ∀ r, marked std sp r {} pre = [] :=
  fun std N sp pre post e t s he _ _ _ _ hn => C73_anywhere std N sp pre post e t s he hn

theorem pinChanges_other {std : Std} {N : Nat} : ∀ {es : List DbiEvent} {i i' : Interface std N}, es.foldlM Interface.pinChange i = .ok i' →
    ∃ a b, i' = { i with pinsRead := a, pinsWrite := b }
  | [], i, i', h => by cases h; exact ⟨_, _, rfl⟩
  | e :: es, i, i', h => by
    simp only [List.foldlM_cons] at h
    obtain ⟨j, h1, h2⟩ := bind_ok h
    obtain ⟨a, b, e2⟩ := pinChanges_other h2
    unfold Interface.pinChange at h1
    split at h1
    · cases h1
    · obtain ⟨q, _, h1⟩ := bind_ok h1
      split at h1
      · rw [← pure_ok h1] at e2; exact ⟨a, b, e2⟩
      · rw [← pure_ok h1] at e2; exact ⟨a, b, e2⟩

/-- The marker changes only pins and the inversion state. -/
theorem endMarker_parts {std : Std} {N : Nat} {sp : IfSpec} {e : ICmd} {i i' : Interface std N} (he : e.type = .END_OF_SIMULATION)
    (h : i.doCommand sp e = .ok i') : ∃ d a b x, i' = { i with dbi := d, pinsRead := a, pinsWrite := b, last := x } := by
  unfold Interface.doCommand at h
  obtain ⟨j, h1, h2⟩ := bind_ok h
  rw [he] at h1
  rw [← pure_ok h2]
  have fin : ∀ {j}, i.endOfSimulation sp e.t = .ok j → ∃ d a b x, ({ j with last := e.t } : Interface std N) =
      { i with dbi := d, pinsRead := a, pinsWrite := b, last := x } := by
    intro j h
    unfold Interface.endOfSimulation at h
    obtain ⟨⟨d, ev⟩, _, h⟩ := bind_ok h
    obtain ⟨a, b, e'⟩ := pinChanges_other h
    rw [e']
    exact ⟨d, a, b, e.t, rfl⟩
  cases std with
  | ddr5 => cases h1; exact ⟨_, _, _, _, rfl⟩
  | _ => exact fin h1

/-- The marker at the end of a trace with inverted transfers, under the restrictions of C52: if both traces are accepted and answered, the answers are the same. -/
theorem C73_end_partial (std : Std) (N : Nat) (sp : IfSpec) (ops : List IfOp) (e : ICmd) (t : Nat) (s a b : SimStats)
    (he : e.type = .END_OF_SIMULATION) (hw : WholeBeats sp (ops ++ [.cmd e])) (hends : Ends ops) (hset : SettlingBoth std sp ops)
    (ha : wiresAnswer std N sp (ops ++ [.cmd e]) t s = .ok a) (hb : wiresAnswer std N sp ops t s = .ok b) : a = b := by
  obtain ⟨i, hi, hb⟩ := bind_ok hb
  obtain ⟨j, hj, hb⟩ := bind_ok hb
  obtain ⟨i', hi', ha⟩ := bind_ok ha
  cases hi.symm.trans hi'
  obtain ⟨k, hk, ha⟩ := bind_ok ha
  have hmark : ∀ (l : List IfOp) r m, marked std sp r m (l ++ [.cmd e]) = marked std sp r m l := by
    intro l r
    induction l with
    | nil =>
      intro m
      have : markedOf std sp r m (.cmd e) = none := markedOf_other (by rw [he]; nofun)
      simp only [List.nil_append, marked, this]
      rfl
    | cons x l ih => intro m; simp only [List.cons_append, marked, ih]
  have hw1 : WholeBeats sp ops := fun c hc => hw c (List.mem_append_left _ hc)
  have hends1 : Ends (ops ++ [.cmd e]) := by
    refine List.pairwise_append.2 ⟨hends, List.pairwise_singleton _ _, fun x _ y hy _ c hc => ?_⟩
    rw [List.mem_singleton.1 hy] at hc
    cases hc
    rw [he]; rfl
  have hset1 : SettlingBoth std sp (ops ++ [.cmd e]) := fun r => by rw [hmark]; exact hset r
  obtain ⟨p1, p2⟩ := C52_partial std N sp _ _ _ _ _ _ hi hk ha hw hends1 hset1
  obtain ⟨q1, q2⟩ := C52_partial std N sp _ _ _ _ _ _ hi hj hb hw1 hends hset
  rw [hmark] at p1 p2
  rw [Interface.run_append', hj] at hk
  simp only [Interface.run, Interface.step] at hk
  split at hk
  · rename_i k1 hk1
    cases hk
    obtain ⟨d, pr, pw, x, e1⟩ := endMarker_parts he hk1
    subst e1
    unfold Interface.getWindowStats at ha hb
    obtain ⟨c1, ha1, ha⟩ := bind_ok ha
    obtain ⟨c2, hb1, hb⟩ := bind_ok hb
    cases hb1.symm.trans ha1
    obtain ⟨d1, ha1, ha⟩ := bind_ok ha
    obtain ⟨d2, hb1, hb⟩ := bind_ok hb
    cases hb1.symm.trans ha1
    obtain ⟨r1, _, ha⟩ := bind_ok ha
    obtain ⟨r2, _, hb⟩ := bind_ok hb
    obtain ⟨w1, _, ha⟩ := bind_ok ha
    obtain ⟨w2, _, hb⟩ := bind_ok hb
    have ea := pure_ok ha
    have eb := pure_ok hb
    have f1 : a.readDBI = r1 := by rw [← ea]
    have f2 : a.writeDBI = w1 := by rw [← ea]
    have g1 : b.readDBI = r2 := by rw [← eb]
    have g2 : b.writeDBI = w2 := by rw [← eb]
    have h1 : r1 = r2 := by rw [← f1, ← g1, p1, q1]
    have h2 : w1 = w2 := by rw [← f2, ← g2, p2, q2]
    rw [← ea, ← eb, h1, h2]
  · cases hk

/-! ## The simulator object -/

section
variable {std : Std} {N : Nat} {ms : MemSpec} {sp : IfSpec}

/-- Both halves are alike once everything due by `now` has been executed. -/
def Simulator.TimelessAt (now : Nat) (s r : Simulator std N) : Prop := DRAMPower.TimelessAt std now s.core r.core ∧ s.interface.Timeless r.interface

/-- Runs that end with the same error or with simulators that are alike at `t`. -/
def Outcome.TimelessAt (t : Nat) : Outcome std N → Outcome std N → Prop
  | .done s, .done r => s.TimelessAt t r
  | .refused e, .refused e' => e = e'
  | .halfway _ e, .halfway _ e' => e = e'
  | _, _ => False

theorem simRun_timeless {t : Nat} : ∀ {cs : List ICmd} {now : Nat} {s r : Simulator std N}, s.TimelessAt now r → now ≤ t → (∀ c ∈ cs, now ≤ c.t) →
    (∀ c ∈ cs, c.t ≤ t) → (cs.Pairwise fun a b => a.t ≤ b.t) → (s.run ms sp cs).TimelessAt t (r.run ms sp cs)
  | [], _, _, _, h, ht, _, _, _ => ⟨h.1.mono ht, h.2⟩
  | c :: cs, now, s, r, h, ht, hn, hT, ho => by
    have ho' := List.pairwise_cons.1 ho
    have k := h.1.doCommand (ms := ms) (cmd := c.core) (hn c (by simp))
    have k2 := Interface.step_timeless (sp := sp) h.2 (.cmd c)
    simp only [Interface.step] at k2
    unfold Simulator.run Simulator.doCommand
    cases hc : s.core.doCommand std ms c.core <;> cases hd : r.core.doCommand std ms c.core <;> rw [hc, hd] at k
    · exact k
    · exact k.elim
    · exact k.elim
    · dsimp only
      cases hx : s.interface.doCommand sp c <;> cases hy : r.interface.doCommand sp c <;> rw [hx, hy] at k2
      · exact k2
      · exact k2.elim
      · exact k2.elim
      · exact simRun_timeless (now := c.t) ⟨Core.Timeless.process k, k2⟩ (hT c (by simp)) ho'.1 (fun x hx => hT x (by simp [hx])) ho'.2

theorem simRun_append {l l' : List ICmd} : ∀ {s : Simulator std N}, s.run ms sp (l ++ l') = match s.run ms sp l with
    | .done s => s.run ms sp l'
    | o => o := by
  induction l with
  | nil => intro s; rfl
  | cons a l ih =>
    intro s
    simp only [List.cons_append, Simulator.run]
    cases s.doCommand ms sp a with
    | done r => exact ih
    | refused e => rfl
    | halfway c e => rfl

theorem simRun_interface : ∀ {cs : List ICmd} {s r : Simulator std N}, s.run ms sp cs = .done r → s.interface.run sp (cs.map .cmd) = .ok r.interface
  | [], _, _, h => by cases h; rfl
  | c :: cs, s, r, h => by
    unfold Simulator.run Simulator.doCommand at h
    cases hc : s.core.doCommand std ms c.core with
    | error e => rw [hc] at h; cases h
    | ok k =>
      rw [hc] at h
      cases hx : s.interface.doCommand sp c with
      | error e => rw [hx] at h; cases h
      | ok j =>
        rw [hx] at h
        have := simRun_interface h
        simp only [List.map_cons, Interface.run, Interface.step, hx]
        exact this

theorem windowStats_timeless {t : Nat} {s r : Simulator std N} (h : s.TimelessAt t r) :
    match s.getWindowStats ms sp t, r.getWindowStats ms sp t with
    | .ok (s', a), .ok (r', b) => a = b ∧ s'.TimelessAt t r'
    | .error e, .error e' => e = e'
    | _, _ => False := by
  unfold Simulator.getWindowStats Core.getWindowStats
  dsimp only
  have e : (s.core.process std t).statsAt std ms t = (r.core.process std t).statsAt std ms t := by
    unfold Core.statsAt
    rw [h.1.1]
  rw [e, Interface.getWindowStats_timeless h.2]
  cases s.interface.getWindowStats sp t ((r.core.process std t).statsAt std ms t).toSim with
  | error e => rfl
  | ok st => exact ⟨rfl, Core.Timeless.process h.1, h.2⟩

theorem totalEnergy_timeless {ps : PowerSpec} {ws : WireSpec} {t : Nat} {s r : Simulator std N} (h : s.TimelessAt t r) :
    (s.getTotalEnergy ms sp ps ws t).map (·.2) = (r.getTotalEnergy ms sp ps ws t).map (·.2) := by
  unfold Simulator.getTotalEnergy Simulator.calcCoreEnergy Simulator.calcInterfaceEnergy
  have k := windowStats_timeless (ms := ms) (sp := sp) h
  cases hs : s.getWindowStats ms sp t <;> cases hr : r.getWindowStats ms sp t <;> rw [hs, hr] at k
  · rw [k]
  · exact k.elim
  · exact k.elim
  · rename_i x y
    obtain ⟨s1, a⟩ := x
    obtain ⟨r1, b⟩ := y
    obtain ⟨rfl, h1⟩ := k
    simp only [bind, Except.bind]
    cases PowerSpec.calcEnergy std ps a with
    | error e => rfl
    | ok c =>
      dsimp only [pure, Except.pure]
      have k := windowStats_timeless (ms := ms) (sp := sp) h1
      cases hs : s1.getWindowStats ms sp t <;> cases hr : r1.getWindowStats ms sp t <;> rw [hs, hr] at k
      · rw [k]
      · exact k.elim
      · exact k.elim
      · rename_i x y
        obtain ⟨s2, a⟩ := x
        obtain ⟨r2, b⟩ := y
        obtain ⟨rfl, h1⟩ := k
        dsimp only
        cases ws.calculateEnergy std a <;> rfl

end

/-- The total energy of a simulator without inversion, and whether it accepts the trace, is the same with and without the marker. -/
theorem C73_energy (std : Std) (N : Nat) (ms : MemSpec) (sp : IfSpec) (ps : PowerSpec) (ws : WireSpec) (pre post : List ICmd) (e : ICmd) (t : Nat)
    (he : e.type = .END_OF_SIMULATION) (ho : Ordered ((pre ++ e :: post).map ICmd.core)) (ht : NotBefore ((pre ++ e :: post).map ICmd.core) t) :
    energyAnswer std N ms sp ps ws (pre ++ e :: post) t = energyAnswer std N ms sp ps ws (pre ++ post) t := by
  unfold energyAnswer
  cases hi : Simulator.init std N ms sp with
  | error x => rfl
  | ok s =>
    dsimp only
    rw [simRun_append, simRun_append]
    cases hr : s.run ms sp pre with
    | refused x => rfl
    | halfway c x => rfl
    | done r =>
      dsimp only
      have hi' : Interface.init std N sp = .ok s.interface := by
        obtain ⟨i, h, e⟩ := bind_ok hi
        rw [← pure_ok e]; exact h
      have hf : std = .ddr5 ∨ r.interface.Fresh := by
        by_cases h5 : std = .ddr5
        · exact .inl h5
        · refine .inr (Interface.run_fresh h5 (init_shaped hi') (init_set hi') (init_freshDbi hi') (simRun_interface hr) fun r => ?_)
          exact C52_off rfl (by simp)
      obtain ⟨c', h1, h2⟩ := endMarker_timeless (std := std) (ms := ms) (e := e.core) he r.core
      have h3 : r.interface.doCommand sp e = .ok (r.interface.at' e.t) := Interface.fresh_end hf he
      have hp : ((pre ++ e :: post).Pairwise fun a b => a.t ≤ b.t) := (List.pairwise_map (f := ICmd.core) (R := fun a b => a.t ≤ b.t)).1 ho
      have hp := (List.pairwise_append.1 hp).2.1
      have hT : ∀ c ∈ pre ++ e :: post, c.t ≤ t := fun c hc => ht _ (List.mem_map_of_mem hc)
      have k := simRun_timeless (ms := ms) (sp := sp) (now := e.t) (t := t) (s := r) (r := { core := c', interface := r.interface.at' e.t })
        ⟨h2, _, rfl⟩ (hT e (by simp)) (List.pairwise_cons.1 hp).1 (fun c hc => hT c (by simp [hc])) (List.pairwise_cons.1 hp).2
      have hstep : r.run ms sp (e :: post) = Simulator.run ms sp { core := c', interface := r.interface.at' e.t } post := by
        simp only [Simulator.run, Simulator.doCommand, h1, h3]
      rw [hstep]
      cases hc : r.run ms sp post <;> cases hd : Simulator.run ms sp { core := c', interface := r.interface.at' e.t } post <;> rw [hc, hd] at k <;>
        first | exact k.elim | skip
      · exact (totalEnergy_timeless k).symm
      · rw [show _ = _ from k]
      · rw [show _ = _ from k]

/-! ## Examples and witnesses -/

/-- Three writes with inversion and an inverted last beat; after the first a gap of 26 clock cycles, in which the end marker comes at `x`. -/
def c73Gap (x : Option Nat) (data : List UInt8) : List IfOp :=
  [.dbi true, .cmd { t := 10, type := .WR, nBits := 128, data := some data }] ++ (x.toList.map fun t => .cmd { t, type := .END_OF_SIMULATION }) ++
  [.cmd { t := 40, type := .WR, nBits := 128, data := some data }, .cmd { t := 44, type := .WR, nBits := 128, data := some data }]

/-- The figures of the inversion pins for writes. -/
def c73Pins (std : Std) (x : Option Nat) (data : List UInt8) : Except Err BusStats := do
  let s ← wiresAnswer std 32 c52Spec (c73Gap x data) 60 {}
  pure s.writeDBI

/-- Levels of the second byte: the last one is inverted by LPDDR4. -/
def c73Data : List UInt8 := c52Data [1, 2, 3, 4, 5, 6, 7, 8] [1, 2, 3, 4, 5, 6, 7, 255]

theorem c73_refute {std : Std} {x : Nat} {data : List UInt8} (h1 : 10 ≤ x) (h2 : x ≤ 40) (h : c73Pins std none data ≠ c73Pins std (some x) data) :
    ¬ C73_statement fun _ _ _ _ => True := by
  intro k
  refine h ?_
  unfold c73Pins
  have := k std 32 c52Spec [.dbi true, .cmd { t := 10, type := .WR, nBits := 128, data := some data }]
    [.cmd { t := 40, type := .WR, nBits := 128, data := some data }, .cmd { t := 44, type := .WR, nBits := 128, data := some data }]
    { t := x, type := .END_OF_SIMULATION } 60 {} rfl (by simp [h1]) (by simp [h2]; omega) (by simp) (by show x ≤ 60; omega) trivial
  show (wiresAnswer std 32 c52Spec _ 60 {} >>= _) = (wiresAnswer std 32 c52Spec _ 60 {} >>= _)
  exact congrArg (· >>= fun s : SimStats => pure s.writeDBI) this.symm

/-- The full property is false: LPDDR4, three writes each with one flagged beat. The pins carry two flags without, three with the marker. -/
theorem C73_violation : ¬ C73_statement fun _ _ _ _ => True :=
  c73_refute (std := .lpddr4) (x := 30) (data := c73Data) (by decide) (by decide) (by decide +kernel)

/-- DDR4: the trace is refused without, accepted with a marker in the gap. The marker has an effect only after clock cycle 28, although the first write ends in
cycle 14, which is beat 28: clock cycles are compared with beats. -/
theorem C73_violation_refused :
    c73Pins .ddr4 none (List.replicate 15 255 ++ [0]) = .error (.assertion "bitset_size not enough") ∧
    c73Pins .ddr4 (some 28) (List.replicate 15 255 ++ [0]) = .error (.assertion "bitset_size not enough") ∧
    c73Pins .ddr4 (some 29) (List.replicate 15 255 ++ [0]) =
      .ok { ones := 237, zeroes := 3, bitChanges := 6, onesToZeroes := 3, zeroesToOnes := 3 } := by
  refine ⟨?_, ?_, ?_⟩ <;> decide +kernel

/-- The marker in the middle of a trace of each standard, and one between two reads of which none is inverted. -/
example (std : Std) : Ordered ((c53Example std ++ ({ t := 45, type := .END_OF_SIMULATION } : ICmd) :: [{ t := 50, type := .PDXP }]).map ICmd.core) ∧
    NotBefore ((c53Example std ++ ({ t := 45, type := .END_OF_SIMULATION } : ICmd) :: [{ t := 50, type := .PDXP }]).map ICmd.core) 60 ∧
    (energyAnswer std 64 Ex.ms c53If c53Power c53Wires (c53Example std ++ ({ t := 45, type := .END_OF_SIMULATION } : ICmd) :: [{ t := 50, type := .PDXP }]) 60).isOk = true := by
  refine ⟨?_, ?_, ?_⟩ <;> cases std <;> decide +kernel

/-- The core: the marker while an automatic precharge is due. -/
example (std : Std) : Ordered [{ t := 0, type := .ACT }, { t := 5, type := .RDA }, { t := 30, type := .END_OF_SIMULATION }, { t := 40, type := .ACT }] ∧
    (fresh std Ex.ms [{ t := 0, type := .ACT }, { t := 5, type := .RDA }, { t := 30, type := .END_OF_SIMULATION }, { t := 40, type := .ACT }] 50).isOk = true := by
  refine ⟨?_, ?_⟩ <;> cases std <;> decide +kernel

/-- Reads before inversion is switched on. -/
example : (∀ r, marked .lpddr4 c52Spec r {} [.cmd { t := 10, type := .RD, nBits := 128, data := some c73Data }] = []) ∧
    (wiresAnswer .lpddr4 32 c52Spec ([.cmd { t := 10, type := .RD, nBits := 128, data := some c73Data }] ++
      .cmd { t := 20, type := .END_OF_SIMULATION } :: [.dbi true, .cmd { t := 30, type := .RD, nBits := 128, data := some c73Data }]) 60 {}).isOk = true := by
  refine ⟨fun r => by cases r <;> rfl, by decide +kernel⟩

/-- A trace with flagged beats that ends with the marker, as in `C52`. -/
example : ∀ std ∈ [Std.ddr4, .lpddr4, .lpddr5], SettlingBoth std c52Spec c52Trace.dropLast ∧
    (wiresAnswer std 32 c52Spec (c52Trace.dropLast ++ [.cmd { t := 70, type := .END_OF_SIMULATION }]) 80 {}).isOk = true ∧
    (wiresAnswer std 32 c52Spec c52Trace.dropLast 80 {}).isOk = true := by
  intro std hstd
  refine ⟨fun read => ?_, ?_, ?_⟩
  · revert std
    cases read <;> decide +kernel
  · revert std; decide +kernel
  · revert std; decide +kernel

example : WholeBeats c52Spec (c52Trace.dropLast ++ [.cmd { t := 70, type := .END_OF_SIMULATION }]) ∧ Ends c52Trace.dropLast := by
  refine ⟨?_, ?_⟩
  · intro c hc
    simp only [c52Trace, List.dropLast, List.cons_append, List.nil_append, List.mem_cons, List.not_mem_nil, or_false, reduceCtorEq, false_or, IfOp.cmd.injEq] at hc
    rcases hc with e | e | e | e | e | e <;> (subst e; rfl)
  · unfold Ends c52Trace
    simp

end DRAMPower
