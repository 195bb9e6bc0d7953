import Verif.Model.SimulatorStats
import Verif.Model.Config

/-!
# Running a unit test of the repository on the model

`conformance/gen.py` turns the tests in `/repo/tests/tests_drampower` into the files beside this one. These are tests of the model,
not proofs: every `#guard` compares results of the model with the numbers a test of the repository expects.
-/

namespace DRAMPower.Tests

/-- The parts of one memory specification as the model splits it. -/
structure Setup where
  core : MemSpec
  power : PowerSpec
  iface : IfSpec
  wires : WireSpec

/-- `MemSpecX::from_memspec` for a configuration file. -/
def Setup.ofConfig (std : Std) (c : Config) (width : Nat) (vddq : Rat) (dqsRate : Nat) (wckAlwaysOn : Bool) (ambles : Ambles := {})
    (imp : Impedances) : Setup where
  core := match c.derive std with
    | .ok d => d.core
    | .error _ => { numberOfBanks := 0, tRFC := 0, tRAS := 0, tRP := 0, prechargeOffsetRD := 0, prechargeOffsetWR := 0 }
  power := c.powerSpec std
  iface := { dataRate := c.dataRate, burstLength := c.burstLength, bitWidth := width, devices := c.devices', ranks := c.ranks,
             arch := (c.archOf std).1, wckAlwaysOn, wckToCk := c.wck2ck, dqsRate, bankGroups := (c.archOf std).2.2 }
  wires := { tCK := c.tCK, tWCK := c.tWCK std, vddq, dataRate := c.dataRate, dqsRate, bitWidth := width, ambles, imp }

/-- A call on the simulator. -/
inductive Op
  | core (c : ICmd)
  | iface (c : ICmd)
  | both (c : ICmd)
  | dbi (enable : Bool)
  | stats
  | window (t : Nat)
  | coreEnergy (t : Nat)
  | ifaceEnergy (t : Nat)
  | look

/-- The results of the calls, in order; the first failed call ends the run. -/
structure Log where
  stats : List SimStats := []
  energies : List Energy := []
  infos : List InterfaceInfo := []
  cores : List Core := []
  error : Option (Nat × Err) := none

/-- Whether every call has succeeded. -/
def Log.ok (l : Log) : Bool := l.error.isNone

instance : Inhabited SimStats := ⟨{}⟩
instance : Inhabited CycleStats := ⟨{}⟩
instance : Inhabited EnergyInfo := ⟨{}⟩
instance : Inhabited Energy := ⟨{ bank := [], shared := {} }⟩
instance : Inhabited InterfaceInfo := ⟨{ controller := {}, dram := {} }⟩
instance : Inhabited Core := ⟨{ ranks := fun _ => { nBanks := 0 } }⟩

/-- One call. -/
def step {std : Std} {N : Nat} (u : Setup) (s : Simulator std N) (l : Log) : Op → Except Err (Simulator std N × Log)
  | .core c => do
    let core ← s.core.doCommand std u.core c.core
    pure ({ s with core }, l)
  | .iface c => do
    let interface ← s.interface.doCommand u.iface c
    pure ({ s with interface }, l)
  | .both c => match s.doCommand u.core u.iface c with
    | .done s => .ok (s, l)
    | .refused e | .halfway _ e => .error e
  | .dbi enable => .ok ({ s with interface := s.interface.enableDBI enable }, l)
  | .stats => do
    let (s, st) ← s.getStats u.core u.iface
    pure (s, { l with stats := l.stats ++ [st] })
  | .window t => do
    let (s, st) ← s.getWindowStats u.core u.iface t
    pure (s, { l with stats := l.stats ++ [st] })
  | .coreEnergy t => do
    let (s, e) ← s.calcCoreEnergy u.core u.iface u.power t
    pure (s, { l with energies := l.energies ++ [e] })
  | .ifaceEnergy t => do
    let (s, e) ← s.calcInterfaceEnergy u.core u.iface u.wires t
    pure (s, { l with infos := l.infos ++ [e] })
  | .look => .ok (s, { l with cores := l.cores ++ [s.core] })

/-- All calls. -/
def steps {std : Std} {N : Nat} (u : Setup) (s : Simulator std N) (l : Log) (n : Nat) : List Op → Log
  | [] => l
  | o :: os => match step u s l o with
    | .ok (s, l) => steps u s l (n + 1) os
    | .error e => { l with error := some (n, e) }

/-- Construction and all calls. -/
def run (std : Std) (u : Setup) (ops : List Op) : Log :=
  match DataBus.presetSize (u.iface.devices * u.iface.bitWidth) with
  | .error e => { error := some (0, e) }
  | .ok N => match Simulator.init std N u.core u.iface with
    | .error e => { error := some (0, e) }
    | .ok s => steps u s {} 1 ops

/-- `calculateEnergy` of the given statistics. -/
def calculate (std : Std) (u : Setup) (l : List SimStats) : List InterfaceInfo :=
  l.filterMap fun st => match u.wires.calculateEnergy std st with
    | .ok e => some e
    | .error _ => none

/-- A rate given as a rational number. -/
def rate (r : Rat) : Rate :=
  if h : r.num.toNat ≤ r.den then ⟨r.num.toNat, r.den, r.den_pos, h⟩ else Rate.zero

/-- One direction of `ToggleRateDefinition`. -/
def direction (togglingRate dutyCycle : Rat) (idle : ToggleIdle) : DirRates :=
  { togglingRate := rate togglingRate, dutyCycle := rate dutyCycle, idle }

/-- `std::round` of a non-negative number. -/
def nearest (x : Rat) : Rat := ((x + 1 / 2).floor : Rat)

/-- Conversion of a non-negative number to an integer type. -/
def whole (x : Rat) : Rat := (x.floor : Rat)

/-- The lines of the checks that do not hold. -/
def failing (l : List (Nat × Bool)) : List Nat := (l.filter fun c => !c.2).map (·.1)

end DRAMPower.Tests
