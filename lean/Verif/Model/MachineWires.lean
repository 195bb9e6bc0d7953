import Verif.Model.Bus
import Verif.Model.Pin
import Verif.Model.Clock
import Verif.Model.Toggling
import Verif.Model.Machine

/-!
# Bus, pin, clock and toggling rates with the arithmetic of the machine

The components of `Model/Bus.lean`, `Model/Pin.lean`, `Model/Clock.lean` and `Model/Toggling.lean` once more, with every `timestamp_t`,
`std::size_t` and counter an unsigned number of 64 bits and every operation modulo 2^64, as C++ computes them. The other simplifications of
these files apply here too.

Paths in comments are relative to `/repo/src/DRAMPower/DRAMPower/`.
-/

namespace DRAMPower.Machine

/-- `util::bus_stats_t` (util/bus_types.h 19-24). -/
structure BusStats where
  ones : UInt64 := 0
  zeroes : UInt64 := 0
  bitChanges : UInt64 := 0
  onesToZeroes : UInt64 := 0
  zeroesToOnes : UInt64 := 0
deriving DecidableEq, Repr

namespace BusStats

/-- `operator+=`, `operator+` (util/bus_types.h 26-33, 44-46). -/
def add (a b : BusStats) : BusStats where
  ones := a.ones + b.ones
  zeroes := a.zeroes + b.zeroes
  bitChanges := a.bitChanges + b.bitChanges
  onesToZeroes := a.onesToZeroes + b.onesToZeroes
  zeroesToOnes := a.zeroesToOnes + b.zeroesToOnes

/-- `operator*=`, `operator*` (util/bus_types.h 35-42, 48-54). -/
def mul (k : UInt64) (a : BusStats) : BusStats where
  ones := a.ones * k
  zeroes := a.zeroes * k
  bitChanges := a.bitChanges * k
  onesToZeroes := a.onesToZeroes * k
  zeroesToOnes := a.zeroesToOnes * k

instance : Add BusStats := ⟨add⟩

end BusStats

/-- `PendingStats<T>` (util/pending_stats.h 14-77). -/
structure Pending (α : Type) where
  timestamp : UInt64 := 0
  stats : α
  pending : Bool := false
deriving DecidableEq, Repr

/-! ## Bus -/

/-- `BusContainer` (util/burst_storage.h 33-40). -/
structure BusContainer (N : Nat) where
  bursts : List (BitVec N) := []
  count : UInt64 := 0
  loadTime : UInt64 := 0
deriving DecidableEq, Repr

namespace BusContainer
variable {N : Nat}

/-- `endTime` (util/burst_storage.h 278-280). -/
def endTime (d : BusContainer N) : UInt64 := d.loadTime + d.count

/-- `clear` (util/burst_storage.h 265-268). -/
def clear (d : BusContainer N) : BusContainer N := { d with count := 0, loadTime := 0 }

/-- `get_burst` = `get_const` (util/burst_storage.h 370-372, 256-259). -/
def getBurst (d : BusContainer N) (n : UInt64) : BitVec N := d.bursts.getD (d.count - 1 - n).toNat 0

/-- `BurstStorageInsertHelper::insert_data` (util/burst_storage.h 398-421) with `invert = false`; all its indices are below `n_bits`. -/
def insertData (d : BusContainer N) (t width : UInt64) (data : List UInt8) (nBits : UInt64) : Except Err (BusContainer N) :=
  if width = 0 then .error (.ub "n_bits / width")
  else
    let n := nBits / width
    if n ≠ 0 ∧ N < width.toNat then .error (.exception "bitset::set")
    else if 8 * data.length < n.toNat * width.toNat then .error (.ub "data[byte_index]")
    else .ok { bursts := (List.range n.toNat).map (fun i => fillWord width.toNat data i (d.bursts.getD i 0)) ++ d.bursts.drop n.toNat
               count := n
               loadTime := t }

end BusContainer

/-- Data members of `Bus` (util/bus.h 36-54). -/
structure Bus (N : Nat) where
  stats : BusStats := {}
  storage : BusContainer N := {}
  lastLoad : UInt64 := 0
  enabled : Bool := true
  disableTime : UInt64 := 0
  width : UInt64
  datarate : UInt64
  pending : Pending BusStats := { stats := {} }
  lastPattern : BitVec N
  idleStats : BusStats
  idleWord : BitVec N
deriving DecidableEq, Repr

namespace Bus
variable {N : Nat}

/-- `Bus::diff` (util/bus.h 250-258); the counts are at most the size of the bit set. -/
def diff (width : UInt64) (high low : BitVec N) : BusStats where
  ones := w (popcount low)
  zeroes := width - w (popcount low)
  bitChanges := w (DRAMPower.bitChanges high low)
  onesToZeroes := w (oneToZeroes high low)
  zeroesToOnes := w (zeroToOnes high low)

/-- Constructor (util/bus.h 56-88). -/
def init (N : Nat) (width datarate : UInt64) (idle : IdlePattern) (enabled : Bool := true) : Except Err (Bus N) :=
  if idle = .H ∧ N < width.toNat then .error (.exception "bitset::set")
  else
    let x : BitVec N := DRAMPower.Bus.idleOf width.toNat idle
    let s := diff width x x
    .ok { width, datarate, enabled, lastPattern := x, idleStats := s, idleWord := x
          pending := if enabled then { timestamp := 0, stats := s, pending := true } else { stats := {} } }

/-- `Bus::at` (util/bus.h 182-190) behind its assertion. -/
def word (b : Bus N) (n : UInt64) : BitVec N :=
  if b.storage.count ≤ n - b.lastLoad then b.idleWord else b.storage.getBurst (n - b.lastLoad)

/-- `Bus::at` (util/bus.h 182-190). -/
def at? (b : Bus N) (n : UInt64) : Except Err (BitVec N) :=
  if n < b.lastLoad then .error (.assertion "n >= last_load") else .ok (b.word n)

/-- The loop of `advance_stats` (util/bus.h 97-99): `t` is `last_load` plus the number of rounds, `t < lastburstEnd - 1` in each. -/
def burstLoop (b : Bus N) (e : UInt64) (s : BusStats) : BusStats :=
  if e = 0 then s
  else if b.lastLoad < e - 1 then
    (List.range (e - 1 - b.lastLoad).toNat).foldl (fun s k =>
      s + diff b.width (b.word (b.lastLoad + w k)) (b.word (b.lastLoad + w k + 1))) s
  else s

/-- `advance_stats` (util/bus.h 92-109). -/
def advance (b : Bus N) (vt : UInt64) (s : BusStats) : Except Err BusStats := do
  let e := b.storage.endTime
  let s := b.burstLoop (min e vt) s
  let s ← if e < vt ∧ 0 < e then do
      let high ← b.at? (e - 1)
      let low ← b.at? e
      pure (s + diff b.width high low)
    else pure s
  if e < vt then pure (s + BusStats.mul (vt - e - 1) b.idleStats) else pure s

/-- `add_previous_stats` (util/bus.h 111-126). -/
def addPrevious (b : Bus N) (vt : UInt64) : Except Err (Bus N) :=
  if vt < b.pending.timestamp then .error (.assertion "No interleaved commands") else do
  let b := if b.pending.pending ∧ b.pending.timestamp < vt then
      { b with stats := b.stats + b.pending.stats, pending := { b.pending with pending := false } } else b
  let s ← b.advance vt b.stats
  let b := { b with stats := s }
  if 0 < vt then do
    let p ← b.at? (vt - 1)
    pure { b with lastPattern := p }
  else pure b

/-- `add_data` (util/bus.h 128-143). -/
def addData (b : Bus N) (vt : UInt64) (data : List UInt8) (nBits : UInt64) : Except Err (Bus N) := do
  let d ← b.storage.insertData vt b.width data nBits
  let b := { b with storage := d }
  let first ← b.at? b.lastLoad
  let b := { b with pending := { timestamp := vt, stats := diff b.width b.lastPattern first, pending := true } }
  if b.storage.count ≠ 0 then pure { b with lastPattern := b.storage.getBurst (b.storage.count - 1) } else pure b

/-- `load` of a byte payload (util/bus.h 146-165), with the assertion that the time in beats fits 64 bits (152). -/
def load (b : Bus N) (t : UInt64) (data : List UInt8) (nBits : UInt64) : Except Err (Bus N) :=
  if !b.enabled then .ok b
  else if b.datarate = 0 then .error (.ub "division by zero")
  else if w (2 ^ 64 - 1) / b.datarate < t then .error (.assertion "timestamp <= max / datarate")
  else
    let vt := t * b.datarate
    if vt < b.lastLoad + b.storage.count then .error (.assertion "No interleaved commands") else do
    let b ← b.addPrevious vt
    let b := { b with lastLoad := vt, storage := b.storage.clear }
    b.addData vt data nBits

/-- `disable` (util/bus.h 193-209); the returned time is not modelled. -/
def disable (b : Bus N) (t : UInt64) : Except Err (Bus N) :=
  let vt := t * b.datarate
  if !b.enabled then
    if vt < b.disableTime then .error (.assertion "timestamp * datarate >= virtual_disable_timestamp") else .ok b
  else
    let b := { b with disableTime := vt }
    if vt < b.lastLoad then .error (.assertion "virtual_disable_timestamp >= last_load") else do
    let b ← b.addPrevious vt
    pure { b with storage := b.storage.clear, lastLoad := vt, enabled := false }

/-- `enable` (util/bus.h 211-221). -/
def enable (b : Bus N) (t : UInt64) : Except Err (Bus N) :=
  if b.enabled then .ok b
  else if t * b.datarate ≤ b.disableTime then .error (.assertion "timestamp * datarate > virtual_disable_timestamp")
  else
    let vt := t * b.datarate
    .ok { b with lastLoad := vt, pending := { timestamp := vt, stats := b.idleStats, pending := true }, enabled := true }

/-- `get_stats` (util/bus.h 226-248): no check that the time in beats fits 64 bits. -/
def getStats (b : Bus N) (t : UInt64) : Except Err BusStats :=
  let vt := t * b.datarate
  if vt < b.lastLoad then .error (.assertion "t_virtual >= last_load")
  else if vt = 0 then .ok b.stats
  else
    let s := if b.pending.pending ∧ b.pending.timestamp < vt then b.stats + b.pending.stats else b.stats
    if b.enabled then b.advance vt s else .ok s

end Bus

/-- Calls on a bus. -/
inductive BusOp
  | load (t : UInt64) (data : List UInt8) (nBits : UInt64)
  | disable (t : UInt64)
  | enable (t : UInt64)

/-- One call. -/
def Bus.step {N : Nat} (b : Bus N) : BusOp → Except Err (Bus N)
  | .load t data n => b.load t data n
  | .disable t => b.disable t
  | .enable t => b.enable t

/-- A sequence of calls. -/
def Bus.run {N : Nat} (b : Bus N) : List BusOp → Except Err (Bus N)
  | [] => .ok b
  | op :: ops => match b.step op with
    | .ok b => b.run ops
    | .error e => .error e

/-! ## Clock -/

/-- Data members of `Clock` (util/clock.h 19-21). -/
structure Clock where
  lastStart : Option UInt64
  stats : BusStats := {}
  dataRate : UInt64
deriving DecidableEq, Repr

namespace Clock

/-- `count` (util/clock.h 24-36). -/
def count (c : Clock) (duration : UInt64) : BusStats where
  ones := duration * c.dataRate / 2
  zeroes := duration * c.dataRate / 2
  zeroesToOnes := duration * c.dataRate / 2
  onesToZeroes := duration * c.dataRate / 2
  bitChanges := duration * c.dataRate / 2 + duration * c.dataRate / 2

/-- Constructor (util/clock.h 39-46). -/
def init (dataRate : UInt64 := 2) (stopped : Bool := false) : Clock :=
  { lastStart := if stopped then none else some 0, dataRate }

/-- `stop` (util/clock.h 49-56). -/
def stop (c : Clock) (t : UInt64) : Except Err Clock :=
  match c.lastStart with
  | none => .error (.assertion "last_start.has_value()")
  | some s => if s < t then .ok { c with stats := c.stats + c.count (t - s), lastStart := none }
    else .error (.assertion "*last_start < t")

/-- `start` (util/clock.h 58-62). -/
def start (c : Clock) (t : UInt64) : Except Err Clock :=
  match c.lastStart with
  | some _ => .error (.assertion "!last_start.has_value()")
  | none => .ok { c with lastStart := some t }

/-- `get_stats_at` (util/clock.h 65-74). -/
def getStats (c : Clock) (t : UInt64) : BusStats :=
  match c.lastStart with
  | none => c.stats
  | some s => c.stats + c.count (t - s)

end Clock

/-- Calls on a clock. -/
inductive ClockOp
  | start (t : UInt64)
  | stop (t : UInt64)

/-- A sequence of calls. -/
def Clock.run (c : Clock) : List ClockOp → Except Err Clock
  | [] => .ok c
  | .start t :: ops => c.start t >>= fun c => c.run ops
  | .stop t :: ops => c.stop t >>= fun c => c.run ops

/-! ## Toggling rates -/

/-- Data members of `TogglingHandle` (dram/Interface.h 32-41); `last_burst` (18-28) is flattened. -/
structure Toggling where
  width : UInt64
  datarate : UInt64
  togglingRate : Rate
  dutyCycle : Rate
  idle : ToggleIdle
  enabled : Bool
  lastLength : UInt64 := 0
  lastLoad : UInt64 := 0
  handled : Bool := true
  count : UInt64 := 0
  disableTimestamp : UInt64 := 0
  disableTime : UInt64 := 0
deriving DecidableEq, Repr

namespace Toggling

/-- Constructor (dram/Interface.cpp 21-33). -/
def init (width datarate : UInt64) (togglingRate dutyCycle : Rate) (idle : ToggleIdle) (enabled : Bool := true) : Except Err Toggling :=
  if width = 0 then .error (.assertion "width > 0")
  else if datarate = 0 then .error (.assertion "datarate > 0")
  else .ok { width, datarate, togglingRate, dutyCycle, idle, enabled }

/-- `disable` (dram/Interface.cpp 35-52). -/
def disable (h : Toggling) (t : UInt64) : Toggling :=
  let vt := t * h.datarate
  if !h.enabled then h
  else
    let count := if !h.handled then
        if h.lastLength + h.lastLoad ≤ vt then h.count + h.lastLength else h.count + (vt - h.lastLoad)
      else h.count
    { h with count, handled := true, disableTimestamp := vt, enabled := false }

/-- `enable` (dram/Interface.cpp 54-61). -/
def enable (h : Toggling) (t : UInt64) : Toggling :=
  if h.enabled then h
  else { h with disableTime := h.disableTime + (t * h.datarate - h.disableTimestamp), enabled := true }

/-- `setTogglingRateAndDutyCycle` (dram/Interface.cpp 94-99). -/
def setRates (h : Toggling) (togglingRate dutyCycle : Rate) (idle : ToggleIdle) : Toggling :=
  { h with togglingRate, dutyCycle, idle }

/-- `incCountBurstLength` (dram/Interface.cpp 119-145). -/
def incBurst (h : Toggling) (t length : UInt64) : Except Err Toggling :=
  let vt := t * h.datarate
  if vt / h.datarate ≠ t then .error (.assertion "no overflow")
  else if !h.handled ∧ vt < h.lastLength + h.lastLoad then .error (.assertion "burst overlaps the last burst")
  else
    let count := if !h.handled then h.count + h.lastLength else h.count
    if h.enabled then .ok { h with count, lastLength := length, lastLoad := vt, handled := false }
    else .ok { h with count, handled := true }

/-- `incCountBitLength` (dram/Interface.cpp 146-150). -/
def incBits (h : Toggling) (t bits : UInt64) : Except Err Toggling :=
  if h.width = 0 then .error (.ub "bitlength % width")
  else if bits % h.width ≠ 0 then .error (.assertion "bitlength % width == 0")
  else h.incBurst t (bits / h.width)

/-- `get_stats` (dram/Interface.cpp 151-194). The products with the rates are truncated; they do not exceed the count. -/
def getStats (h : Toggling) (t : UInt64) : Except Err BusStats :=
  let vt := t * h.datarate
  if vt / h.datarate ≠ t then .error (.assertion "no overflow")
  else
    let count := if h.enabled ∧ !h.handled then
        if vt < h.lastLength + h.lastLoad then h.count + (vt - h.lastLoad) else h.count + h.lastLength
      else h.count
    let disableTime := if h.enabled then h.disableTime else h.disableTime + (vt - h.disableTimestamp)
    let ones := w (count.toNat * h.dutyCycle.num / h.dutyCycle.den)
    let zeroes := w (count.toNat * (h.dutyCycle.den - h.dutyCycle.num) / h.dutyCycle.den)
    let o2z := w (count.toNat * h.togglingRate.num / (2 * h.togglingRate.den))
    let idle := vt - disableTime - count
    match h.idle with
    | .invalid => .error (.exception "Invalid TogglingRateIdlePattern")
    | .L => .ok { ones := ones * h.width, zeroes := (zeroes + idle) * h.width, onesToZeroes := o2z * h.width
                  zeroesToOnes := o2z * h.width, bitChanges := o2z * h.width + o2z * h.width }
    | .H => .ok { ones := (ones + idle) * h.width, zeroes := zeroes * h.width, onesToZeroes := o2z * h.width
                  zeroesToOnes := o2z * h.width, bitChanges := o2z * h.width + o2z * h.width }

end Toggling

/-- Calls on the toggling-rate model. -/
inductive ToggleOp
  | transfer (t bits : UInt64)
  | disable (t : UInt64)
  | enable (t : UInt64)
  | rates (togglingRate dutyCycle : Rate) (idle : ToggleIdle)

/-- One call. -/
def Toggling.step (h : Toggling) : ToggleOp → Except Err Toggling
  | .transfer t bits => h.incBits t bits
  | .disable t => .ok (h.disable t)
  | .enable t => .ok (h.enable t)
  | .rates r d i => .ok (h.setRates r d i)

/-- A sequence of calls. -/
def Toggling.run (h : Toggling) : List ToggleOp → Except Err Toggling
  | [] => .ok h
  | op :: ops => match h.step op with
    | .ok h => h.run ops
    | .error e => .error e

/-! ## Pin -/

/-- `BitsetContainer` (util/burst_storage.h 25-31). -/
structure BitsetContainer (N : Nat) where
  bitset : BitVec N := 0
  count : UInt64 := 0
  loadTime : UInt64 := 0
deriving DecidableEq, Repr

namespace BitsetContainer
variable {N : Nat}

/-- `endTime` (util/burst_storage.h 163-165). -/
def endTime (d : BitsetContainer N) : UInt64 := d.loadTime + d.count

/-- `count(data, start, end)` (util/burst_storage.h 58-110) without the argument `prev`, which no caller passes. -/
def stats (d : BitsetContainer N) (start stop : UInt64) : Except Err BusStats :=
  if start < d.loadTime then .error (.assertion "start timestamp must be greater or equal to load timestamp")
  else
    let length := stop - start
    let length := if d.count < length then d.count else length
    let offset := start - d.loadTime
    if d.count < length + offset then .error (.assertion "Invalid bitset access")
    else
      let mask := DRAMPower.BitsetContainer.mask N length.toNat
      let val := (d.bitset >>> offset.toNat) &&& mask
      let shifted := val >>> 1
      let toggles := (val ^^^ shifted) &&& (mask >>> 1)
      let z2o := w (popcount (toggles &&& shifted))
      .ok { ones := w (popcount val), zeroes := length - w (popcount val), bitChanges := w (popcount toggles)
            zeroesToOnes := z2o, onesToZeroes := w (popcount toggles) - z2o }

/-- `push_back` (util/burst_storage.h 116-124) with the assertion of `resize` (112-114). -/
def pushBack (d : BitsetContainer N) (t : UInt64) (bit : Bool) : Except Err (BitsetContainer N) :=
  let d := if t ≠ d.loadTime then { d with count := 0, loadTime := t } else d
  if N < (d.count + 1).toNat then .error (.assertion "bitset_size not enough")
  else .ok { d with bitset := setBit d.bitset d.count.toNat bit, count := d.count + 1 }

/-- `get_burst(0)` = `get_const(0)` (util/burst_storage.h 131-134, 370-372). -/
def last (d : BitsetContainer N) : Except Err Bool :=
  if d.count = 0 then .error (.assertion "Invalid access") else .ok (d.bitset.getLsbD (d.count - 1).toNat)

end BitsetContainer

/-- Data members of `Pin` (util/pin.h 218-228). -/
structure Pin (N : Nat) where
  pending : Pending (PinState × PinState)
  stats : BusStats := {}
  lastState : PinState
  idleState : PinState
  initLoad : Bool := true
  lastSet : UInt64 := 0
  storage : BitsetContainer N := {}
deriving DecidableEq, Repr

namespace Pin
variable {N : Nat}

/-- Constructor (util/pin.h 50-53). -/
def init (N : Nat) (initState idleState : PinState) : Pin N :=
  { pending := { stats := (.L, .L) }, lastState := initState, idleState }

/-- `getPinChangeStats` (util/pin.h 73-88). -/
def change : PinState → PinState → BusStats
  | .L, .H => { bitChanges := 1, zeroesToOnes := 1 }
  | .H, .L => { bitChanges := 1, onesToZeroes := 1 }
  | _, _ => {}

/-- First overload of `addPendingStats` (util/pin.h 57-62). -/
def addPending (t : UInt64) (p : Pending (PinState × PinState)) (s : BusStats) : BusStats :=
  if p.pending ∧ p.timestamp < t then s + change p.stats.1 p.stats.2 else s

/-- The last part of `count` (util/pin.h 107-120). -/
def duration (state : PinState) (n : UInt64) : BusStats :=
  match state with
  | .L => { zeroes := n }
  | .H => { ones := n }
  | .Z => {}

/-- `count` (util/pin.h 90-121). -/
def count (p : Pin N) (stop start : UInt64) (state : PinState) (s : BusStats) : Except Err BusStats :=
  if stop ≤ start then .ok s
  else if start < p.storage.endTime then do
    let c ← p.storage.stats start stop
    let s := s + c
    let start := p.storage.endTime
    if start < stop then do
      let b ← p.storage.last
      let s := s + change (if b then .H else .L) state
      pure (s + duration state (stop - start))
    else pure s
  else pure (s + duration state (stop - start))

/-- `set_internal` (util/pin.h 122-138). -/
def setInternal (p : Pin N) (t dataRate : UInt64) (s : BusStats) : Except Err BusStats :=
  let vt := t * dataRate
  if vt < p.lastSet then .error (.assertion "virtual_time >= m_last_set")
  else
    let s := if p.initLoad ∧ 0 < vt then s + change p.lastState p.idleState else s
    let s := addPending vt p.pending s
    p.count vt p.lastSet p.idleState s

/-- `set` (util/pin.h 143-172). -/
def set (p : Pin N) (t : UInt64) (state : PinState) (dataRate : UInt64 := 1) : Except Err (Pin N) := do
  let vt := t * dataRate
  let s ← p.setInternal vt dataRate p.stats
  let p := { p with stats := s }
  let p := if p.pending.pending ∧ p.pending.timestamp < vt then { p with pending := { p.pending with pending := false } } else p
  let p := if p.lastSet ≠ vt ∨ p.initLoad then
      let lastState := if vt = p.lastSet + p.storage.count ∨ (p.initLoad ∧ vt = 0) then p.lastState else p.idleState
      { p with pending := { timestamp := vt, stats := (lastState, state), pending := true } }
    else p
  let d ← p.storage.pushBack vt (state == .H)
  pure { p with storage := d, lastSet := vt, lastState := state, initLoad := false }

/-- `get_stats_at` (util/pin.h 175-197). -/
def getStats (p : Pin N) (t : UInt64) (dataRate : UInt64 := 1) : Except Err BusStats :=
  let vt := t * dataRate
  if vt < p.lastSet then .error (.assertion "virtual_time >= m_last_set")
  else if vt = p.lastSet then .ok p.stats
  else
    let s := p.stats
    let s := if p.initLoad ∧ 0 < vt then s + change p.lastState p.idleState else s
    let s := addPending vt p.pending s
    p.count vt p.lastSet p.idleState s

/-- The bits of one burst, set one after the other at the same time. -/
def burst (p : Pin N) (t : UInt64) (bits : List PinState) (dataRate : UInt64 := 1) : Except Err (Pin N) :=
  bits.foldlM (fun p b => p.set t b dataRate) p

/-- A history of bursts. -/
def run (p : Pin N) (bursts : List (UInt64 × List PinState)) (dataRate : UInt64 := 1) : Except Err (Pin N) :=
  bursts.foldlM (fun p b => p.burst b.1 b.2 dataRate) p

end Pin
end DRAMPower.Machine
