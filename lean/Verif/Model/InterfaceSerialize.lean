import Verif.Model.Interface
import Verif.Model.Serialize

/-!
# Saving and restoring the interface

Paths in comments are relative to `/repo/src/DRAMPower/DRAMPower/`.

Simplifications, besides those of `Verif.Model.Serialize`:
* a `double` is stored by an arbitrary `Codec` of rates;
* `std::bitset<N>` is stored raw as in libstdc++ (whole 64 bit words, little endian);
* the entries of an `std::unordered_map` are written in an arbitrary order;
* after `reserve(n)` an `std::vector<bool>` has an arbitrary capacity `reserve n`;
* the value of `TogglingRateIdlePattern` (DRAMUtils, not part of the repository) is numbered 0, 1, 2.
-/

namespace DRAMPower

/-- What the language leaves open. -/
structure Codec where
  /-- padding bytes, by stream position -/
  pad : Nat → UInt8
  /-- representation of a rate as `double` -/
  rate : Rate → Bytes
  /-- value of a `double` -/
  toRate : Bytes → Option Rate
  /-- order in which the overrides are visited -/
  order : Overrides → Overrides
  /-- capacity after `reserve` -/
  reserve : Nat → Nat

namespace Ser

/-- `for (const auto& x : l) x.serialize(stream)`. -/
def putEach {α : Type} (f : α → Bytes → Bytes) (l : List α) (out : Bytes) : Bytes := l.foldl (fun out x => f x out) out

/-- `for (auto& x : l) x.deserialize(stream)`: the elements are overwritten. -/
def getEach {α : Type} (f : α → Bytes → Option (α × Bytes)) : List α → Bytes → Option (List α × Bytes)
  | [], s => some ([], s)
  | x :: l, s => do
    let (y, s) ← f x s
    let (l, s) ← getEach f l s
    pure (y :: l, s)

/-- Read `n` elements. -/
def getMany {α : Type} (f : Bytes → Option (α × Bytes)) : Nat → Bytes → Option (List α × Bytes)
  | 0, s => some ([], s)
  | n + 1, s => do
    let (y, s) ← f s
    let (l, s) ← getMany f n s
    pure (y :: l, s)

/-- `k` bytes of a number, least significant first. -/
def putRaw (k n : Nat) (out : Bytes) : Bytes := out ++ le k n

/-- A number of `k` bytes. -/
def getRaw (k : Nat) (s : Bytes) : Option (Nat × Bytes) := (getBytes k s).map fun (b, s) => (fromLe b, s)

end Ser

open Ser

/-- `bus_stats_t::serialize` (util/bus_types.h 56-62). -/
def BusStats.serialize (x : BusStats) (out : Bytes) : Bytes :=
  let out := put64 x.ones out
  let out := put64 x.zeroes out
  let out := put64 x.bitChanges out
  let out := put64 x.onesToZeroes out
  put64 x.zeroesToOnes out

/-- `bus_stats_t::deserialize` (util/bus_types.h 63-69). -/
def BusStats.deserialize (s : Bytes) : Option (BusStats × Bytes) := do
  let (ones, s) ← get64 s
  let (zeroes, s) ← get64 s
  let (bitChanges, s) ← get64 s
  let (onesToZeroes, s) ← get64 s
  let (zeroesToOnes, s) ← get64 s
  pure ({ ones, zeroes, bitChanges, onesToZeroes, zeroesToOnes }, s)

/-- `PendingStats::serialize` (util/pending_stats.h 59-64). -/
def Pending.serialize {α : Type} (f : α → Bytes → Bytes) (p : Pending α) (out : Bytes) : Bytes :=
  let out := put64 p.timestamp out
  let out := f p.stats out
  putBool p.pending out

/-- `PendingStats::deserialize` (util/pending_stats.h 65-70). -/
def Pending.deserialize {α : Type} (f : Bytes → Option (α × Bytes)) (s : Bytes) : Option (Pending α × Bytes) := do
  let (timestamp, s) ← get64 s
  let (stats, s) ← f s
  let (pending, s) ← getBool s
  pure ({ timestamp, stats, pending }, s)

/-- Bytes written for a word (util/burst_storage.h 172, 286). -/
def wordBytes (N : Nat) : Nat := (N + 7) / 8

/-- `serializeBurst` (util/burst_storage.h 285-296): bit `8 i + j` of the word is bit `j` of byte `i`. -/
def putWord {N : Nat} (w : BitVec N) (out : Bytes) : Bytes := putRaw (wordBytes N) w.toNat out

/-- `deserializeBurst` (util/burst_storage.h 298-306): bits from `N` on are ignored. -/
def getWord (N : Nat) (s : Bytes) : Option (BitVec N × Bytes) := (getRaw (wordBytes N) s).map fun (n, s) => (BitVec.ofNat N n, s)

/-- Raw write of a `std::bitset<N>` (util/bus.h 266). -/
def putBitset {N : Nat} (w : BitVec N) (out : Bytes) : Bytes := putRaw (8 * ((N + 63) / 64)) w.toNat out

/-- Raw read of a `std::bitset<N>` (util/bus.h 276); bits from `N` on would be invisible. -/
def getBitset (N : Nat) (s : Bytes) : Option (BitVec N × Bytes) :=
  (getRaw (8 * ((N + 63) / 64)) s).map fun (n, s) => (BitVec.ofNat N n, s)

/-- `serialize` of the words of a bus (util/burst_storage.h 308-316). -/
def BusContainer.serialize {N : Nat} (d : BusContainer N) (out : Bytes) : Bytes :=
  let out := put64 d.count out
  let out := put64 d.loadTime out
  let out := put64 d.bursts.length out
  putEach putWord d.bursts out

/-- `deserialize` of the words of a bus (util/burst_storage.h 318-328). -/
def BusContainer.deserialize (N : Nat) (s : Bytes) : Option (BusContainer N × Bytes) := do
  let (count, s) ← get64 s
  let (loadTime, s) ← get64 s
  let (total, s) ← get64 s
  let (bursts, s) ← getMany (getWord N) total s
  pure ({ bursts, count, loadTime }, s)

/-- `Bus::serialize` (util/bus.h 260-268). -/
def Bus.serialize {N : Nat} (b : Bus N) (out : Bytes) : Bytes :=
  let out := b.stats.serialize out
  let out := b.storage.serialize out
  let out := put64 b.lastLoad out
  let out := putBool b.enabled out
  let out := put64 b.disableTime out
  let out := putBitset b.lastPattern out
  b.pending.serialize BusStats.serialize out

/-- `Bus::deserialize` (util/bus.h 270-278): width, data rate and idle pattern are kept. -/
def Bus.deserialize {N : Nat} (b : Bus N) (s : Bytes) : Option (Bus N × Bytes) := do
  let (stats, s) ← BusStats.deserialize s
  let (storage, s) ← BusContainer.deserialize N s
  let (lastLoad, s) ← get64 s
  let (enabled, s) ← getBool s
  let (disableTime, s) ← get64 s
  let (lastPattern, s) ← getBitset N s
  let (pending, s) ← Pending.deserialize BusStats.deserialize s
  pure ({ b with stats, storage, lastLoad, enabled, disableTime, lastPattern, pending }, s)

/-- `PinState` (util/pin_types.h 6-11). -/
def PinState.code : PinState → Nat
  | .L => 0
  | .H => 1
  | .Z => 2

/-- See `PinState.code`. -/
def PinState.ofCode : Nat → Option PinState
  | 0 => some .L
  | 1 => some .H
  | 2 => some .Z
  | _ => none

/-- Write of a `PinState`. -/
def putState (x : PinState) (out : Bytes) : Bytes := put32 x.code out

/-- Read of a `PinState`. -/
def getState (s : Bytes) : Option (PinState × Bytes) := do
  let (n, s) ← get32 s
  let x ← PinState.ofCode n
  pure (x, s)

/-- `PinPendingStats::serialize` (util/pin.h 24-27). -/
def putStates (x : PinState × PinState) (out : Bytes) : Bytes := putState x.2 (putState x.1 out)

/-- `PinPendingStats::deserialize` (util/pin.h 28-31). -/
def getStates (s : Bytes) : Option ((PinState × PinState) × Bytes) := do
  let (a, s) ← getState s
  let (b, s) ← getState s
  pure ((a, b), s)

/-- `serialize` of the bits of a pin (util/burst_storage.h 162-175). -/
def BitsetContainer.serialize {N : Nat} (d : BitsetContainer N) (out : Bytes) : Bytes :=
  let out := put64 d.count out
  let out := put64 d.loadTime out
  putWord d.bitset out

/-- `deserialize` of the bits of a pin (util/burst_storage.h 177-187); every bit is overwritten. -/
def BitsetContainer.deserialize (N : Nat) (s : Bytes) : Option (BitsetContainer N × Bytes) := do
  let (count, s) ← get64 s
  let (loadTime, s) ← get64 s
  let (bitset, s) ← getWord N s
  pure ({ bitset, count, loadTime }, s)

/-- `Pin::serialize` (util/pin.h 200-207). -/
def Pin.serialize {N : Nat} (p : Pin N) (out : Bytes) : Bytes :=
  let out := putState p.lastState out
  let out := put64 p.lastSet out
  let out := putBool p.initLoad out
  let out := p.storage.serialize out
  let out := p.pending.serialize putStates out
  p.stats.serialize out

/-- `Pin::deserialize` (util/pin.h 208-215): the idle state is kept. -/
def Pin.deserialize {N : Nat} (p : Pin N) (s : Bytes) : Option (Pin N × Bytes) := do
  let (lastState, s) ← getState s
  let (lastSet, s) ← get64 s
  let (initLoad, s) ← getBool s
  let (storage, s) ← BitsetContainer.deserialize N s
  let (pending, s) ← Pending.deserialize getStates s
  let (stats, s) ← BusStats.deserialize s
  pure ({ p with lastState, lastSet, initLoad, storage, pending, stats }, s)

/-- `Clock::serialize` (util/clock.h 76-84). -/
def Clock.serialize (pad : Nat → UInt8) (c : Clock) (out : Bytes) : Bytes :=
  let out := putOpt pad c.lastStart out
  c.stats.serialize out

/-- `Clock::deserialize` (util/clock.h 86-97): the data rate is kept. -/
def Clock.deserialize (c : Clock) (s : Bytes) : Option (Clock × Bytes) := do
  let (lastStart, s) ← getOpt s
  let (stats, s) ← BusStats.deserialize s
  pure ({ c with lastStart, stats }, s)

/-- Numbering of the idle patterns. -/
def ToggleIdle.code : ToggleIdle → Nat
  | .L => 0
  | .H => 1
  | .invalid => 2

/-- See `ToggleIdle.code`. -/
def ToggleIdle.ofCode : Nat → Option ToggleIdle
  | 0 => some .L
  | 1 => some .H
  | 2 => some .invalid
  | _ => none

/-- Write of a `double`. -/
def putRate (k : Codec) (r : Rate) (out : Bytes) : Bytes := out ++ k.rate r

/-- Read of a `double`. -/
def getRate (k : Codec) (s : Bytes) : Option (Rate × Bytes) := do
  let (b, s) ← getBytes 8 s
  let r ← k.toRate b
  pure (r, s)

/-- `TogglingHandle::serialize` with `TogglingHandleLastBurst::serialize` (dram/Interface.cpp 200-211, 8-13). -/
def Toggling.serialize (k : Codec) (h : Toggling) (out : Bytes) : Bytes :=
  let out := put64 h.width out
  let out := put64 h.datarate out
  let out := putRate k h.togglingRate out
  let out := putRate k h.dutyCycle out
  let out := put64 h.lastLength out
  let out := put64 h.lastLoad out
  let out := putBool h.handled out
  let out := putBool h.enabled out
  let out := put64 h.count out
  let out := put64 h.disableTimestamp out
  let out := put64 h.disableTime out
  put32 h.idle.code out

/-- `TogglingHandle::deserialize` with `TogglingHandleLastBurst::deserialize` (dram/Interface.cpp 213-224, 15-19). -/
def Toggling.deserialize (k : Codec) (s : Bytes) : Option (Toggling × Bytes) := do
  let (width, s) ← get64 s
  let (datarate, s) ← get64 s
  let (togglingRate, s) ← getRate k s
  let (dutyCycle, s) ← getRate k s
  let (lastLength, s) ← get64 s
  let (lastLoad, s) ← get64 s
  let (handled, s) ← getBool s
  let (enabled, s) ← getBool s
  let (count, s) ← get64 s
  let (disableTimestamp, s) ← get64 s
  let (disableTime, s) ← get64 s
  let (code, s) ← get32 s
  let idle ← ToggleIdle.ofCode code
  pure ({ width, datarate, togglingRate, dutyCycle, idle, enabled, lastLength, lastLoad, handled, count, disableTimestamp, disableTime }, s)

/-- `DataBusMode` (util/databus_types.h 13-16). -/
def DataBusMode.code : DataBusMode → Nat
  | .bus => 0
  | .toggling => 1

/-- See `DataBusMode.code`. -/
def DataBusMode.ofCode : Nat → Option DataBusMode
  | 0 => some .bus
  | 1 => some .toggling
  | _ => none

/-- `DataBus::serialize` (util/databus.h 165-171). -/
def DataBus.serialize {N : Nat} (k : Codec) (d : DataBus N) (out : Bytes) : Bytes :=
  let out := d.busRead.serialize out
  let out := d.busWrite.serialize out
  let out := d.togglingRead.serialize k out
  let out := d.togglingWrite.serialize k out
  put32 d.mode.code out

/-- `DataBus::deserialize` (util/databus.h 173-179). -/
def DataBus.deserialize {N : Nat} (k : Codec) (d : DataBus N) (s : Bytes) : Option (DataBus N × Bytes) := do
  let (busRead, s) ← d.busRead.deserialize s
  let (busWrite, s) ← d.busWrite.deserialize s
  let (togglingRead, s) ← Toggling.deserialize k s
  let (togglingWrite, s) ← Toggling.deserialize k s
  let (code, s) ← get32 s
  let mode ← DataBusMode.ofCode code
  pure ({ busRead, busWrite, togglingRead, togglingWrite, mode }, s)

/-- Write of a `uint8_t` (util/dbi.h 116, 329). -/
def putByte (b : BitVec 8) (out : Bytes) : Bytes := out ++ [UInt8.ofBitVec b]

/-- Read of a `uint8_t` (util/dbi.h 345). -/
def getByte : Bytes → Option (BitVec 8 × Bytes)
  | [] => none
  | b :: s => some (b.toBitVec, s)

/-- Read of a byte into a `bool` that is then converted to `uint8_t` (util/dbi.h 141-143). -/
def getByteAsBool (s : Bytes) : Option (BitVec 8 × Bytes) := do
  let (b, s) ← getBool s
  pure (if b then 1 else 0, s)

/-- `LastBurst_t::serialize` (util/dbi.h 102-118); `m_n_bits` is always 0. -/
def LastBurst.serialize (l : LastBurst 8) (out : Bytes) : Bytes :=
  let out := put64 l.start out
  let out := put64 l.stop out
  let out := put64 l.nChunks out
  let out := put64 0 out
  let out := putBool l.init out
  let out := put64 l.inversions.length out
  let out := putEach putBool l.inversions out
  let out := put64 l.lastbeat.length out
  putEach putByte l.lastbeat out

/-- `LastBurst_t::deserialize` (util/dbi.h 120-145). -/
def LastBurst.deserialize (k : Codec) (s : Bytes) : Option (LastBurst 8 × Bytes) := do
  let (start, s) ← get64 s
  let (stop, s) ← get64 s
  let (nChunks, s) ← get64 s
  let (_, s) ← get64 s
  let (init, s) ← getBool s
  let (n, s) ← get64 s
  let (inversions, s) ← getMany getBool n s
  let (m, s) ← get64 s
  let (lastbeat, s) ← getMany getByteAsBool m s
  pure ({ start, stop, nChunks, init, inversions, capacity := k.reserve n, lastbeat }, s)

/-- `DBI::serialize` (util/dbi.h 319-331). -/
def Dbi.serialize (d : Dbi 8) (out : Bytes) : Bytes :=
  let out := putBool d.enable out
  let out := putBool d.lastBurstRead out
  let out := d.lastRead.serialize out
  let out := d.lastWrite.serialize out
  let out := put64 d.inverted.length out
  putEach putByte d.inverted out

/-- `DBI::deserialize` (util/dbi.h 332-348). -/
def Dbi.deserialize (k : Codec) (s : Bytes) : Option (Dbi 8 × Bytes) := do
  let (enable, s) ← getBool s
  let (lastBurstRead, s) ← getBool s
  let (lastRead, s) ← LastBurst.deserialize k s
  let (lastWrite, s) ← LastBurst.deserialize k s
  let (n, s) ← get64 s
  let (inverted, s) ← getMany getByte n s
  pure ({ lastBurstRead, lastRead, lastWrite, inverted, enable }, s)

/-- `RankInterface::serialize` (dram/Rank.cpp 66-75). -/
def RankIf.serialize (r : RankIf) (out : Bytes) : Bytes :=
  let out := put64 r.seamlessRead out
  let out := put64 r.seamlessWrite out
  let out := put64 r.mergedRead out
  let out := put64 r.mergedWrite out
  let out := put64 r.mergedTimeRead out
  let out := put64 r.mergedTimeWrite out
  let out := put64 r.lastReadEnd out
  put64 r.lastWriteEnd out

/-- `RankInterface::deserialize` (dram/Rank.cpp 76-85). -/
def RankIf.deserialize (s : Bytes) : Option (RankIf × Bytes) := do
  let (seamlessRead, s) ← get64 s
  let (seamlessWrite, s) ← get64 s
  let (mergedRead, s) ← get64 s
  let (mergedWrite, s) ← get64 s
  let (mergedTimeRead, s) ← get64 s
  let (mergedTimeWrite, s) ← get64 s
  let (lastReadEnd, s) ← get64 s
  let (lastWriteEnd, s) ← get64 s
  pure ({ seamlessRead, seamlessWrite, mergedRead, mergedWrite, mergedTimeRead, mergedTimeWrite, lastReadEnd, lastWriteEnd }, s)

/-- Values of `pattern_descriptor::t` (command/Pattern.h 18-27). -/
def Desc.code : Desc → Nat
  | .H => 0
  | .L => 1
  | .V => 2
  | .X => 3
  | .A i => 4 + i
  | .BG i => 22 + i
  | .BA i => 25 + i
  | .C i => 34 + i
  | .R i => 51 + i
  | .CID i => 75 + i
  | .AP => 79
  | .BL => 80

/-- See `Desc.code`. -/
def Desc.ofCode (n : Nat) : Option Desc :=
  if n = 0 then some .H else if n = 1 then some .L else if n = 2 then some .V else if n = 3 then some .X
  else if n < 22 then some (.A (Fin.ofNat 18 (n - 4)))
  else if n < 25 then some (.BG (Fin.ofNat 3 (n - 22)))
  else if n < 34 then some (.BA (Fin.ofNat 9 (n - 25)))
  else if n < 51 then some (.C (Fin.ofNat 17 (n - 34)))
  else if n < 75 then some (.R (Fin.ofNat 24 (n - 51)))
  else if n < 79 then some (.CID (Fin.ofNat 4 (n - 75)))
  else if n = 79 then some .AP else if n = 80 then some .BL else none

/-- Values of `PatternEncoderBitSpec` (command/Pattern.h 30-36); -1 in 32 bits. -/
def BitSpec.code : BitSpec → Nat
  | .L => 0
  | .H => 1
  | .LAST_BIT => 2
  | .INVALID => 0xffffffff

/-- See `BitSpec.code`. -/
def BitSpec.ofCode (n : Nat) : Option BitSpec :=
  if n = 0 then some .L else if n = 1 then some .H else if n = 2 then some .LAST_BIT
  else if n = 0xffffffff then some .INVALID else none

/-- Write of an override (command/Pattern.h 161-162). -/
def putSetting (e : Desc × BitSpec) (out : Bytes) : Bytes := put32 e.2.code (put32 e.1.code out)

/-- Read of an override (command/Pattern.h 174-177). -/
def getSetting (s : Bytes) : Option ((Desc × BitSpec) × Bytes) := do
  let (a, s) ← get32 s
  let d ← Desc.ofCode a
  let (b, s) ← get32 s
  let x ← BitSpec.ofCode b
  pure ((d, x), s)

/-- `PatternHandler::serialize` and `BasePatternEncoder::serialize` (util/PatternHandler.h 103-105, command/Pattern.h 153-164).
The last word is not written. -/
def CaHandler.serialize (k : Codec) (h : CaHandler) (out : Bytes) : Bytes :=
  let out := put64 (k.order h.settings).length out
  putEach putSetting (k.order h.settings) out

/-- `PatternHandler::deserialize` and `BasePatternEncoder::deserialize` (util/PatternHandler.h 106-108, command/Pattern.h 165-180). -/
def CaHandler.deserialize (h : CaHandler) (s : Bytes) : Option (CaHandler × Bytes) := do
  let (n, s) ← get64 s
  let (l, s) ← getMany getSetting n s
  pure ({ h with settings := Overrides.update [] l }, s)

/-- The same for LPDDR6 with `LPDDR6PatternExtraData::serialize` (standards/lpddr6/LPDDR6Pattern.h 35-38); there are never
overrides. -/
def CaHandler6.serialize (h : CaHandler6) (out : Bytes) : Bytes :=
  let out := put64 h.extra.currentBurstLength out
  let out := putBool h.extra.parityCheckMode out
  put64 0 out

/-- The same for LPDDR6 with `LPDDR6PatternExtraData::deserialize` (standards/lpddr6/LPDDR6Pattern.h 39-42); overrides
that do not exist in the model are refused. -/
def CaHandler6.deserialize (h : CaHandler6) (s : Bytes) : Option (CaHandler6 × Bytes) := do
  let (currentBurstLength, s) ← get64 s
  let (parityCheckMode, s) ← getBool s
  let (n, s) ← get64 s
  if n = 0 then pure ({ h with extra := { h.extra with currentBurstLength, parityCheckMode } }, s) else none

namespace Interface
variable {std : Std} {N : Nat}

/-- `m_patternHandler.serialize`. -/
def putHandler (k : Codec) (i : Interface std N) (out : Bytes) : Bytes :=
  if std = .lpddr6 then i.ca6.serialize out else i.ca.serialize k out

/-- `m_patternHandler.deserialize`. -/
def getHandler (i : Interface std N) (s : Bytes) : Option ((CaHandler × CaHandler6) × Bytes) :=
  if std = .lpddr6 then (i.ca6.deserialize s).map fun (h, s) => ((i.ca, h), s)
  else (i.ca.deserialize s).map fun (h, s) => ((h, i.ca6), s)

/-- The second strobe or the write clock. -/
def second (i : Interface std N) : Clock := if std = .lpddr5 ∨ std = .lpddr6 then i.wck else i.writeDQS

/-- Set the clock of `second`. -/
def setSecond (i : Interface std N) (c : Clock) : Interface std N :=
  if std = .lpddr5 ∨ std = .lpddr6 then { i with wck := c } else { i with writeDQS := c }

/-- The first part of `serialize`, common to all standards (DDR4Interface.cpp 375-381, DDR5Interface.cpp 285-291,
LPDDR4Interface.cpp 270-276, LPDDR5Interface.cpp 396-402, LPDDR6Interface.cpp 374-380). -/
def putCommon (k : Codec) (i : Interface std N) (out : Bytes) : Bytes :=
  let out := put64 i.last out
  let out := i.putHandler k out
  let out := i.cmdBus.serialize out
  let out := i.dataBus.serialize k out
  let out := i.readDQS.serialize k.pad out
  let out := i.second.serialize k.pad out
  i.clock.serialize k.pad out

/-- The first part of `deserialize` (DDR4Interface.cpp 395-401, DDR5Interface.cpp 295-301, LPDDR4Interface.cpp 279-285,
LPDDR5Interface.cpp 405-411, LPDDR6Interface.cpp 384-390). -/
def getCommon (k : Codec) (i : Interface std N) (s : Bytes) : Option (Interface std N × Bytes) := do
  let (last, s) ← get64 s
  let (h, s) ← i.getHandler s
  let (cmdBus, s) ← i.cmdBus.deserialize s
  let (dataBus, s) ← i.dataBus.deserialize k s
  let (readDQS, s) ← i.readDQS.deserialize s
  let (second, s) ← i.second.deserialize s
  let (clock, s) ← i.clock.deserialize s
  pure (setSecond { i with last, ca := h.1, ca6 := h.2, cmdBus, dataBus, readDQS, clock } second, s)

/-- `serialize` (DDR4Interface.cpp 374-392 and the lines of `putCommon`). Only DDR4 writes its DBI, ranks and pins. -/
def serialize (k : Codec) (i : Interface std N) (out : Bytes) : Bytes :=
  let out := i.putCommon k out
  if std = .ddr4 then
    let out := i.dbi.serialize out
    let out := putEach RankIf.serialize i.ranks out
    let out := putEach Pin.serialize i.pinsRead out
    putEach Pin.serialize i.pinsWrite out
  else out

/-- The rest of `DDR4Interface::deserialize` (DDR4Interface.cpp 402-411). -/
def getRest (k : Codec) (i : Interface std N) (s : Bytes) : Option (Interface std N × Bytes) := do
  let (dbi, s) ← Dbi.deserialize k s
  let (ranks, s) ← getEach (fun _ => RankIf.deserialize) i.ranks s
  let (pinsRead, s) ← getEach Pin.deserialize i.pinsRead s
  let (pinsWrite, s) ← getEach Pin.deserialize i.pinsWrite s
  pure ({ i with dbi, ranks, pinsRead, pinsWrite }, s)

/-- `deserialize` (DDR4Interface.cpp 394-412 and the lines of `getCommon`). -/
def deserialize (k : Codec) (i : Interface std N) (s : Bytes) : Option (Interface std N × Bytes) := do
  let (i, s) ← i.getCommon k s
  if std = .ddr4 then i.getRest k s else pure (i, s)

end Interface
end DRAMPower
