import Verif.Model.Session

/-!
# Saving and restoring the core

Paths in comments are relative to `/repo/src/DRAMPower/DRAMPower/`.

Simplifications:
* an output stream is the list of bytes written so far, an input stream the list of bytes still to be read;
  `none` stands for a stream that fails (too few bytes) or for a byte pattern that is no value of the type read;
* integers are stored as on x86-64 (little endian, 8 bytes for `uint64_t`, 4 for the `enum class`es, 1 for
  `bool`), a `std::optional<uint64_t>` as in libstdc++ (8 bytes payload, 1 byte engaged flag, 7 bytes padding).
  The padding bytes have no specified value: they are taken from an arbitrary `pad`, by stream position.
-/

namespace DRAMPower

/-- The contents of a `std::ostream`/`std::istream` (util/Serialize.h, Deserialize.h). -/
abbrev Bytes := List UInt8

namespace Ser

/-- The `k` low bytes of `n`, least significant first. -/
def le (k n : Nat) : Bytes := (List.range k).map fun i => UInt8.ofNat (n / 256 ^ i)

/-- The number spelled by little-endian bytes. -/
def fromLe : Bytes → Nat
  | [] => 0
  | b :: bs => b.toNat + 256 * fromLe bs

/-- `stream.write(reinterpret_cast<const char*>(&x), sizeof(x))` of a `uint64_t`. -/
def put64 (n : Nat) (out : Bytes) : Bytes := out ++ le 8 n

/-- The same for an `enum class` (underlying type `int`). -/
def put32 (n : Nat) (out : Bytes) : Bytes := out ++ le 4 n

/-- The same for a `bool`. -/
def putBool (b : Bool) (out : Bytes) : Bytes := out ++ [if b then 1 else 0]

/-- The same for an engaged `std::optional<uint64_t>`: payload, flag, padding. -/
def putOptional (pad : Nat → UInt8) (n : Nat) (out : Bytes) : Bytes :=
  out ++ le 8 n ++ [1] ++ (List.range 7).map fun i => pad (out.length + 9 + i)

/-- A read of `k` bytes. -/
def getBytes (k : Nat) (s : Bytes) : Option (Bytes × Bytes) :=
  if k ≤ s.length then some (s.take k, s.drop k) else none

/-- `stream.read(reinterpret_cast<char*>(&x), sizeof(x))` of a `uint64_t`. -/
def get64 (s : Bytes) : Option (Nat × Bytes) := (getBytes 8 s).map fun (b, s) => (fromLe b, s)

/-- The same of a `uint32_t` or an enumeration. -/
def get32 (s : Bytes) : Option (Nat × Bytes) := (getBytes 4 s).map fun (b, s) => (fromLe b, s)

/-- Only the bytes 0 and 1 are values of `bool`. -/
def getBool : Bytes → Option (Bool × Bytes)
  | [] => none
  | b :: s => if b = 0 then some (false, s) else if b = 1 then some (true, s) else none

/-- Raw read into a `std::optional<uint64_t>`; the engaged flag comes from the stream. -/
def getOptional (s : Bytes) : Option (Option Nat × Bytes) := do
  let (n, s) ← get64 s
  let (f, s) ← getBool s
  let (_, s) ← getBytes 7 s
  pure (if f then some n else none, s)

end Ser

open Ser

/-- `start`/`end` part of `interval_counter::serialize` (util/cycle_stats.h 80-84 and 85-89). -/
def putOpt (pad : Nat → UInt8) (x : Option Nat) (out : Bytes) : Bytes :=
  let out := putBool x.isSome out
  match x with
  | some n => putOptional pad n out
  | none => out

/-- `start`/`end` part of `interval_counter::deserialize` (util/cycle_stats.h 93-99 and 100-106). -/
def getOpt (s : Bytes) : Option (Option Nat × Bytes) := do
  let (b, s) ← getBool s
  if b then getOptional s else pure (none, s)

/-- `interval_counter::serialize` (util/cycle_stats.h 78-90). -/
def Interval.serialize (pad : Nat → UInt8) (i : Interval) (out : Bytes) : Bytes :=
  let out := put64 i.count out
  let out := putOpt pad i.start out
  putOpt pad i.stop out

/-- `interval_counter::deserialize` (util/cycle_stats.h 91-107). -/
def Interval.deserialize (s : Bytes) : Option (Interval × Bytes) := do
  let (count, s) ← get64 s
  let (start, s) ← getOpt s
  let (stop, s) ← getOpt s
  pure ({ count, start, stop }, s)

/-- `command_stats_t::serialize` (data/stats.h 28-40). -/
def Counters.serialize (c : Counters) (out : Bytes) : Bytes :=
  let out := put64 c.act out
  let out := put64 c.pre out
  let out := put64 c.reads out
  let out := put64 c.writes out
  let out := put64 c.refAllBank out
  let out := put64 c.refPerBank out
  let out := put64 c.refPerTwoBanks out
  let out := put64 c.refDualBanks out
  let out := put64 c.refSameBank out
  let out := put64 c.readAuto out
  put64 c.writeAuto out

/-- `command_stats_t::deserialize` (data/stats.h 41-53). -/
def Counters.deserialize (s : Bytes) : Option (Counters × Bytes) := do
  let (act, s) ← get64 s
  let (pre, s) ← get64 s
  let (reads, s) ← get64 s
  let (writes, s) ← get64 s
  let (refAllBank, s) ← get64 s
  let (refPerBank, s) ← get64 s
  let (refPerTwoBanks, s) ← get64 s
  let (refDualBanks, s) ← get64 s
  let (refSameBank, s) ← get64 s
  let (readAuto, s) ← get64 s
  let (writeAuto, s) ← get64 s
  pure ({ act, pre, reads, writes, refAllBank, refPerBank, refPerTwoBanks, refDualBanks, refSameBank, readAuto, writeAuto }, s)

/-- Values of `Bank::BankState` (dram/Bank.h 15-18). -/
def BankState.code : BankState → Nat
  | .precharged => 0
  | .active => 1

/-- The state a value read from a stream stands for (dram/Bank.h 15-18); other values are no enumerator. -/
def BankState.ofCode : Nat → Option BankState
  | 0 => some .precharged
  | 1 => some .active
  | _ => none

/-- Values of `MemState` (dram/Rank.h 16-22). -/
def MemState.code : MemState → Nat
  | .notInPD => 0
  | .pdnAct => 1
  | .pdnPre => 2
  | .sref => 3
  | .dsm => 4

/-- The state a value read from a stream stands for (dram/Rank.h 16-22); other values are no enumerator. -/
def MemState.ofCode : Nat → Option MemState
  | 0 => some .notInPD
  | 1 => some .pdnAct
  | 2 => some .pdnPre
  | 3 => some .sref
  | 4 => some .dsm
  | _ => none

/-- `Bank::serialize` (dram/Bank.h 33-41). -/
def Bank.serialize (pad : Nat → UInt8) (b : Bank) (out : Bytes) : Bytes :=
  let out := put32 b.state.code out
  let out := put64 b.latestPre out
  let out := put64 b.refreshEndTime out
  let out := b.act.serialize pad out
  let out := b.powerDownAct.serialize pad out
  let out := b.powerDownPre.serialize pad out
  b.counter.serialize out

/-- `Bank::deserialize` (dram/Bank.h 42-50). -/
def Bank.deserialize (s : Bytes) : Option (Bank × Bytes) := do
  let (code, s) ← get32 s
  let state ← BankState.ofCode code
  let (latestPre, s) ← get64 s
  let (refreshEndTime, s) ← get64 s
  let (act, s) ← Interval.deserialize s
  let (powerDownAct, s) ← Interval.deserialize s
  let (powerDownPre, s) ← Interval.deserialize s
  let (counter, s) ← Counters.deserialize s
  pure ({ counter, act, powerDownAct, powerDownPre, state, latestPre, refreshEndTime }, s)

/-- `for (auto& x : v) x.deserialize(stream)`: overwrite the elements `k, …, k + n - 1`. -/
def readInto {α : Type} (f : Bytes → α → Option (α × Bytes)) : (n k : Nat) → (Nat → α) → Bytes → Option ((Nat → α) × Bytes)
  | 0, _, v, s => some (v, s)
  | n + 1, k, v, s => do
    let (x, s) ← f s (v k)
    readInto f n (k + 1) (upd v k x) s

/-- `Rank::serialize` (dram/Rank.cpp 25-43); `endRefreshTime` is written twice. -/
def Rank.serialize (pad : Nat → UInt8) (r : Rank) (out : Bytes) : Bytes :=
  let out := put32 r.memState.code out
  let out := put64 r.endRefreshTime out
  let out := put64 r.selfRefreshCounter out
  let out := put64 r.deepSleepCounter out
  let out := put64 r.endRefreshTime out
  let out := r.pre.serialize pad out
  let out := r.act.serialize pad out
  let out := r.ref.serialize pad out
  let out := r.sref.serialize pad out
  let out := r.powerDownAct.serialize pad out
  let out := r.powerDownPre.serialize pad out
  let out := r.deepSleepMode.serialize pad out
  (List.range r.nBanks).foldl (fun out i => (r.banks i).serialize pad out) out

/-- `Rank::deserialize` (dram/Rank.cpp 45-63): the number of banks is that of the rank read into; the second
`endRefreshTime` overwrites the first. -/
def Rank.deserialize (s : Bytes) (r : Rank) : Option (Rank × Bytes) := do
  let (code, s) ← get32 s
  let memState ← MemState.ofCode code
  let (_, s) ← get64 s
  let (selfRefreshCounter, s) ← get64 s
  let (deepSleepCounter, s) ← get64 s
  let (endRefreshTime, s) ← get64 s
  let (pre, s) ← Interval.deserialize s
  let (act, s) ← Interval.deserialize s
  let (ref, s) ← Interval.deserialize s
  let (sref, s) ← Interval.deserialize s
  let (powerDownAct, s) ← Interval.deserialize s
  let (powerDownPre, s) ← Interval.deserialize s
  let (deepSleepMode, s) ← Interval.deserialize s
  let (banks, s) ← readInto (fun s _ => Bank.deserialize s) r.nBanks 0 r.banks s
  pure ({ memState, pre, act, ref, sref, powerDownAct, powerDownPre, deepSleepMode, selfRefreshCounter, deepSleepCounter,
          endRefreshTime, nBanks := r.nBanks, banks }, s)

/-- `serialize` of the cores (DDR4Core.cpp 335-341, DDR5Core.cpp 355-360, LPDDR4Core.cpp 333-338,
LPDDR5Core.cpp 370-375, LPDDR6Core.cpp 345-350). The implicit-command queue is not written. -/
def Core.serialize (pad : Nat → UInt8) (ms : MemSpec) (c : Core) (out : Bytes) : Bytes :=
  (List.range ms.numberOfRanks).foldl (fun out i => (c.ranks i).serialize pad out) (put64 c.last out)

/-- `deserialize` of the cores (DDR4Core.cpp 343-349, DDR5Core.cpp 362-367, LPDDR4Core.cpp 340-345,
LPDDR5Core.cpp 376-381, LPDDR6Core.cpp 351-356). The implicit-command queue of the core read into is kept. -/
def Core.deserialize (ms : MemSpec) (c : Core) (s : Bytes) : Option (Core × Bytes) := do
  let (last, s) ← get64 s
  let (ranks, s) ← readInto Rank.deserialize ms.numberOfRanks 0 c.ranks s
  pure ({ ranks, queue := c.queue, last }, s)

end DRAMPower
