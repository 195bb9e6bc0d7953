import Verif.Model.BusStats

/-!
# The bit-accurate bus

Paths in comments are relative to `/repo/src/DRAMPower/DRAMPower/`.

Simplifications:
* timestamps are unbounded, so the overflow assertion of `load` (util/bus.h 152) always holds;
* `std::bitset<max_bitset_size>` is `BitVec N`;
* payloads are lists of bytes; reading past the end is `Err.ub`.
-/

namespace DRAMPower

/-- `BusContainer` (util/burst_storage.h 33-40); the member `width` is only read by the unused `count`. -/
structure BusContainer (N : Nat) where
  bursts : List (BitVec N) := []
  count : Nat := 0
  loadTime : Nat := 0
deriving DecidableEq, Repr

namespace BusContainer

/-- `endTime` (util/burst_storage.h 278-280). -/
def endTime {N : Nat} (d : BusContainer N) : Nat := d.loadTime + d.count

/-- `clear` (util/burst_storage.h 265-268). -/
def clear {N : Nat} (d : BusContainer N) : BusContainer N := { d with count := 0, loadTime := 0 }

/-- `get_burst` = `get_const` (util/burst_storage.h 370-372, 256-259): counted from the end. All callers
below guarantee `n < count`, and `count` never exceeds the size of the vector. -/
def getBurst {N : Nat} (d : BusContainer N) (n : Nat) : BitVec N := d.bursts.getD (d.count - 1 - n) 0

end BusContainer

/-- Bit `i` of a payload, bytes least significant bit first: `(data[byte_index] >> bit_position) & 1`
(util/burst_storage.h 410-416; `byte_index`, `bit_position` are the quotient and remainder of the running bit
index by 8). -/
def payloadBit (data : List UInt8) (i : Nat) : Bool := (data.getD (i / 8) 0).toNat.testBit (i % 8)

/-- Inner loop of `insert_data` (util/burst_storage.h 408-417): bits `0 … width-1` of the word are overwritten by
the next `width` payload bits. The running bit index at the start of word `i` is `i * width`; the loop condition
`burst_offset + j < n_bits` always holds because only whole words are extracted. -/
def fillWord {N : Nat} (width : Nat) (data : List UInt8) (i : Nat) (w : BitVec N) : BitVec N :=
  (List.range width).foldl (fun w j => setBit w j (payloadBit data (i * width + j))) w

/-- `BurstStorageInsertHelper::insert_data` (util/burst_storage.h 398-421) with `invert = false`. Words
`0 … n_bits/width - 1` are created when missing (`get_or_add`), older words beyond them stay in the vector. -/
def BusContainer.insertData {N : Nat} (d : BusContainer N) (t width : Nat) (data : List UInt8) (nBits : Nat) :
    Except Err (BusContainer N) :=
  if width = 0 then .error (.ub "n_bits / width")
  else
    let n := nBits / width
    if n ≠ 0 ∧ N < width then .error (.exception "bitset::set")
    else if 8 * data.length < n * width then .error (.ub "data[byte_index]")
    else .ok { bursts := (List.range n).map (fun i => fillWord width data i (d.bursts.getD i 0)) ++ d.bursts.drop n
               count := n
               loadTime := t }

/-- `BusIdlePatternSpec` (util/bus_types.h 13-17). -/
inductive IdlePattern | L | H
deriving DecidableEq, Repr

/-- Data members of `Bus` (util/bus.h 36-54). -/
structure Bus (N : Nat) where
  stats : BusStats := {}
  storage : BusContainer N := {}
  lastLoad : Nat := 0
  enabled : Bool := true
  disableTime : Nat := 0
  width : Nat
  datarate : Nat
  pending : Pending BusStats := { stats := {} }
  lastPattern : BitVec N
  idleStats : BusStats
  idleWord : BitVec N
deriving DecidableEq, Repr

namespace Bus
variable {N : Nat}

/-- `Bus::diff` (util/bus.h 250-258). -/
def diff (width : Nat) (high low : BitVec N) : BusStats where
  ones := popcount low
  zeroes := usub width (popcount low)
  bitChanges := DRAMPower.bitChanges high low
  onesToZeroes := oneToZeroes high low
  zeroesToOnes := zeroToOnes high low

/-- The idle pattern word (util/bus.h 67-81). -/
def idleOf (width : Nat) : IdlePattern → BitVec N
  | .L => 0
  | .H => (List.range width).foldl (fun w i => setBit w i true) 0

/-- Constructor (util/bus.h 56-88); `set` throws for an idle-high bus wider than the bit set. -/
def init (N width datarate : Nat) (idle : IdlePattern) (enabled : Bool := true) : Except Err (Bus N) :=
  if idle = .H ∧ N < width then .error (.exception "bitset::set")
  else
    let w : BitVec N := idleOf width idle
    let s := diff width w w
    .ok { width, datarate, enabled, lastPattern := w, idleStats := s, idleWord := w
          pending := if enabled then { timestamp := 0, stats := s, pending := true } else { stats := {} } }

/-- `Bus::at` (util/bus.h 182-190) behind its assertion. -/
def word (b : Bus N) (n : Nat) : BitVec N :=
  if b.storage.count ≤ n - b.lastLoad then b.idleWord else b.storage.getBurst (n - b.lastLoad)

/-- `Bus::at` (util/bus.h 182-190). -/
def at? (b : Bus N) (n : Nat) : Except Err (BitVec N) :=
  if n < b.lastLoad then .error (.assertion "n >= last_load") else .ok (b.word n)

/-- The loop of `advance_stats` (util/bus.h 97-99): `t` runs from `last_load` while `t < lastburstEnd - 1`; the
assertion in `at` holds for all these `t`. -/
def burstLoop (b : Bus N) (e : Nat) (s : BusStats) : BusStats :=
  if e = 0 then s
  else (List.range' b.lastLoad (e - 1 - b.lastLoad)).foldl (fun s t => s + diff b.width (b.word t) (b.word (t + 1))) s

/-- `advance_stats` (util/bus.h 92-109). -/
def advance (b : Bus N) (vt : Nat) (s : BusStats) : Except Err BusStats := do
  let e := b.storage.endTime
  let s := b.burstLoop (min e vt) s
  let s ← if e < vt ∧ 0 < e then do
      let high ← b.at? (e - 1)
      let low ← b.at? e
      pure (s + diff b.width high low)
    else pure s
  if e < vt then pure (s + (vt - e - 1) * b.idleStats) else pure s

/-- `add_previous_stats` (util/bus.h 111-126). -/
def addPrevious (b : Bus N) (vt : Nat) : Except Err (Bus N) :=
  if vt < b.pending.timestamp then .error (.assertion "No interleaved commands") else do
  let b := if b.pending.pending ∧ b.pending.timestamp < vt then
      { b with stats := b.stats + b.pending.stats, pending := { b.pending with pending := false } } else b
  let s ← b.advance vt b.stats
  let b := { b with stats := s }
  if 0 < vt then do
    let p ← b.at? (vt - 1)
    pure { b with lastPattern := p }
  else pure b

/-- `add_data` (util/bus.h 128-143). -/
def addData (b : Bus N) (vt : Nat) (data : List UInt8) (nBits : Nat) : Except Err (Bus N) := do
  let d ← b.storage.insertData vt b.width data nBits
  let b := { b with storage := d }
  let first ← b.at? b.lastLoad
  let b := { b with pending := { timestamp := vt, stats := diff b.width b.lastPattern first, pending := true } }
  if b.storage.count ≠ 0 then pure { b with lastPattern := b.storage.getBurst (b.storage.count - 1) } else pure b

/-- `load` of a byte payload (util/bus.h 146-165). A zero data rate is a division by zero in the overflow assertion.
`add_previous_stats` calls `at(vt - 1)`, whose assertion needs `vt - 1 ≥ last_load`: a second load in the beat of
an earlier one, possible only after an empty burst, fails there. -/
def load (b : Bus N) (t : Nat) (data : List UInt8) (nBits : Nat) : Except Err (Bus N) :=
  if !b.enabled then .ok b
  else if b.datarate = 0 then .error (.ub "division by zero")
  else
    let vt := t * b.datarate
    if vt < b.lastLoad + b.storage.count then .error (.assertion "No interleaved commands") else do
    let b ← b.addPrevious vt
    let b := { b with lastLoad := vt, storage := b.storage.clear }
    b.addData vt data nBits

/-- The little-endian bytes of a word (util/bus.h 172-178). -/
def leBytes (x : Nat) : Nat → List UInt8
  | 0 => []
  | n + 1 => UInt8.ofNat (x % 256) :: leBytes (x / 256) n

/-- `load` of an integer (util/bus.h 167-180). `bytes` has 8 elements; only `n_bytes` of them are initialised. -/
def loadWord (b : Bus N) (t : Nat) (x : Nat) (burstLength : Nat) : Except Err (Bus N) :=
  let nBits := burstLength * b.width
  if 64 < nBits then .error (.assertion "n_bits <= digits")
  else b.load t (leBytes x ((nBits + 7) / 8)) nBits

/-- `disable` (util/bus.h 193-209); the returned time is not modelled. -/
def disable (b : Bus N) (t : Nat) : Except Err (Bus N) :=
  let vt := t * b.datarate
  if !b.enabled then
    if vt < b.disableTime then .error (.assertion "timestamp * datarate >= virtual_disable_timestamp") else .ok b
  else
    let b := { b with disableTime := vt }
    if vt < b.lastLoad then .error (.assertion "virtual_disable_timestamp >= last_load") else do
    let b ← b.addPrevious vt
    pure { b with storage := b.storage.clear, lastLoad := vt, enabled := false }

/-- `enable` (util/bus.h 211-221). -/
def enable (b : Bus N) (t : Nat) : Except Err (Bus N) :=
  if b.enabled then .ok b
  else if t * b.datarate ≤ b.disableTime then .error (.assertion "timestamp * datarate > virtual_disable_timestamp")
  else
    let vt := t * b.datarate
    .ok { b with lastLoad := vt, pending := { timestamp := vt, stats := b.idleStats, pending := true }, enabled := true }

/-- `get_stats` (util/bus.h 226-248). -/
def getStats (b : Bus N) (t : Nat) : Except Err BusStats :=
  let vt := t * b.datarate
  if vt < b.lastLoad then .error (.assertion "t_virtual >= last_load")
  else if vt = 0 then .ok b.stats
  else
    let s := if b.pending.pending ∧ b.pending.timestamp < vt then b.stats + b.pending.stats else b.stats
    if b.enabled then b.advance vt s else .ok s

end Bus

/-- Calls on a bus. -/
inductive BusOp
  | load (t : Nat) (data : List UInt8) (nBits : Nat)
  | disable (t : Nat)
  | enable (t : Nat)
deriving Repr

/-- One call. -/
def Bus.step {N : Nat} (b : Bus N) : BusOp → Except Err (Bus N)
  | .load t data n => b.load t data n
  | .disable t => b.disable t
  | .enable t => b.enable t

/-- A sequence of calls. -/
def Bus.run {N : Nat} (b : Bus N) : List BusOp → Except Err (Bus N)
  | [] => .ok b
  | op :: ops => match b.step op with
    | .ok b => b.run ops
    | .error e => .error e

end DRAMPower
