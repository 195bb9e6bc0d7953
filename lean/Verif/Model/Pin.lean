import Verif.Model.BusStats

/-!
# A single pin (DBI)

Paths in comments are relative to `/repo/src/DRAMPower/DRAMPower/`. Timestamps are unbounded.
-/

namespace DRAMPower

/-- `PinState` (util/pin_types.h 6-11). -/
inductive PinState | L | H | Z
deriving DecidableEq, Repr

/-- `BitsetContainer` (util/burst_storage.h 25-31). -/
structure BitsetContainer (N : Nat) where
  bitset : BitVec N := 0
  count : Nat := 0
  loadTime : Nat := 0
deriving DecidableEq, Repr

namespace BitsetContainer
variable {N : Nat}

/-- `endTime` (util/burst_storage.h 163-165). -/
def endTime (d : BitsetContainer N) : Nat := d.loadTime + d.count

/-- The mask of `count` (util/burst_storage.h 70-79). -/
def mask (N length : Nat) : BitVec N :=
  let m := BitVec.allOnes N
  let m := if length < N then m >>> (N - length) else m
  if length = 0 then 0 else m

/-- `count(data, start, end)` (util/burst_storage.h 58-110) without the argument `prev`, which no caller passes. -/
def stats (d : BitsetContainer N) (start stop : Nat) : Except Err BusStats :=
  if start < d.loadTime then .error (.assertion "start timestamp must be greater or equal to load timestamp")
  else
    let length := usub stop start
    let length := if d.count < length then d.count else length
    let offset := start - d.loadTime
    if d.count < length + offset then .error (.assertion "Invalid bitset access")
    else
      let mask := mask N length
      let val := (d.bitset >>> offset) &&& mask
      let shifted := val >>> 1
      let toggles := (val ^^^ shifted) &&& (mask >>> 1)
      let z2o := popcount (toggles &&& shifted)
      .ok { ones := popcount val, zeroes := usub length (popcount val), bitChanges := popcount toggles
            zeroesToOnes := z2o, onesToZeroes := usub (popcount toggles) z2o }

/-- `push_back` (util/burst_storage.h 116-124) with the assertion of `resize` (112-114). -/
def pushBack (d : BitsetContainer N) (t : Nat) (bit : Bool) : Except Err (BitsetContainer N) :=
  let d := if t ≠ d.loadTime then { d with count := 0, loadTime := t } else d
  if N < d.count + 1 then .error (.assertion "bitset_size not enough")
  else .ok { d with bitset := setBit d.bitset d.count bit, count := d.count + 1 }

/-- `get_burst(0)` = `get_const(0)` (util/burst_storage.h 131-134, 370-372). -/
def last (d : BitsetContainer N) : Except Err Bool :=
  if d.count = 0 then .error (.assertion "Invalid access") else .ok (d.bitset.getLsbD (d.count - 1))

end BitsetContainer

/-- Data members of `Pin` (util/pin.h 218-228); pending statistics are a pair of states (util/pin.h 17-32). -/
structure Pin (N : Nat) where
  pending : Pending (PinState × PinState)
  stats : BusStats := {}
  lastState : PinState
  idleState : PinState
  initLoad : Bool := true
  lastSet : Nat := 0
  storage : BitsetContainer N := {}
deriving DecidableEq, Repr

namespace Pin
variable {N : Nat}

/-- Constructor (util/pin.h 50-53); the pending pair is uninitialised and never read. -/
def init (N : Nat) (initState idleState : PinState) : Pin N :=
  { pending := { stats := (.L, .L) }, lastState := initState, idleState }

/-- `getPinChangeStats` (util/pin.h 73-88). -/
def change : PinState → PinState → BusStats
  | .L, .H => { bitChanges := 1, zeroesToOnes := 1 }
  | .H, .L => { bitChanges := 1, onesToZeroes := 1 }
  | _, _ => {}

/-- First overload of `addPendingStats` (util/pin.h 57-62); the second one is not used. -/
def addPending (t : Nat) (p : Pending (PinState × PinState)) (s : BusStats) : BusStats :=
  if p.pending ∧ p.timestamp < t then s + change p.stats.1 p.stats.2 else s

/-- The last part of `count` (util/pin.h 107-120). -/
def duration (state : PinState) (n : Nat) : BusStats :=
  match state with
  | .L => { zeroes := n }
  | .H => { ones := n }
  | .Z => {}

/-- `count` (util/pin.h 90-121). -/
def count (p : Pin N) (stop start : Nat) (state : PinState) (s : BusStats) : Except Err BusStats :=
  if stop ≤ start then .ok s
  else if start < p.storage.endTime then do
    let c ← p.storage.stats start stop
    let s := s + c
    let start := p.storage.endTime
    if start < stop then do
      let b ← p.storage.last
      let s := s + change (if b then .H else .L) state
      pure (s + duration state (stop - start))
    else pure s
  else pure (s + duration state (stop - start))

/-- `set_internal` (util/pin.h 122-138); the pending statistics passed are always the member. -/
def setInternal (p : Pin N) (t dataRate : Nat) (s : BusStats) : Except Err BusStats :=
  let vt := t * dataRate
  if vt < p.lastSet then .error (.assertion "virtual_time >= m_last_set")
  else
    let s := if p.initLoad ∧ 0 < vt then s + change p.lastState p.idleState else s
    let s := addPending vt p.pending s
    p.count vt p.lastSet p.idleState s

/-- `set` (util/pin.h 143-172). -/
def set (p : Pin N) (t : Nat) (state : PinState) (dataRate : Nat := 1) : Except Err (Pin N) := do
  let vt := t * dataRate
  let s ← p.setInternal vt dataRate p.stats
  let p := { p with stats := s }
  let p := if p.pending.pending ∧ p.pending.timestamp < vt then { p with pending := { p.pending with pending := false } } else p
  let p := if p.lastSet ≠ vt ∨ p.initLoad then
      let lastState := if vt = p.lastSet + p.storage.count ∨ (p.initLoad ∧ vt = 0) then p.lastState else p.idleState
      { p with pending := { timestamp := vt, stats := (lastState, state), pending := true } }
    else p
  let d ← p.storage.pushBack vt (state == .H)
  pure { p with storage := d, lastSet := vt, lastState := state, initLoad := false }

/-- `get_stats_at` (util/pin.h 175-197). -/
def getStats (p : Pin N) (t : Nat) (dataRate : Nat := 1) : Except Err BusStats :=
  let vt := t * dataRate
  if vt < p.lastSet then .error (.assertion "virtual_time >= m_last_set")
  else if vt = p.lastSet then .ok p.stats
  else
    let s := p.stats
    let s := if p.initLoad ∧ 0 < vt then s + change p.lastState p.idleState else s
    let s := addPending vt p.pending s
    p.count vt p.lastSet p.idleState s

/-- The bits of one burst, set one after the other at the same time. -/
def burst (p : Pin N) (t : Nat) (bits : List PinState) (dataRate : Nat := 1) : Except Err (Pin N) :=
  bits.foldlM (fun p b => p.set t b dataRate) p

/-- A history of bursts. -/
def run (p : Pin N) (bursts : List (Nat × List PinState)) (dataRate : Nat := 1) : Except Err (Pin N) :=
  bursts.foldlM (fun p b => p.burst b.1 b.2 dataRate) p

end Pin
end DRAMPower
