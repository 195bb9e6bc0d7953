import Verif.Model.Pin

/-!
# Data bus inversion

Paths in comments are relative to `/repo/src/DRAMPower/DRAMPower/`. The template parameters `DataType_t` (with `w`
digits), `SUBCHUNKS`, `IDLEPATTERN` and `Algorithm` are `w`, `sub`, `idle` and `algo`. `ChunkSize` is `sub * w`.

Simplifications: timestamps are unbounded; calls of the change callback are returned as a list of events; the capacity
`std::vector<bool>::resize` ends up with is a parameter (`grow`, of the old and the requested size), at least the requested size.
-/

namespace DRAMPower

/-- `StaticDBI` and `DynamicDBI<threshold>` (util/dbialgos.h 29-97). -/
inductive DbiAlgo
  | static
  | dynamic (threshold : Nat)
deriving DecidableEq, Repr

/-- Template and constructor parameters of `DBI` (util/dbi.h 31-32, 179-190). -/
structure DbiParams (w : Nat) where
  sub : Nat
  idle : PinState
  algo : DbiAlgo
  width : Option Nat
  burstLength : Nat
  grow : Nat → Nat → Nat
  /-- whether a change callback is set (LPDDR6 passes `nullptr`, standards/lpddr6/LPDDR6Interface.cpp 40) -/
  callback : Bool := true

/-- A call of the change callback (util/dbi.h 59-61). -/
structure DbiEvent where
  load : Nat
  time : Nat
  idx : Nat
  inverted : Bool
  read : Bool
deriving DecidableEq, Repr

/-- `LastBurst_t` (util/dbi.h 68-154); `m_n_bits` is never assigned. `capacity` is that of `m_inversions`. -/
structure LastBurst (w : Nat) where
  start : Nat := 0
  stop : Nat := 0
  nChunks : Nat := 0
  init : Bool := false
  inversions : List Bool := []
  capacity : Nat := 0
  lastbeat : List (BitVec w) := []
deriving DecidableEq, Repr

/-- The changing data members of `DBI` (util/dbi.h 455-). -/
structure Dbi (w : Nat) where
  lastBurstRead : Bool := false
  lastRead : LastBurst w := {}
  lastWrite : LastBurst w := {}
  inverted : List (BitVec w) := []
  enable : Bool
deriving DecidableEq, Repr

variable {w : Nat}

/-- `m_lastBurst` as selected in `updateDBI` (util/dbi.h 249-250). -/
def Dbi.last (d : Dbi w) (read : Bool) : LastBurst w := if read then d.lastRead else d.lastWrite

/-- Write back the selected `m_lastBurst`. -/
def Dbi.setLast (d : Dbi w) (read : Bool) (l : LastBurst w) : Dbi w :=
  if read then { d with lastRead := l } else { d with lastWrite := l }

namespace DbiParams

/-- `ChunkSize` (util/dbi.h 41). -/
def chunkSize (p : DbiParams w) : Nat := p.sub * w

/-- `getIdlePattern` (util/dbi.h 168-178), the initial `m_idleData` (184). -/
def idleData (p : DbiParams w) (width : Nat) : List (BitVec w) :=
  List.replicate (width / w) (if p.idle = .H then BitVec.allOnes w else 0)

/-- `getChunksPerWidth` (util/dbi.h 232-234). -/
def chunksPerWidth (p : DbiParams w) : Option Nat := p.width.map (· / p.chunkSize)

end DbiParams

/-- Constructor (util/dbi.h 180-190). -/
def Dbi.init (p : DbiParams w) (enable : Bool) : Except Err (Dbi w) :=
  match p.width with
  | some n => if n % p.chunkSize = 0 then .ok { enable } else .error (.assertion "busWidth must be a multiple of CHUNKSIZE")
  | none => .ok { enable }

/-- The condition the assertion of `dispatchResetCallback` forbids (util/dbi.h 404). -/
def DbiParams.short (p : DbiParams w) (l : LastBurst w) : Bool :=
  match p.chunksPerWidth with
  | none => false
  | some n => l.init && decide (l.nChunks < n)

/-- Number of chunks `dispatchResetCallback` resets (util/dbi.h 424-448): those of the last beat, or all. -/
def DbiParams.resetCount (p : DbiParams w) (l : LastBurst w) : Nat :=
  match p.chunksPerWidth with
  | none => l.nChunks
  | some n => n

/-- Pin of a chunk (util/dbi.h 391-395, 429-444). -/
def DbiParams.pinOf (p : DbiParams w) (c : Nat) : Nat :=
  match p.chunksPerWidth with
  | none => c
  | some n => c % n

/-- `dispatchResetCallback(timestamp, read)` (util/dbi.h 400-451); without a callback nothing is reset; an inversion flag outside the
vector is undefined. -/
def Dbi.reset (p : DbiParams w) (d : Dbi w) (t : Nat) (read : Bool) : Except Err (Dbi w × List DbiEvent) :=
  let l := d.last read
  if p.short l then .error (.assertion "at least one chunk per pin in the last burst")
  else if l.init = false then .ok (d, [])
  else if t ≤ l.stop then .ok (d, [])
  else if p.callback = false then .ok (d, [])
  else if l.inversions.length < l.nChunks then .error (.ub "lastInvert[chunk]")
  else
    let n := p.resetCount l
    let ev := ((List.range' (l.nChunks - n) n).filter fun c => l.inversions.getD c false).map fun c =>
      { load := t, time := l.stop, idx := p.pinOf c, inverted := false, read }
    .ok (d.setLast read { l with inversions := l.inversions.take (l.nChunks - n) ++ (List.replicate n false ++ l.inversions.drop l.nChunks) }, ev)

/-- `dispatchResetCallback(timestamp)` (util/dbi.h 313-316). -/
def Dbi.resetBoth (p : DbiParams w) (d : Dbi w) (t : Nat) : Except Err (Dbi w × List DbiEvent) := do
  let (d, ev) ← d.reset p t true
  let (d, ev') ← d.reset p t false
  pure (d, ev ++ ev')

/-- The condition of `saveLastBurst` and `createPreviousIterator` (util/dbi.h 354-355, 367-368): a seamless burst. -/
def DbiParams.seamless (p : DbiParams w) (l : LastBurst w) (inverted : List (BitVec w)) (t : Nat) : Option Nat :=
  match p.width with
  | some width => if l.init ∧ l.stop = t ∧ l.stop - l.start ≠ 0 ∧ width / w < inverted.length then some width else none
  | none => none

/-- `saveLastBurst` (util/dbi.h 353-363). -/
def DbiParams.saveLast (p : DbiParams w) (l : LastBurst w) (inverted : List (BitVec w)) (t : Nat) : LastBurst w :=
  match p.seamless l inverted t with
  | some width => { l with lastbeat := inverted.drop (inverted.length - width / w) }
  | none => l

/-- `createPreviousIterator` (util/dbi.h 365-386): the words that precede the burst in the concatenation; the rest of
the sequence is the burst itself. Forming `end() - width / DATATYPEDIGITS` before the begin of the data is undefined. -/
def DbiParams.previous (p : DbiParams w) (l : LastBurst w) (data : List (BitVec w)) (t : Nat) : Except Err (Option (List (BitVec w))) :=
  match p.width with
  | none => .ok none
  | some width =>
    match p.seamless l data t with
    | some _ => .ok (some l.lastbeat)
    | none => if data.length < width / w then .error (.ub "m_invertedData.end() - width") else .ok (some (p.idleData width))

/-- What the loops of the algorithms change: the data, the inversion flags, the events and their counters. -/
structure DbiLoop (w : Nat) where
  data : List (BitVec w)
  flags : List Bool
  events : List DbiEvent := []
  a : Nat := 0
  b : Nat := 0
deriving DecidableEq, Repr

/-- `invertChunk` (util/dbi.h 194-199). -/
def invertChunk (sub c : Nat) (data : List (BitVec w)) : List (BitVec w) :=
  data.mapIdx fun i v => if c * sub ≤ i ∧ i < c * sub + sub then ~~~ v else v

/-- `dispatchCallback` (util/dbi.h 387-398). -/
def DbiParams.event (p : DbiParams w) (t : Nat) (read : Bool) (c : Nat) (invert : Bool) : DbiEvent :=
  match p.chunksPerWidth with
  | none => { load := t, time := t, idx := c, inverted := invert, read }
  | some n => { load := t, time := t + c / n, idx := c % n, inverted := invert, read }

/-- `invert_visitor` (util/dbi.h 278-288). -/
def DbiParams.visit (p : DbiParams w) (t : Nat) (read : Bool) (s : DbiLoop w) (invert : Bool) (c : Nat) : Except Err (DbiLoop w) :=
  if p.chunksPerWidth = some 0 then .error (.ub "chunk % 0")
  else if s.flags.length ≤ c then .error (.ub "lastInvert[chunk]")
  else .ok { s with events := s.events ++ [p.event t read c invert], flags := s.flags.set c invert
                    data := if invert then invertChunk p.sub c s.data else s.data }

/-- `SubChunkView::last` (util/dbihelpers.h 121-123): the data index is `i % sub`. -/
def DbiParams.isLast (p : DbiParams w) (i : Nat) : Bool := i % p.sub % p.sub == 0

/-- Loop body of `StaticDBI::computeDBI` (util/dbialgos.h 43-55); `a` is `ones`, `b` is `zeros`. -/
def DbiParams.staticStep (p : DbiParams w) (t : Nat) (read : Bool) (s : DbiLoop w) (i : Nat) : Except Err (DbiLoop w) :=
  let v := s.data.getD i 0
  let ones := s.a + popcount v
  let zeros := s.b + (w - popcount v)
  if p.isLast i then
    p.visit t read { s with a := 0, b := 0 } ((p.idle == .L && zeros < ones) || (p.idle == .H && ones < zeros)) (i / p.sub)
  else .ok { s with a := ones, b := zeros }

/-- The word at position `i` of the concatenation (util/dbihelpers.h 28-41). -/
def prevWord (before data : List (BitVec w)) (i : Nat) : BitVec w :=
  if i < before.length then before.getD i 0 else data.getD (i - before.length) 0

/-- Loop body of `DynamicDBI::computeDBI` with a previous burst (util/dbialgos.h 82-94); `a` is `costnormal`. -/
def DbiParams.dynamicStep (p : DbiParams w) (threshold : Nat) (before : List (BitVec w)) (t : Nat) (read : Bool) (s : DbiLoop w) (i : Nat) :
    Except Err (DbiLoop w) :=
  let cost := s.a + popcount (s.data.getD i 0 ^^^ prevWord before s.data i)
  if p.isLast i then p.visit t read { s with a := 0 } (threshold < cost) (i / p.sub)
  else .ok { s with a := cost }

/-- Loop body of `DynamicDBI::computeDBI` without a previous burst (util/dbialgos.h 75-78). -/
def DbiParams.dynamicStep' (p : DbiParams w) (t : Nat) (read : Bool) (s : DbiLoop w) (i : Nat) : Except Err (DbiLoop w) :=
  p.visit t read s false (i / p.sub)

/-- `computeDBI` of the selected algorithm. -/
def DbiParams.compute (p : DbiParams w) (before : Option (List (BitVec w))) (t : Nat) (read : Bool) (s : DbiLoop w) : Except Err (DbiLoop w) :=
  match p.algo, before with
  | .static, _ => (List.range s.data.length).foldlM (p.staticStep t read) s
  | .dynamic th, some before => (List.range s.data.length).foldlM (p.dynamicStep th before t read) s
  | .dynamic _, none => (List.range s.data.length).foldlM (p.dynamicStep' t read) s

/-- The calls the callback receives: none if it is not set (util/dbi.h 389, 423). -/
def DbiParams.deliver (p : DbiParams w) (l : List DbiEvent) : List DbiEvent := if p.callback then l else []

/-- `updateDBI` (util/dbi.h 245-300). -/
def Dbi.update (p : DbiParams w) (d : Dbi w) (t nBits : Nat) (data : Option (List (BitVec w))) (read : Bool) :
    Except Err (Dbi w × Option (List (BitVec w)) × List DbiEvent) :=
  match data with
  | none => .ok (d, none, [])
  | some data =>
    if nBits = 0 ∨ d.enable = false ∨ p.idle = .Z then .ok (d, none, [])
    else do
      let (d, resets) ← d.reset p t read
      if nBits % w ≠ 0 then .error (.assertion "n_bits must be a multiple of DATATYPEDIGITS")
      else if data.length < nBits / w then .error (.ub "data + entries_needed")
      else do
        let l := p.saveLast (d.last read) d.inverted t
        let data := data.take (nBits / w)
        let before ← p.previous l data t
        if nBits % p.chunkSize ≠ 0 then .error (.assertion "n_bits % ChunkSize == 0")
        else do
          let n := nBits / p.chunkSize
          let l := if l.capacity < n then
              { l with inversions := l.inversions.take n ++ List.replicate (n - l.inversions.length) false, capacity := max n (p.grow l.inversions.length n) }
            else l
          let s ← p.compute before t read { data, flags := l.inversions }
          let stop := match p.width with | some width => t + nBits / width | none => t + p.burstLength
          let l := { l with inversions := s.flags, start := t, stop, nChunks := n, init := true }
          pure ({ d.setLast read l with inverted := s.data, lastBurstRead := read }, some s.data, p.deliver (resets ++ s.events))

end DRAMPower
