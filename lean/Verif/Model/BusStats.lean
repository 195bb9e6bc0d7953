import Verif.Model.Core

/-!
# Bus statistics and fixed-size bit sets

Paths in comments are relative to `/repo/src/DRAMPower/DRAMPower/`.
-/

namespace DRAMPower

/-- Results can be compared (used by concrete checks only). -/
instance {α : Type} [DecidableEq α] : DecidableEq (Except Err α)
  | .ok a, .ok b => if h : a = b then isTrue (h ▸ rfl) else isFalse fun e => h (Except.ok.inj e)
  | .error a, .error b => if h : a = b then isTrue (h ▸ rfl) else isFalse fun e => h (Except.error.inj e)
  | .ok _, .error _ => isFalse (by intro e; cases e)
  | .error _, .ok _ => isFalse (by intro e; cases e)

/-- `util::bus_stats_t` (util/bus_types.h 19-24). -/
structure BusStats where
  ones : Nat := 0
  zeroes : Nat := 0
  bitChanges : Nat := 0
  onesToZeroes : Nat := 0
  zeroesToOnes : Nat := 0
deriving DecidableEq, Repr

namespace BusStats

/-- `operator+=`, `operator+` (util/bus_types.h 26-33, 44-46). -/
def add (a b : BusStats) : BusStats where
  ones := a.ones + b.ones
  zeroes := a.zeroes + b.zeroes
  bitChanges := a.bitChanges + b.bitChanges
  onesToZeroes := a.onesToZeroes + b.onesToZeroes
  zeroesToOnes := a.zeroesToOnes + b.zeroesToOnes

/-- `operator*=`, `operator*` (util/bus_types.h 35-42, 48-54). -/
def mul (k : Nat) (a : BusStats) : BusStats where
  ones := a.ones * k
  zeroes := a.zeroes * k
  bitChanges := a.bitChanges * k
  onesToZeroes := a.onesToZeroes * k
  zeroesToOnes := a.zeroesToOnes * k

instance : Add BusStats := ⟨add⟩
instance : HMul Nat BusStats BusStats := ⟨mul⟩

end BusStats

/-- `std::bitset<N>` is `BitVec N`; `count()`. -/
def popcount {N : Nat} (x : BitVec N) : Nat := (List.range N).countP x.getLsbD

/-- `std::bitset<N>::set(i, v)` for `i < N` (for larger `i` it throws; callers check). -/
def setBit {N : Nat} (x : BitVec N) (i : Nat) (v : Bool) : BitVec N :=
  if v then x ||| BitVec.twoPow N i else x &&& ~~~ BitVec.twoPow N i

/-- `BinaryOps::bit_changes` (util/binary_ops.h 64-68). -/
def bitChanges {N : Nat} (p q : BitVec N) : Nat := popcount (p ^^^ q)

/-- `BinaryOps::one_to_zeroes` (util/binary_ops.h 58-62). -/
def oneToZeroes {N : Nat} (p q : BitVec N) : Nat := popcount (p &&& ~~~ q)

/-- `BinaryOps::zero_to_ones` (util/binary_ops.h 52-56). -/
def zeroToOnes {N : Nat} (p q : BitVec N) : Nat := popcount (~~~ p &&& q)

/-- `PendingStats<T>` (util/pending_stats.h 14-77). -/
structure Pending (α : Type) where
  timestamp : Nat := 0
  stats : α
  pending : Bool := false
deriving DecidableEq, Repr

end DRAMPower
