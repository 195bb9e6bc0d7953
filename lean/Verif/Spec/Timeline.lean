import Verif.Model.Core

/-!
# Reference timeline

What a rank and its banks do over time, as a function of the commands sent to that rank, written
without intervals, counters or an implicit-command queue. A bank is open or not, the rank is in one
low-power mode or in none, and everything that ends by itself (auto-precharge, refresh, delayed
power-down entry and exit) is an end time stored in the state. `category` says in which state the
bank spends clock cycle `τ`; `rankCategory` the same for the rank.

Only the command and memspec *data types* of the model are used here, none of its functions.
-/

namespace DRAMPower.Spec

/-- Row status of a bank. -/
inductive Status
  | idle
  /-- A row is open; `some p`: an auto-precharge closes it at time `p`. -/
  | opened (autoPre : Option Nat)
  /-- The bank is refreshing and closed again at time `until`. -/
  | refreshing (endTime : Nat)
deriving DecidableEq, Repr

structure BankS where
  status : Status := .idle
  /-- The bank has received an ACT before. -/
  acted : Bool := false
  /-- Begin of the current (or last) uninterrupted active phase. -/
  since : Nat := 0
  /-- Time of the last precharge of an open row. -/
  preAt : Option Nat := none
  /-- End of the last refresh. -/
  refEnd : Nat := 0
  /-- Number of precharges of an open row so far. -/
  pres : Nat := 0
deriving DecidableEq, Repr

/-- Power mode of a rank. -/
inductive Mode
  | normal
  /-- Power-down requested; entered at `entry`, left at `exit` (if already requested).
  `active` tells active from precharge power-down. -/
  | pd (active : Bool) (entry : Nat) (exit : Option Nat)
  /-- Self-refresh, effective from `start` on. -/
  | sref (start : Nat)
  | dsm
deriving DecidableEq, Repr

structure State where
  mode : Mode := .normal
  bank : Nat → BankS := fun _ => {}

/-! ## Passing of time -/

/-- Is the bank open (row open or refreshing) during cycle `τ`? -/
def BankS.isOpen (b : BankS) (τ : Nat) : Bool :=
  match b.status with
  | .idle => false
  | .opened none => true
  | .opened (some p) => τ < p
  | .refreshing u => τ < u

/-- Record everything that has ended by itself at or before time `t`. -/
def BankS.settle (t : Nat) (b : BankS) : BankS :=
  match b.status with
  | .opened (some p) => if p ≤ t then { b with status := .idle, preAt := some p, pres := b.pres + 1 } else b
  | .refreshing u => if u ≤ t then { b with status := .idle } else b
  | _ => b

def Mode.settle (t : Nat) : Mode → Mode
  | .pd a e (some x) => if x ≤ t then .normal else .pd a e (some x)
  | m => m

def State.settle (t : Nat) (s : State) : State :=
  { mode := s.mode.settle t, bank := fun b => (s.bank b).settle t }

/-- Earliest time at which a power-down transition may take place: `tRCD` after the begin of an
active phase, `tRP` after a precharge, and the end of the last refresh, over all banks. -/
def earliest (tRCD tRP n : Nat) (s : State) : Nat :=
  (List.range n).foldl (fun acc i =>
    let b := s.bank i
    max acc (max (if b.acted then b.since + tRCD else 0)
      (max (match b.preAt with | some p => p + tRP | none => 0) b.refEnd))) 0

/-- `tRCD` of the standard; LPDDR6 distinguishes reads and writes. -/
def tRCDof (std : Std) (ms : MemSpec) : Nat :=
  if std = .lpddr6 then max ms.tRCDR ms.tRCDW else ms.tRCD

/-- Time of a power-down transition requested at `t`. -/
def pdTime (std : Std) (ms : MemSpec) (s : State) (t : Nat) : Nat :=
  max t (earliest (tRCDof std ms) ms.tRP ms.numberOfBanks s)

/-! ## Effect of the commands -/

/-- Is bank `b` addressed by the command? -/
def targets (ms : MemSpec) (c : Cmd) (b : Nat) : Bool :=
  match c.type with
  | .PREA | .REFA | .SREFEN => true
  | .PRESB | .REFSB => b % ms.banksPerGroup == c.bank % ms.banksPerGroup
  | .REFP2B => b == c.bank || b == (c.bank + ms.perTwoBankOffset) % 16
  | .REFDB => b == c.bank || b == c.dbank
  | _ => b == c.bank

/-- Duration of the refresh command. -/
def refreshTime (ms : MemSpec) : CmdType → Nat
  | .REFSB => ms.tRFCsb
  | .REFB | .REFP2B => ms.tRFCPB
  | .REFDB => ms.tRFCDB
  | _ => ms.tRFC

def State.onBanks (s : State) (p : Nat → Bool) (f : BankS → BankS) : State :=
  { s with bank := fun b => if p b then f (s.bank b) else s.bank b }

def BankS.activate (t : Nat) (b : BankS) : BankS :=
  { b with status := .opened none, acted := true, since := t }

def BankS.precharge (t : Nat) (b : BankS) : BankS :=
  match b.status with
  | .opened _ => { b with status := .idle, preAt := some t, pres := b.pres + 1 }
  | _ => b

/-- The auto-precharge happens when both the row has been active for `tRAS` and `offset` cycles
have passed since the access. -/
def BankS.autoPrecharge (tRAS t offset : Nat) (b : BankS) : BankS :=
  { b with status := .opened (some (max (b.since + tRAS) (t + offset))) }

def BankS.refresh (t dur : Nat) (b : BankS) : BankS :=
  { b with status := .refreshing (t + dur), since := t, refEnd := t + dur }

/-- A bank that is open when an active power-down ends starts a new active phase. -/
def BankS.resume (x : Nat) (b : BankS) : BankS := if b.isOpen x then { b with since := x } else b

/-- State after command `c`, given the state just before it. -/
def apply (std : Std) (ms : MemSpec) (s : State) (c : Cmd) : State :=
  let s := s.settle c.t
  let tgt := targets ms c
  match c.type with
  | .ACT => s.onBanks tgt (·.activate c.t)
  | .PRE | .PREA | .PRESB => s.onBanks tgt (·.precharge c.t)
  | .RDA => s.onBanks tgt (·.autoPrecharge ms.tRAS c.t ms.prechargeOffsetRD)
  | .WRA => s.onBanks tgt (·.autoPrecharge ms.tRAS c.t ms.prechargeOffsetWR)
  | .REFA | .REFB | .REFP2B | .REFDB | .REFSB => s.onBanks tgt (·.refresh c.t (refreshTime ms c.type))
  | .SREFEN => { s.onBanks tgt (·.refresh c.t ms.tRFC) with mode := .sref (c.t + ms.tRFC) }
  | .SREFEX => { s with mode := .normal }
  | .DSMEN => { s with mode := .dsm }
  | .DSMEX => { s with mode := .sref c.t }
  | .PDEA => { s with mode := .pd true (pdTime std ms s c.t) none }
  | .PDEP => { s with mode := .pd false (pdTime std ms s c.t) none }
  | .PDXA =>
    let x := pdTime std ms s c.t
    match s.mode with
    | .pd a e _ => { mode := .pd a e (some x), bank := fun b => (s.bank b).resume x }
    | _ => s
  | .PDXP =>
    match s.mode with
    | .pd a e _ => { s with mode := .pd a e (some (pdTime std ms s c.t)) }
    | _ => s
  | .RD | .WR | .NOP | .END_OF_SIMULATION | .COUNT => s

/-! ## Categories -/

inductive Cat | act | pre | pda | pdp | sref | dsm
deriving DecidableEq, Repr

/-- Low-power category of the rank during cycle `τ`, if any. -/
def Mode.low (m : Mode) (τ : Nat) : Option Cat :=
  match m with
  | .normal => none
  | .pd a e x =>
    if e ≤ τ ∧ (∀ y ∈ x, τ < y) then some (if a then .pda else .pdp) else none
  | .sref s => if s ≤ τ then some .sref else none
  | .dsm => some .dsm

def bankCat (s : State) (b τ : Nat) : Cat :=
  (s.mode.low τ).getD (if (s.bank b).isOpen τ then .act else .pre)

def rankCat (n : Nat) (s : State) (τ : Nat) : Cat :=
  (s.mode.low τ).getD (if ∃ b < n, (s.bank b).isOpen τ then .act else .pre)

/-- The state that governs cycle `τ`: all commands issued at or before `τ` have been applied. -/
def stateAt (std : Std) (ms : MemSpec) (h : List Cmd) (τ : Nat) : State :=
  (h.filter (·.t ≤ τ)).foldl (apply std ms) {}

/-- How bank `b` of the rank spends cycle `τ` when the rank receives the commands `h`. -/
def category (std : Std) (ms : MemSpec) (h : List Cmd) (b τ : Nat) : Cat :=
  bankCat (stateAt std ms h τ) b τ

/-- How the rank spends cycle `τ`: active if any of its banks is. -/
def rankCategory (std : Std) (ms : MemSpec) (h : List Cmd) (τ : Nat) : Cat :=
  rankCat ms.numberOfBanks (stateAt std ms h τ) τ

/-- Number of the cycles `0, …, t-1` that bank `b` spends in category `k`. -/
def bankTime (std : Std) (ms : MemSpec) (h : List Cmd) (b : Nat) (k : Cat) (t : Nat) : Nat :=
  (List.range t).countP fun τ => category std ms h b τ = k

def rankTime (std : Std) (ms : MemSpec) (h : List Cmd) (k : Cat) (t : Nat) : Nat :=
  (List.range t).countP fun τ => rankCategory std ms h τ = k

/-- Cycle counts of the timeline, in the form the code reports them. -/
def cycles (count : Cat → Nat) : Cycles where
  act := count .act
  pre := count .pre
  powerDownAct := count .pda
  powerDownPre := count .pdp
  selfRefresh := count .sref
  deepSleepMode := count .dsm

/-! ## Legal command sequences -/

/-- Commands of the standard that address a rank. -/
def supports (std : Std) (ty : CmdType) : Bool :=
  match ty with
  | .ACT | .PRE | .PREA | .REFA | .RD | .RDA | .WR | .WRA | .SREFEN | .SREFEX
  | .PDEA | .PDEP | .PDXA | .PDXP => true
  | .PRESB | .REFSB => std = .ddr5
  | .REFB => std = .lpddr4 ∨ std = .lpddr5
  | .REFP2B | .DSMEN | .DSMEX => std = .lpddr5
  | .REFDB => std = .lpddr6
  | .NOP | .END_OF_SIMULATION | .COUNT => false

/-- The command's bank coordinates exist. -/
def inRange (ms : MemSpec) (c : Cmd) : Prop :=
  match c.type with
  | .PREA | .REFA | .SREFEN | .SREFEX | .DSMEN | .DSMEX | .PDEA | .PDEP | .PDXA | .PDXP => True
  | .REFP2B => c.bank < ms.numberOfBanks ∧ (c.bank + ms.perTwoBankOffset) % 16 < ms.numberOfBanks ∧
      (c.bank + ms.perTwoBankOffset) % 16 ≠ c.bank ∧ ms.bankArch ≠ .m8b
  | .REFDB => c.bank < ms.numberOfBanks ∧ c.dbank < ms.numberOfBanks ∧ c.dbank ≠ c.bank
  | _ => c.bank < ms.numberOfBanks

/-- Row can be precharged now: nothing open, or open without a pending auto-precharge. -/
def BankS.prechargeable (b : BankS) : Prop := b.status = .idle ∨ b.status = .opened none

/-- No auto-precharge is pending at or after time `e`. -/
def BankS.noAutoPreFrom (b : BankS) (e : Nat) : Prop :=
  match b.status with | .opened (some p) => p < e | _ => True

/-- Self-refresh has begun at time `t` or earlier. -/
def Mode.selfRefreshing (m : Mode) (t : Nat) : Prop :=
  match m with | .sref start => start ≤ t | _ => False

/-- A power-down of the given kind has been requested and its exit has not; if `enteredBy` is given, it
was entered by then. -/
def Mode.inPd (m : Mode) (active : Bool) (enteredBy : Option Nat) : Prop :=
  match m with | .pd a e none => a = active ∧ ∀ t ∈ enteredBy, e ≤ t | _ => False

/-- Is the command permitted in state `s` (already settled to the time of the command)? -/
def legalCmd (std : Std) (ms : MemSpec) (s : State) (c : Cmd) : Prop :=
  let n := ms.numberOfBanks
  supports std c.type = true ∧ inRange ms c ∧
  match c.type with
  | .ACT => s.mode = .normal ∧ (s.bank c.bank).status = .idle
  | .PRE | .PREA | .PRESB =>
      s.mode = .normal ∧ ∀ b < n, targets ms c b = true → (s.bank b).prechargeable
  | .RD | .WR => s.mode = .normal
  | .RDA | .WRA => s.mode = .normal ∧ (s.bank c.bank).status = .opened none
  | .REFA | .REFB | .REFP2B | .REFDB | .REFSB | .SREFEN =>
      s.mode = .normal ∧ ∀ b < n, targets ms c b = true → (s.bank b).status = .idle
  | .SREFEX | .DSMEN => s.mode.selfRefreshing c.t
  | .DSMEX => s.mode = .dsm
  | .PDEA => s.mode = .normal
  | .PDEP => s.mode = .normal ∧ ∀ b < n, (s.bank b).isOpen (pdTime std ms s c.t) = false
  | .PDXA => s.mode.inPd true (if std = .ddr4 then some c.t else none)
  | .PDXP => s.mode.inPd false none
  | .NOP | .END_OF_SIMULATION | .COUNT => False

/-- Excludes active power-down entries in situations in which the DDR5, LPDDR4, LPDDR5 and LPDDR6
cores are known to disagree with this timeline (see the `violation` theorems): an auto-precharge
pending at power-down entry, a refresh that ends exactly at power-down entry on a bank that has been
activated before; and, for LPDDR6, an active power-down without an open bank. DDR4 is not affected. -/
def benignCmd (std : Std) (ms : MemSpec) (s : State) (c : Cmd) : Prop :=
  c.type = .PDEA → std ≠ .ddr4 →
    let n := ms.numberOfBanks
    let e := pdTime std ms s c.t
    (∀ b < n, (s.bank b).noAutoPreFrom e) ∧
    (∀ b < n, (s.bank b).acted = true → (s.bank b).refEnd ≠ e) ∧
    (std = .lpddr6 → ∃ b < n, (s.bank b).status = .opened none)

/-- Legal and benign. -/
def tameCmd (std : Std) (ms : MemSpec) (s : State) (c : Cmd) : Prop :=
  legalCmd std ms s c ∧ benignCmd std ms s c

/-- Requirements on the memory specification. -/
structure ValidSpec (std : Std) (ms : MemSpec) : Prop where
  banks : 0 < ms.numberOfBanks
  trp : 0 < ms.tRP
  groups : std = .ddr5 → ms.numberOfBanks = ms.numberOfBankGroups * ms.banksPerGroup

/-- A legal command sequence for one rank: timestamps do not decrease and every command is
permitted in the state in which it arrives. `s`, `now`: state after, and time of, the previous
command. -/
def LegalFrom (std : Std) (ms : MemSpec) (s : State) (now : Nat) : List Cmd → Prop
  | [] => True
  | c :: h => now ≤ c.t ∧ legalCmd std ms (s.settle c.t) c ∧
      LegalFrom std ms (apply std ms s c) c.t h

def Legal (std : Std) (ms : MemSpec) (h : List Cmd) : Prop := LegalFrom std ms {} 0 h

/-- Legal and benign command sequences. -/
def TameFrom (std : Std) (ms : MemSpec) (s : State) (now : Nat) : List Cmd → Prop
  | [] => True
  | c :: h => now ≤ c.t ∧ tameCmd std ms (s.settle c.t) c ∧
      TameFrom std ms (apply std ms s c) c.t h

def Tame (std : Std) (ms : MemSpec) (h : List Cmd) : Prop := TameFrom std ms {} 0 h

/-! ## Several ranks -/

/-- Commands that address no rank. -/
def unaddressed (std : Std) (ty : CmdType) : Bool :=
  ty = .END_OF_SIMULATION ∨ (std = .ddr5 ∧ ty = .NOP)

/-- The part of a trace that addresses rank `i`. -/
def forRank (std : Std) (i : Nat) (cmds : List Cmd) : List Cmd :=
  cmds.filter fun c => decide (c.rank = i) && !unaddressed std c.type

/-- Timestamps do not decrease. -/
def Ordered (cmds : List Cmd) : Prop := cmds.Pairwise (·.t ≤ ·.t)

instance (cmds : List Cmd) : Decidable (Ordered cmds) := by unfold Ordered; infer_instance

/-- `t` is not earlier than any command of the trace. -/
def NotBefore (cmds : List Cmd) (t : Nat) : Prop := ∀ c ∈ cmds, c.t ≤ t

instance (cmds : List Cmd) (t : Nat) : Decidable (NotBefore cmds t) := by unfold NotBefore; infer_instance

/-- Rank coordinates exist. -/
def RanksExist (std : Std) (ms : MemSpec) (cmds : List Cmd) : Prop :=
  ∀ c ∈ cmds, unaddressed std c.type = true ∨ c.rank < ms.numberOfRanks

instance (std : Std) (ms : MemSpec) (cmds : List Cmd) : Decidable (RanksExist std ms cmds) := by
  unfold RanksExist; infer_instance

/-- A legal trace: every rank receives a legal command sequence. -/
structure LegalTrace (std : Std) (ms : MemSpec) (cmds : List Cmd) : Prop where
  ordered : Ordered cmds
  ranks : RanksExist std ms cmds
  legal : ∀ i < ms.numberOfRanks, Legal std ms (forRank std i cmds)

/-- A legal trace without the power-down situations excluded by `benignCmd`. -/
structure TameTrace (std : Std) (ms : MemSpec) (cmds : List Cmd) : Prop where
  ordered : Ordered cmds
  ranks : RanksExist std ms cmds
  tame : ∀ i < ms.numberOfRanks, Tame std ms (forRank std i cmds)

instance (ms : MemSpec) (c : Cmd) : Decidable (inRange ms c) := by
  unfold inRange; split <;> infer_instance

instance (b : BankS) : Decidable b.prechargeable := by unfold BankS.prechargeable; infer_instance

instance (b : BankS) (e : Nat) : Decidable (b.noAutoPreFrom e) := by
  unfold BankS.noAutoPreFrom; split <;> infer_instance

instance (m : Mode) (t : Nat) : Decidable (m.selfRefreshing t) := by
  unfold Mode.selfRefreshing; split <;> infer_instance

instance (m : Mode) (a : Bool) (t : Option Nat) : Decidable (m.inPd a t) := by
  unfold Mode.inPd; split <;> infer_instance

instance (std : Std) (ms : MemSpec) (s : State) (c : Cmd) : Decidable (legalCmd std ms s c) := by
  unfold legalCmd
  refine @instDecidableAnd _ _ _ (@instDecidableAnd _ _ _ ?_)
  split <;> infer_instance

instance decLegalFrom (std : Std) (ms : MemSpec) (s : State) (now : Nat) :
    (h : List Cmd) → Decidable (LegalFrom std ms s now h)
  | [] => isTrue trivial
  | _ :: h => @instDecidableAnd _ _ _ (@instDecidableAnd _ _ _ (decLegalFrom std ms _ _ h))

instance (std : Std) (ms : MemSpec) (h : List Cmd) : Decidable (Legal std ms h) := by
  unfold Legal; infer_instance

instance (std : Std) (ms : MemSpec) (s : State) (c : Cmd) : Decidable (benignCmd std ms s c) := by
  unfold benignCmd; infer_instance

instance (std : Std) (ms : MemSpec) (s : State) (c : Cmd) : Decidable (tameCmd std ms s c) := by
  unfold tameCmd; infer_instance

instance decTameFrom (std : Std) (ms : MemSpec) (s : State) (now : Nat) :
    (h : List Cmd) → Decidable (TameFrom std ms s now h)
  | [] => isTrue trivial
  | _ :: h => @instDecidableAnd _ _ _ (@instDecidableAnd _ _ _ (decTameFrom std ms _ _ h))

instance (std : Std) (ms : MemSpec) (h : List Cmd) : Decidable (Tame std ms h) := by
  unfold Tame; infer_instance

instance (std : Std) (ms : MemSpec) (cmds : List Cmd) : Decidable (LegalTrace std ms cmds) :=
  decidable_of_iff (Ordered cmds ∧ RanksExist std ms cmds ∧ ∀ i < ms.numberOfRanks, Legal std ms (forRank std i cmds))
    ⟨fun ⟨a, b, c⟩ => ⟨a, b, c⟩, fun ⟨a, b, c⟩ => ⟨a, b, c⟩⟩

instance (std : Std) (ms : MemSpec) (cmds : List Cmd) : Decidable (TameTrace std ms cmds) :=
  decidable_of_iff (Ordered cmds ∧ RanksExist std ms cmds ∧ ∀ i < ms.numberOfRanks, Tame std ms (forRank std i cmds))
    ⟨fun ⟨a, b, c⟩ => ⟨a, b, c⟩, fun ⟨a, b, c⟩ => ⟨a, b, c⟩⟩

instance (std : Std) (ms : MemSpec) : Decidable (ValidSpec std ms) :=
  decidable_of_iff (0 < ms.numberOfBanks ∧ 0 < ms.tRP ∧ (std = .ddr5 → ms.numberOfBanks = ms.numberOfBankGroups * ms.banksPerGroup))
    ⟨fun ⟨a, b, c⟩ => ⟨a, b, c⟩, fun ⟨a, b, c⟩ => ⟨a, b, c⟩⟩

end DRAMPower.Spec
