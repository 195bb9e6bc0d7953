import Verif.Model.Interval

/-!
# The core (bank/rank state) half of the simulator, all five standards

Paths in comments are relative to `/repo/src/DRAMPower/DRAMPower/`.

Simplifications, used throughout this file:
* vectors are functions from indices plus their size (`Rank.nBanks`, `MemSpec.numberOfRanks`);
* handlers that receive a rank (by reference or by index) return the new rank and the list of
  `(time, implicit command)` pairs passed to `addImplicitCommand`, in call order;
* the lambdas given to `addImplicitCommand` are the constructors of `Imp`, their bodies `exec`;
* failed `assert`s, exceptions and out-of-range `operator[]` are `Except.error`;
* the warning printed by `Rank::isActive` is not modelled.
* if several checks of one command fail, which one is reported may differ (LPDDR5 looks at the bank architecture before the rank).
-/

namespace DRAMPower

/-- `enum class CmdType` (command/CmdType.h 15-40). -/
inductive CmdType
  | NOP | RD | WR | RDA | WRA | ACT | PRE | REFB | REFP2B | REFDB | PRESB | REFSB | PREA | REFA
  | PDEA | PDEP | PDXA | PDXP | SREFEN | SREFEX | DSMEN | DSMEX | END_OF_SIMULATION | COUNT
deriving DecidableEq, Repr

/-- The part of `Command`/`LPDDR6Command` the cores read (command/Command.h 11-39,
standards/lpddr6/LPDDR6Command.h 13-36). `dbank` is only read by LPDDR6; its default is the one of
the conversion constructor `LPDDR6TargetCoordinate(const TargetCoordinate&)`. -/
structure Cmd where
  t : Nat
  type : CmdType
  rank : Nat := 0
  bank : Nat := 0
  dbank : Nat := (bank + 8) % 16
deriving DecidableEq, Repr

/-- `command_stats_t` (data/stats.h 15-26). -/
structure Counters where
  act : Nat := 0
  pre : Nat := 0
  reads : Nat := 0
  writes : Nat := 0
  refAllBank : Nat := 0
  refPerBank : Nat := 0
  refPerTwoBanks : Nat := 0
  refDualBanks : Nat := 0
  refSameBank : Nat := 0
  readAuto : Nat := 0
  writeAuto : Nat := 0
deriving DecidableEq, Repr

/-- `Bank::BankState` (dram/Bank.h 15-18). -/
inductive BankState | precharged | active
deriving DecidableEq, Repr

/-- `struct Bank` (dram/Bank.h 13-31). The intervals `powerDownAct`/`powerDownPre` are never touched
by any core; they are kept because they are serialized. `bankState` has no initialiser in the
struct but banks are value-initialised by `banks(numBanks)` (dram/Rank.cpp 7-9): precharged. -/
structure Bank where
  counter : Counters := {}
  act : Interval := {}
  powerDownAct : Interval := {}
  powerDownPre : Interval := {}
  state : BankState := .precharged
  latestPre : Nat := 0
  refreshEndTime : Nat := 0
deriving DecidableEq, Repr

/-- `enum class MemState` (dram/Rank.h 16-22). -/
inductive MemState | notInPD | pdnAct | pdnPre | sref | dsm
deriving DecidableEq, Repr

/-- `struct Rank` (dram/Rank.h 25-43). The intervals `pre` and `ref` are never touched by any core;
they are kept because they are serialized. -/
structure Rank where
  memState : MemState := .notInPD
  pre : Interval := {}
  act : Interval := {}
  ref : Interval := {}
  sref : Interval := {}
  powerDownAct : Interval := {}
  powerDownPre : Interval := {}
  deepSleepMode : Interval := {}
  selfRefreshCounter : Nat := 0
  deepSleepCounter : Nat := 0
  endRefreshTime : Nat := 0
  nBanks : Nat
  banks : Nat → Bank := fun _ => {}

namespace Rank

/-- Write access to `rank.banks[b]`. -/
def setBank (r : Rank) (b : Nat) (x : Bank) : Rank := { r with banks := upd r.banks b x }

/-- `for (auto& bank : rank.banks) bank = f(bank)`: a loop whose body only touches the bank. -/
def mapBanks (r : Rank) (f : Bank → Bank) : Rank :=
  { r with banks := fun i => if i < r.nBanks then f (r.banks i) else r.banks i }

/-- `Rank::countActiveBanks` (dram/Rank.cpp 18-23). -/
def countActiveBanks (r : Rank) : Nat :=
  (List.range r.nBanks).countP fun i => (r.banks i).state == .active

/-- `Rank::isActive` (dram/Rank.cpp 11-16). -/
def isActive (r : Rank) (t : Nat) : Bool :=
  decide (r.countActiveBanks > 0) || decide (t < r.endRefreshTime)

end Rank

/-- The five standards of `standards/`. -/
inductive Std | ddr4 | ddr5 | lpddr4 | lpddr5 | lpddr6
deriving DecidableEq, Repr

/-- `MemSpecLPDDR5::BankArchitectureMode` (memspec/MemSpecLPDDR5.h). -/
inductive BankArch | m16b | mbg | m8b
deriving DecidableEq, Repr

/-- Union of the five `*CoreMemSpec` structs (DDR4Core.h 24-45, DDR5Core.h 22-49,
LPDDR4Core.h 23-46, LPDDR5Core.h 23-50, LPDDR6Core.h 21-46). `tRFC` is `tRFCAB` for LPDDR6.
LPDDR6 has `tRCDR`/`tRCDW` instead of `tRCD`. -/
structure MemSpec where
  numberOfBanks : Nat
  numberOfRanks : Nat := 1
  banksPerGroup : Nat := 1
  numberOfBankGroups : Nat := 1
  tRFC : Nat
  tRFCsb : Nat := 0
  tRFCPB : Nat := 0
  tRFCDB : Nat := 0
  tRAS : Nat
  tRCD : Nat := 0
  tRCDR : Nat := 0
  tRCDW : Nat := 0
  tRP : Nat
  prechargeOffsetRD : Nat
  prechargeOffsetWR : Nat
  bankArch : BankArch := .m16b
  perTwoBankOffset : Nat := 8
deriving Repr

/-- Ways in which a call can fail. `ub` is an unchecked vector access or division by zero. -/
inductive Err | assertion (msg : String) | exception (msg : String) | ub (msg : String)
deriving DecidableEq, Repr

/-- The lambdas passed to `addImplicitCommand`; captured bank index as argument, captured time is
the queue time (all lambdas capture exactly the time they are queued for), captured rank index is
kept in `QEntry.rank`. -/
inductive Imp
  | pre (bank : Nat)      -- implicit precharge of RDA/WRA
  | refEnd (bank : Nat)   -- end of a refresh on one bank
  | srefEnter | pdaEnter | pdaExit | pdpEnter | pdpExit
deriving DecidableEq, Repr

/-- Result of a handler: new rank and the implicit commands queued, in call order. -/
abbrev HRes := Rank × List (Nat × Imp)

/-! ## Handlers shared (textually identical) by DDR5, LPDDR4, LPDDR5 and LPDDR6 -/

namespace Shared

/-- `handleAct`: DDR5Core.cpp 75-85, LPDDR4Core.cpp 71-81, LPDDR5Core.cpp 84-94,
LPDDR6Core.cpp 84-94. -/
def handleAct (r : Rank) (b t : Nat) : Rank :=
  let bank := r.banks b
  let r := r.setBank b { bank with counter := { bank.counter with act := bank.counter.act + 1 },
                                   act := bank.act.startAt t }
  let r := if r.isActive t then r else { r with act := r.act.startAt t }
  r.setBank b { r.banks b with state := .active }

/-- `handlePre`: DDR5Core.cpp 87-99, LPDDR4Core.cpp 83-95, LPDDR5Core.cpp 96-108,
LPDDR6Core.cpp 96-108. -/
def handlePre (r : Rank) (b t : Nat) : Rank :=
  let bank := r.banks b
  if bank.state = .precharged then r else
  let r := r.setBank b { bank with counter := { bank.counter with pre := bank.counter.pre + 1 },
                                   act := bank.act.close t, latestPre := t, state := .precharged }
  if r.isActive t then r else { r with act := r.act.close t }

/-- `handleRefreshOnBank`: DDR5Core.cpp 134-163, LPDDR4Core.cpp 103-129, LPDDR5Core.cpp 139-163,
LPDDR6Core.cpp 137-161. The counter passed by reference is the field updater `cnt`. -/
def handleRefreshOnBank (cnt : Counters → Counters) (timing t : Nat) (res : HRes) (b : Nat) : HRes :=
  let r := res.1
  let r := r.setBank b { r.banks b with counter := cnt (r.banks b).counter }
  let r := if r.isActive t then r else { r with act := r.act.startAt t }
  let tEnd := t + timing
  let bank := r.banks b
  let r := r.setBank b { bank with state := .active, refreshEndTime := tEnd,
                                   act := if bank.act.isOpen then bank.act else bank.act.startAt t }
  (r, res.2 ++ [(tEnd, .refEnd b)])

/-- `handleRefAll`: DDR5Core.cpp 124-132, LPDDR4Core.cpp 131-138, LPDDR5Core.cpp 130-137,
LPDDR6Core.cpp 126-135 (`tRFCAB`). -/
def handleRefAll (ms : MemSpec) (r : Rank) (t : Nat) : HRes :=
  let res := (List.range r.nBanks).foldl
    (handleRefreshOnBank (fun c => { c with refAllBank := c.refAllBank + 1 }) ms.tRFC t) (r, [])
  ({ res.1 with endRefreshTime := t + ms.tRFC }, res.2)

/-- Body of the lambda queued by `handleRefreshOnBank` (same lines). -/
def execRefEnd (r : Rank) (b t : Nat) : Rank :=
  let bank := r.banks b
  let r := r.setBank b { bank with state := .precharged, act := bank.act.close t }
  if r.isActive t then r else { r with act := r.act.close t }

/-- Body of the lambda of `handlePowerDownActEntry`: DDR5Core.cpp 232-244, LPDDR4Core.cpp 168-180,
LPDDR5Core.cpp 229-241, LPDDR6Core.cpp 227-237. The `is_open` guards around `close_interval` repeat
the guard inside `close_interval` and are dropped. -/
def execPdaEnter (r : Rank) (t : Nat) : Rank :=
  let r := { r with powerDownAct := r.powerDownAct.startAt t, memState := .pdnAct }
  let r := { r with act := r.act.close t }
  r.mapBanks fun bank => { bank with act := bank.act.close t }

/-- The condition under which `handlePowerDownActExit` restarts a bank: DDR5Core.cpp 260,
LPDDR4Core.cpp 196, LPDDR5Core.cpp 257, LPDDR6Core.cpp 251. -/
def restarts (r : Rank) (bank : Bank) : Bool :=
  bank.counter.act != 0 && bank.act.getEnd == r.powerDownAct.getStart

/-- Body of the lambda of `handlePowerDownActExit`: DDR5Core.cpp 252-270, LPDDR4Core.cpp 188-206,
LPDDR5Core.cpp 249-267. -/
def execPdaExit (r : Rank) (t : Nat) : Rank :=
  let r := { r with memState := .notInPD, powerDownAct := r.powerDownAct.close t }
  let rankActive := (List.range r.nBanks).any fun i => restarts r (r.banks i)
  let r' := r.mapBanks fun bank => if restarts r bank then { bank with act := bank.act.startAt t } else bank
  if rankActive then { r' with act := r'.act.startAt t } else r'

/-- Body of the lambda of `handlePowerDownPreEntry`: DDR5Core.cpp 278-282, LPDDR4Core.cpp 213-217,
LPDDR5Core.cpp 274-278, LPDDR6Core.cpp 262-266. -/
def execPdpEnter (r : Rank) (t : Nat) : Rank :=
  { r with powerDownPre := r.powerDownPre.startAt t, memState := .pdnPre }

/-- Body of the lambda of `handlePowerDownPreExit`: DDR5Core.cpp 290-294, LPDDR4Core.cpp 225-229,
LPDDR5Core.cpp 286-290, LPDDR6Core.cpp 274-278. -/
def execPdpExit (r : Rank) (t : Nat) : Rank :=
  { r with memState := .notInPD, powerDownPre := r.powerDownPre.close t }

end Shared

/-! ## DDR4 handlers -/

namespace DDR4

/-- DDR4Core.cpp 70-78. -/
def handleAct (r : Rank) (b t : Nat) : Rank :=
  let bank := r.banks b
  let r := r.setBank b { bank with counter := { bank.counter with act := bank.counter.act + 1 },
                                   state := .active, act := bank.act.startAt t }
  { r with act := r.act.startIfNotRunning t }

/-- DDR4Core.cpp 80-96. -/
def handlePre (r : Rank) (b t : Nat) : Rank :=
  let bank := r.banks b
  if bank.state = .precharged then r else
  let r := r.setBank b { bank with counter := { bank.counter with pre := bank.counter.pre + 1 },
                                   state := .precharged, act := bank.act.close t, latestPre := t }
  if r.isActive t then r else { r with act := r.act.close t }

/-- DDR4Core.cpp 103-135. The loop body touches only the bank, hence `mapBanks`. -/
def handleRefAll (ms : MemSpec) (r : Rank) (t : Nat) : HRes :=
  let tEnd := t + ms.tRFC
  let r := { r with endRefreshTime := tEnd }
  let r := { r with act := r.act.startIfNotRunning t }
  let r := r.mapBanks fun bank =>
    { bank with state := .active,
                counter := { bank.counter with refAllBank := bank.counter.refAllBank + 1 },
                act := bank.act.startIfNotRunning t,
                refreshEndTime := tEnd }
  (r, (List.range r.nBanks).map fun b => (tEnd, .refEnd b))

/-- Lambda of DDR4Core.cpp 120-131. -/
def execRefEnd (r : Rank) (b t : Nat) : Rank :=
  let bank := r.banks b
  let r := r.setBank b { bank with state := .precharged, act := bank.act.close t }
  if r.isActive t then r else { r with act := r.act.close t }

/-- Lambda of DDR4Core.cpp 198-207. -/
def execPdaEnter (r : Rank) (t : Nat) : Rank :=
  let r := { r with memState := .pdnAct, powerDownAct := r.powerDownAct.startAt t,
                    act := r.act.close t }
  r.mapBanks fun bank => { bank with act := bank.act.close t }

/-- Lambda of DDR4Core.cpp 216-234. -/
def execPdaExit (r : Rank) (t : Nat) : Rank :=
  let r := { r with memState := .notInPD, powerDownAct := r.powerDownAct.close t }
  let r := r.mapBanks fun bank =>
    if bank.state = .active then { bank with act := bank.act.startAt t } else bank
  if r.isActive t then { r with act := r.act.startAt t } else r

/-- Lambda of DDR4Core.cpp 242-250. -/
def execPdpEnter (r : Rank) (t : Nat) : Rank :=
  let r := r.mapBanks fun bank => { bank with act := bank.act.close t }
  { r with memState := .pdnPre, powerDownPre := r.powerDownPre.startAt t, act := r.act.close t }

/-- Lambda of DDR4Core.cpp 259-277. -/
def execPdpExit (r : Rank) (t : Nat) : Rank :=
  let r := { r with memState := .notInPD, powerDownPre := r.powerDownPre.close t }
  r.mapBanks fun bank =>
    if bank.state = .active then { bank with act := bank.act.startAt t } else bank

end DDR4

/-! ## Handlers that are the same in all five cores up to the constants used -/

/-- LPDDR6 lambda of `handlePowerDownActExit` (LPDDR6Core.cpp 245-255): the rank interval is
restarted unconditionally, before the bank loop. -/
def LPDDR6.execPdaExit (r : Rank) (t : Nat) : Rank :=
  let r := { r with memState := .notInPD, powerDownAct := r.powerDownAct.close t }
  let r := { r with act := r.act.startAt t }
  r.mapBanks fun bank =>
    if Shared.restarts r bank then { bank with act := bank.act.startAt t } else bank

/-- `handleAct` of the respective core. -/
def handleAct : Std → Rank → Nat → Nat → Rank
  | .ddr4 => DDR4.handleAct
  | _ => Shared.handleAct

/-- `handlePre` of the respective core. -/
def handlePre : Std → Rank → Nat → Nat → Rank
  | .ddr4 => DDR4.handlePre
  | _ => Shared.handlePre

/-- `handlePreAll`: DDR4Core.cpp 98-101, DDR5Core.cpp 109-113, LPDDR4Core.cpp 97-101,
LPDDR5Core.cpp 110-114, LPDDR6Core.cpp 110-114. -/
def handlePreAll (std : Std) (r : Rank) (t : Nat) : Rank :=
  (List.range r.nBanks).foldl (fun r b => handlePre std r b t) r

/-- `handleRefAll` of the respective core. -/
def handleRefAll : Std → MemSpec → Rank → Nat → HRes
  | .ddr4 => DDR4.handleRefAll
  | _ => Shared.handleRefAll

/-- `handleRead`: DDR4Core.cpp 137-139, DDR5Core.cpp 165-167, LPDDR4Core.cpp 232-234,
LPDDR5Core.cpp 165-167, LPDDR6Core.cpp 163-165. -/
def handleRead (r : Rank) (b : Nat) : Rank :=
  let bank := r.banks b
  r.setBank b { bank with counter := { bank.counter with reads := bank.counter.reads + 1 } }

/-- `handleWrite`: DDR4Core.cpp 156-158, DDR5Core.cpp 186-188, LPDDR4Core.cpp 236-238,
LPDDR5Core.cpp 186-188, LPDDR6Core.cpp 184-186. -/
def handleWrite (r : Rank) (b : Nat) : Rank :=
  let bank := r.banks b
  r.setBank b { bank with counter := { bank.counter with writes := bank.counter.writes + 1 } }

/-- `handleReadAuto`: DDR4Core.cpp 141-154, DDR5Core.cpp 169-184, LPDDR4Core.cpp 240-255,
LPDDR5Core.cpp 169-184, LPDDR6Core.cpp 167-182. -/
def handleReadAuto (ms : MemSpec) (r : Rank) (b t : Nat) : HRes :=
  let bank := r.banks b
  let r := r.setBank b { bank with counter := { bank.counter with readAuto := bank.counter.readAuto + 1 } }
  (r, [(max ((r.banks b).act.getStart + ms.tRAS) (t + ms.prechargeOffsetRD), .pre b)])

/-- `handleWriteAuto`: DDR4Core.cpp 160-173, DDR5Core.cpp 190-205, LPDDR4Core.cpp 257-272,
LPDDR5Core.cpp 190-204, LPDDR6Core.cpp 188-202. -/
def handleWriteAuto (ms : MemSpec) (r : Rank) (b t : Nat) : HRes :=
  let bank := r.banks b
  let r := r.setBank b { bank with counter := { bank.counter with writeAuto := bank.counter.writeAuto + 1 } }
  (r, [(max ((r.banks b).act.getStart + ms.tRAS) (t + ms.prechargeOffsetWR), .pre b)])

/-- `handleSelfRefreshEntry`: DDR4Core.cpp 175-186, DDR5Core.cpp 207-220, LPDDR4Core.cpp 145-156,
LPDDR5Core.cpp 206-217, LPDDR6Core.cpp 204-215. -/
def handleSelfRefreshEntry (std : Std) (ms : MemSpec) (r : Rank) (t : Nat) : HRes :=
  let res := handleRefAll std ms r t
  (res.1, res.2 ++ [(t + ms.tRFC, .srefEnter)])

/-- Lambda of `handleSelfRefreshEntry` (same lines). -/
def execSrefEnter (r : Rank) (t : Nat) : Rank :=
  { r with selfRefreshCounter := r.selfRefreshCounter + 1, sref := r.sref.startAt t, memState := .sref }

/-- `handleSelfRefreshExit`: DDR4Core.cpp 188-192, DDR5Core.cpp 222-226, LPDDR4Core.cpp 158-162,
LPDDR5Core.cpp 219-223, LPDDR6Core.cpp 217-221. -/
def handleSelfRefreshExit (r : Rank) (t : Nat) : Except Err HRes :=
  if r.memState = .sref then .ok ({ r with sref := r.sref.close t, memState := .notInPD }, [])
  else .error (.assertion "rank.memState == MemState::SREF")

/-- The `tRCD` used by `earliestPossiblePowerDownEntryTime` (LPDDR6Core.cpp 288 uses the maximum of
`tRCDR` and `tRCDW`). -/
def effRCD (std : Std) (ms : MemSpec) : Nat :=
  match std with
  | .lpddr6 => max ms.tRCDR ms.tRCDW
  | _ => ms.tRCD

/-- `earliestPossiblePowerDownEntryTime`: DDR4Core.cpp 280-292, DDR5Core.cpp 297-310,
LPDDR4Core.cpp 274-286, LPDDR5Core.cpp 306-319, LPDDR6Core.cpp 281-294. -/
def earliestPossible (std : Std) (ms : MemSpec) (r : Rank) : Nat :=
  (List.range r.nBanks).foldl (fun acc i =>
    let bank := r.banks i
    max (max (max acc (if bank.counter.act = 0 then 0 else bank.act.getStart + effRCD std ms))
      (if bank.counter.pre = 0 then 0 else bank.latestPre + ms.tRP)) bank.refreshEndTime) 0

/-- `handlePowerDownActEntry`: DDR4Core.cpp 194-208, DDR5Core.cpp 228-245, LPDDR4Core.cpp 164-181,
LPDDR5Core.cpp 225-242, LPDDR6Core.cpp 223-238. -/
def handlePowerDownActEntry (std : Std) (ms : MemSpec) (r : Rank) (t : Nat) : HRes :=
  (r, [(max t (earliestPossible std ms r), .pdaEnter)])

/-- `handlePowerDownActExit`: DDR4Core.cpp 210-235 (with the assertion of line 212),
DDR5Core.cpp 247-271, LPDDR4Core.cpp 183-207, LPDDR5Core.cpp 244-268, LPDDR6Core.cpp 240-256
(no assertion). -/
def handlePowerDownActExit (std : Std) (ms : MemSpec) (r : Rank) (t : Nat) : Except Err HRes :=
  if std = .ddr4 ∧ r.memState ≠ .pdnAct then .error (.assertion "rank.memState == MemState::PDN_ACT")
  else .ok (r, [(max t (earliestPossible std ms r), .pdaExit)])

/-- `handlePowerDownPreEntry`: DDR4Core.cpp 237-251, DDR5Core.cpp 273-283, LPDDR4Core.cpp 209-218,
LPDDR5Core.cpp 270-279, LPDDR6Core.cpp 258-267. -/
def handlePowerDownPreEntry (std : Std) (ms : MemSpec) (r : Rank) (t : Nat) : HRes :=
  (r, [(max t (earliestPossible std ms r), .pdpEnter)])

/-- `handlePowerDownPreExit`: DDR4Core.cpp 253-278, DDR5Core.cpp 285-295, LPDDR4Core.cpp 220-230,
LPDDR5Core.cpp 281-291, LPDDR6Core.cpp 269-279. -/
def handlePowerDownPreExit (std : Std) (ms : MemSpec) (r : Rank) (t : Nat) : HRes :=
  (r, [(max t (earliestPossible std ms r), .pdpExit)])

/-- The bank indices `bank_group * banksPerGroup + bank_id % banksPerGroup` visited by
`handlePreSameBank` / `handleRefSameBank` (DDR5Core.cpp 101-107, 115-122). -/
def sameBankIdx (ms : MemSpec) (bank : Nat) : List Nat :=
  (List.range ms.numberOfBankGroups).map fun g => g * ms.banksPerGroup + bank % ms.banksPerGroup

/-- `handlePreSameBank` (DDR5Core.cpp 101-107). A zero `banksPerGroup` or an index outside the bank
vector is undefined behaviour. -/
def handlePreSameBank (ms : MemSpec) (r : Rank) (bank t : Nat) : Except Err HRes :=
  if ms.banksPerGroup = 0 then .error (.ub "modulo zero")
  else if (sameBankIdx ms bank).all (· < r.nBanks) then
    .ok ((sameBankIdx ms bank).foldl (fun r b => Shared.handlePre r b t) r, [])
  else .error (.ub "bank index")

/-- `handleRefSameBank` (DDR5Core.cpp 115-122). -/
def handleRefSameBank (ms : MemSpec) (r : Rank) (bank t : Nat) : Except Err HRes :=
  if ms.banksPerGroup = 0 then .error (.ub "modulo zero")
  else if (sameBankIdx ms bank).all (· < r.nBanks) then
    .ok ((sameBankIdx ms bank).foldl
      (Shared.handleRefreshOnBank (fun c => { c with refSameBank := c.refSameBank + 1 }) ms.tRFCsb t) (r, []))
  else .error (.ub "bank index")

/-- `handleRefPerBank`: LPDDR4Core.cpp 140-143, LPDDR5Core.cpp 116-119. -/
def handleRefPerBank (ms : MemSpec) (r : Rank) (bank t : Nat) : HRes :=
  Shared.handleRefreshOnBank (fun c => { c with refPerBank := c.refPerBank + 1 }) ms.tRFCPB t (r, []) bank

/-- `handleRefPerTwoBanks` (LPDDR5Core.cpp 121-128); the second index is not checked by the code. -/
def handleRefPerTwoBanks (ms : MemSpec) (r : Rank) (bank t : Nat) : Except Err HRes :=
  let bank2 := (bank + ms.perTwoBankOffset) % 16
  if bank2 < r.nBanks then
    .ok ([bank, bank2].foldl
      (Shared.handleRefreshOnBank (fun c => { c with refPerTwoBanks := c.refPerTwoBanks + 1 }) ms.tRFCPB t) (r, []))
  else .error (.ub "bank index")

/-- `handleRefDualBanks` (LPDDR6Core.cpp 116-124). -/
def handleRefDualBanks (ms : MemSpec) (r : Rank) (bank1 bank2 t : Nat) : HRes :=
  [bank1, bank2].foldl
    (Shared.handleRefreshOnBank (fun c => { c with refDualBanks := c.refDualBanks + 1 }) ms.tRFCDB t) (r, [])

/-- `handleDSMEntry` (LPDDR5Core.cpp 293-298). -/
def handleDSMEntry (r : Rank) (t : Nat) : Except Err HRes :=
  if r.memState = .sref then
    .ok ({ r with deepSleepMode := r.deepSleepMode.startAt t, deepSleepCounter := r.deepSleepCounter + 1,
                  memState := .dsm }, [])
  else .error (.assertion "rank.memState == MemState::SREF")

/-- `handleDSMExit` (LPDDR5Core.cpp 300-304). -/
def handleDSMExit (r : Rank) (t : Nat) : Except Err HRes :=
  if r.memState = .dsm then
    .ok ({ r with deepSleepMode := r.deepSleepMode.close t, memState := .sref }, [])
  else .error (.assertion "rank.memState == MemState::DSM")

/-! ## Dispatch -/

/-- `bankHandler`, `bankHandlerIdx`, `bankGroupHandler(Idx)` (util/RegisterHelper.h 12-71): the bank
coordinate is asserted to be inside the rank before the handler runs. (The rank coordinate is
checked in `doCommand` below.) -/
def withBank (r : Rank) (bank : Nat) (k : Except Err HRes) : Except Err HRes :=
  if bank < r.nBanks then k else .error (.assertion "rank.banks.size()>cmd.targetCoordinate.bank")

/-- A handler without implicit commands. -/
def pureRes (r : Rank) : Except Err HRes := .ok (r, [])

/-- The `switch` statements of `doCommand` restricted to commands that address a rank:
DDR4Core.cpp 11-59, DDR5Core.cpp 9-64, LPDDR4Core.cpp 9-60, LPDDR5Core.cpp 10-73,
LPDDR6Core.cpp 12-73. `default:` is `assert(false)`. -/
def handle (std : Std) (ms : MemSpec) (r : Rank) (c : Cmd) : Except Err HRes :=
  match c.type with
  | .ACT => withBank r c.bank (pureRes (handleAct std r c.bank c.t))
  | .PRE => withBank r c.bank (pureRes (handlePre std r c.bank c.t))
  | .PREA => pureRes (handlePreAll std r c.t)
  | .REFA => .ok (handleRefAll std ms r c.t)
  | .RD => withBank r c.bank (pureRes (handleRead r c.bank))
  | .RDA => withBank r c.bank (.ok (handleReadAuto ms r c.bank c.t))
  | .WR => withBank r c.bank (pureRes (handleWrite r c.bank))
  | .WRA => withBank r c.bank (.ok (handleWriteAuto ms r c.bank c.t))
  | .SREFEN => .ok (handleSelfRefreshEntry std ms r c.t)
  | .SREFEX => handleSelfRefreshExit r c.t
  | .PDEA => .ok (handlePowerDownActEntry std ms r c.t)
  | .PDEP => .ok (handlePowerDownPreEntry std ms r c.t)
  | .PDXA => handlePowerDownActExit std ms r c.t
  | .PDXP => .ok (handlePowerDownPreExit std ms r c.t)
  | .PRESB => if std = .ddr5 then withBank r c.bank (handlePreSameBank ms r c.bank c.t)
              else .error (.assertion "Unsupported command")
  | .REFSB => if std = .ddr5 then withBank r c.bank (handleRefSameBank ms r c.bank c.t)
              else .error (.assertion "Unsupported command")
  | .REFB => if std = .lpddr4 ∨ std = .lpddr5 then withBank r c.bank (.ok (handleRefPerBank ms r c.bank c.t))
             else .error (.assertion "Unsupported command")
  | .REFP2B => if std = .lpddr5 then
                 if ms.bankArch = .m8b then .error (.exception "REFP2B command is not supported")
                 else withBank r c.bank (handleRefPerTwoBanks ms r c.bank c.t)
               else .error (.assertion "Unsupported command")
  | .REFDB => if std = .lpddr6 then
                withBank r c.bank (withBank r c.dbank (.ok (handleRefDualBanks ms r c.bank c.dbank c.t)))
              else .error (.assertion "Unsupported command")
  | .DSMEN => if std = .lpddr5 then handleDSMEntry r c.t else .error (.assertion "Unsupported command")
  | .DSMEX => if std = .lpddr5 then handleDSMExit r c.t else .error (.assertion "Unsupported command")
  | .NOP | .END_OF_SIMULATION | .COUNT => .error (.assertion "Unsupported command")

/-- Commands accepted without addressing any rank: `END_OF_SIMULATION` in every core
(DDR4Core.cpp 54-55, DDR5Core.cpp 59-60, LPDDR4Core.cpp 54-57, LPDDR5Core.cpp 68-69,
LPDDR6Core.cpp 68-69) and `NOP` in DDR5 only (DDR5Core.cpp 58). -/
def isNoEffect (std : Std) (ty : CmdType) : Bool :=
  ty == .END_OF_SIMULATION || (std == .ddr5 && ty == .NOP)

/-- Execution of one implicit command on its rank at its queue time. -/
def exec (std : Std) (r : Rank) (t : Nat) : Imp → Rank
  | .pre b => handlePre std r b t
  | .refEnd b => match std with
    | .ddr4 => DDR4.execRefEnd r b t
    | _ => Shared.execRefEnd r b t
  | .srefEnter => execSrefEnter r t
  | .pdaEnter => match std with
    | .ddr4 => DDR4.execPdaEnter r t
    | _ => Shared.execPdaEnter r t
  | .pdaExit => match std with
    | .ddr4 => DDR4.execPdaExit r t
    | .lpddr6 => LPDDR6.execPdaExit r t
    | _ => Shared.execPdaExit r t
  | .pdpEnter => match std with
    | .ddr4 => DDR4.execPdpEnter r t
    | _ => Shared.execPdpEnter r t
  | .pdpExit => match std with
    | .ddr4 => DDR4.execPdpExit r t
    | _ => Shared.execPdpExit r t

/-! ## Implicit command queue and the core object -/

/-- One entry of `implicitCommandList_t` (util/ImplicitCommandHandler.h 38-40). -/
structure QEntry where
  t : Nat
  rank : Nat
  imp : Imp
deriving DecidableEq, Repr

/-- `details::addImplicitCommand` (util/ImplicitCommandHandler.h 16-26): insertion in front of the
first entry with a strictly larger timestamp. (`std::upper_bound` is a binary search; on a queue
sorted by time, which it always is, it finds exactly that position.) -/
def addImplicit (e : QEntry) : List QEntry → List QEntry
  | [] => [e]
  | x :: q => if e.t < x.t then e :: x :: q else x :: addImplicit e q

/-- The data members of the `*Core` classes (e.g. DDR4Core.h 90-94). -/
structure Core where
  ranks : Nat → Rank
  queue : List QEntry := []
  last : Nat := 0

/-- Constructor (e.g. DDR4Core.h 53-56). -/
def Core.init (ms : MemSpec) : Core := { ranks := fun _ => { nBanks := ms.numberOfBanks } }

/-- The loop of `processImplicitCommandQueue` (util/ImplicitCommandHandler.h 51-59), structural in
the queue because no implicit command queues another one. -/
def processQ (std : Std) (t : Nat) (ranks : Nat → Rank) (last : Nat) : List QEntry → Core
  | [] => { ranks := ranks, queue := [], last := last }
  | e :: q =>
    if e.t ≤ t then processQ std t (upd ranks e.rank (exec std (ranks e.rank) e.t e.imp)) e.t q
    else { ranks := ranks, queue := e :: q, last := last }

/-- `processImplicitCommandQueue(*this, timestamp, m_last_command_time)`. -/
def Core.process (std : Std) (c : Core) (t : Nat) : Core := processQ std t c.ranks c.last c.queue

/-- Queue the implicit commands of a handler in call order. -/
def enqueue (rank : Nat) (imps : List (Nat × Imp)) (q : List QEntry) : List QEntry :=
  imps.foldl (fun q i => addImplicit { t := i.1, rank := rank, imp := i.2 } q) q

/-- `doCommand`: DDR4Core.cpp 8-60, DDR5Core.cpp 6-65, LPDDR4Core.cpp 6-61, LPDDR5Core.cpp 7-74,
LPDDR6Core.cpp 9-74. The rank check is the first assertion of every helper in
util/RegisterHelper.h. -/
def Core.doCommand (std : Std) (ms : MemSpec) (c : Core) (cmd : Cmd) : Except Err Core :=
  let c := c.process std cmd.t
  let c := { c with last := max cmd.t c.last }
  if isNoEffect std cmd.type then .ok c
  else if cmd.rank < ms.numberOfRanks then
    match handle std ms (c.ranks cmd.rank) cmd with
    | .ok (r, imps) => .ok { c with ranks := upd c.ranks cmd.rank r, queue := enqueue cmd.rank imps c.queue }
    | .error e => .error e
  else .error (.assertion "ranks.size()>cmd.targetCoordinate.rank")

/-- A command trace. -/
def Core.run (std : Std) (ms : MemSpec) (c : Core) : List Cmd → Except Err Core
  | [] => .ok c
  | cmd :: cmds => match c.doCommand std ms cmd with
    | .ok c => c.run std ms cmds
    | .error e => .error e

/-! ## Statistics -/

/-- `cycles_t` (data/stats.h 88-96). -/
structure Cycles where
  act : Nat := 0
  pre : Nat := 0
  powerDownAct : Nat := 0
  powerDownPre : Nat := 0
  selfRefresh : Nat := 0
  deepSleepMode : Nat := 0
deriving DecidableEq, Repr

/-- Counter and cycle part of `CycleStats` (data/stats.h 185-190). -/
structure BankStats where
  counter : Counters := {}
  cycles : Cycles := {}
deriving DecidableEq, Repr

/-- Per-bank statistics, inner loop of `getWindowStats`: DDR4Core.cpp 304-319, DDR5Core.cpp 322-337
(no deep sleep, `selfRefresh` is the whole `sref` counter), LPDDR4Core.cpp 298-316,
LPDDR5Core.cpp 331-349, LPDDR6Core.cpp 306-324 (`selfRefresh` is `sref - deepSleepMode`). -/
def bankStats (std : Std) (r : Rank) (t j : Nat) : BankStats :=
  let b := r.banks j
  let low := r.powerDownAct.countAt t + r.powerDownPre.countAt t + r.sref.countAt t
  let dsm := r.deepSleepMode.countAt t
  { counter := b.counter
    cycles :=
      { act := b.act.countAt t
        selfRefresh := match std with
          | .ddr4 | .ddr5 => r.sref.countAt t
          | _ => usub (r.sref.countAt t) dsm
        deepSleepMode := match std with
          | .ddr4 | .ddr5 => 0
          | _ => dsm
        powerDownAct := r.powerDownAct.countAt t
        powerDownPre := r.powerDownPre.countAt t
        pre := usub t (b.act.countAt t + low) } }

/-- Per-rank statistics: DDR4Core.cpp 320-331, DDR5Core.cpp 339-351, LPDDR4Core.cpp 318-329
(`selfRefresh` whole, no deep sleep), LPDDR5Core.cpp 351-366, LPDDR6Core.cpp 326-341. -/
def rankStats (std : Std) (r : Rank) (t : Nat) : Cycles :=
  let low := r.powerDownAct.countAt t + r.powerDownPre.countAt t + r.sref.countAt t
  let dsm := r.deepSleepMode.countAt t
  { act := r.act.countAt t
    selfRefresh := match std with
      | .lpddr5 | .lpddr6 => usub (r.sref.countAt t) dsm
      | _ => r.sref.countAt t
    deepSleepMode := match std with
      | .ddr4 | .lpddr4 => 0
      | _ => dsm
    powerDownAct := r.powerDownAct.countAt t
    powerDownPre := r.powerDownPre.countAt t
    pre := usub t (r.act.countAt t + low) }

/-- Core part of `SimulationStats` (data/stats.h 243-244). -/
structure CoreStats where
  bank : List BankStats
  rankTotal : List Cycles
deriving DecidableEq, Repr

/-- The two loops of `getWindowStats`: `bank[i * numberOfBanks + j]` and `rank_total[i]`. -/
def Core.statsAt (std : Std) (ms : MemSpec) (c : Core) (t : Nat) : CoreStats :=
  { bank := (List.range ms.numberOfRanks).flatMap fun i =>
      (List.range ms.numberOfBanks).map fun j => bankStats std (c.ranks i) t j
    rankTotal := (List.range ms.numberOfRanks).map fun i => rankStats std (c.ranks i) t }

/-- `getWindowStats` (DDR4Core.cpp 294-333, DDR5Core.cpp 312-353, LPDDR4Core.cpp 288-331,
LPDDR5Core.cpp 321-368, LPDDR6Core.cpp 296-343): processes the queue (a side effect), then reads. -/
def Core.getWindowStats (std : Std) (ms : MemSpec) (c : Core) (t : Nat) : Core × CoreStats :=
  let c := c.process std t
  (c, c.statsAt std ms t)

/-- `isSerializable` (e.g. DDR4Core.cpp 66-68). -/
def Core.isSerializable (c : Core) : Bool := c.queue.isEmpty

end DRAMPower
