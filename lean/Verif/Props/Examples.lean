import Verif.Spec.Timeline

/-!
# Example inputs shared by the property files

Used only in `example`s and counterexamples.
-/

namespace DRAMPower.Ex

/-- A small device: 2 ranks of 4 banks in 2 groups. -/
def ms : MemSpec where
  numberOfBanks := 4
  numberOfRanks := 2
  banksPerGroup := 2
  numberOfBankGroups := 2
  tRFC := 8
  tRFCsb := 4
  tRFCPB := 5
  tRFCDB := 5
  tRAS := 6
  tRCD := 3
  tRCDR := 3
  tRCDW := 4
  tRP := 3
  prechargeOffsetRD := 4
  prechargeOffsetWR := 5
  perTwoBankOffset := 2

/-- Interleaved traffic on both ranks: activations, reads, auto-precharges, refreshes,
precharge power-down and self-refresh. Legal for every standard; no active power-down. -/
def traffic : List Cmd :=
  [ { t := 0, type := .ACT, bank := 0 }, { t := 1, type := .ACT, bank := 1, rank := 1 },
    { t := 3, type := .RD, bank := 0 }, { t := 5, type := .RDA, bank := 1, rank := 1 },
    { t := 6, type := .WRA, bank := 0 }, { t := 12, type := .REFA, rank := 1 },
    { t := 13, type := .PDEP }, { t := 20, type := .PDXP },
    { t := 22, type := .ACT, bank := 3 }, { t := 22, type := .SREFEN, rank := 1 },
    { t := 30, type := .PREA }, { t := 40, type := .SREFEX, rank := 1 },
    { t := 44, type := .END_OF_SIMULATION } ]

/-- Active power-down with open banks; benign for every standard. -/
def activePd : List Cmd :=
  [ { t := 0, type := .ACT, bank := 0 }, { t := 2, type := .ACT, bank := 1 },
    { t := 3, type := .PDEA }, { t := 11, type := .PDXA }, { t := 20, type := .PRE, bank := 1 },
    { t := 21, type := .WRA, bank := 0 } ]

/-- Active power-down requested during a refresh of a bank that has been activated before: the
refresh ends exactly when the power-down begins. -/
def refreshThenPd : List Cmd :=
  [ { t := 0, type := .ACT }, { t := 10, type := .PREA }, { t := 20, type := .REFA },
    { t := 22, type := .PDEA }, { t := 40, type := .PDXA } ]

/-- An auto-precharge that falls into an active power-down. -/
def autoPreInPd : List Cmd :=
  [ { t := 0, type := .ACT, bank := 0 }, { t := 0, type := .ACT, bank := 1 },
    { t := 5, type := .RDA, bank := 0 }, { t := 6, type := .PDEA }, { t := 20, type := .PDXA } ]

end DRAMPower.Ex
