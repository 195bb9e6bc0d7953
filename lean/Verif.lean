import Verif.Model.Core
import Verif.Spec.Timeline
import Verif.Lemmas.Queue
import Verif.Lemmas.Locality
import Verif.Model.QueueSearch
import Verif.Lemmas.QueueSearch
import Verif.Sim.Basic
import Verif.Sim.Rel
import Verif.Sim.Exec
import Verif.Sim.ExecMode
import Verif.Sim.Process
import Verif.Sim.HandleBank
import Verif.Sim.HandleRef
import Verif.Sim.HandleMode
import Verif.Sim.Step
import Verif.Sim.Main
import Verif.Sim.Trace
import Verif.Lemmas.Handlers
import Verif.Props.C01
import Verif.Props.C02
import Verif.Props.C03
import Verif.Lemmas.Session
import Verif.Props.C05
import Verif.Props.C06
import Verif.Props.C07
import Verif.Props.C08
import Verif.Lemmas.Banks
import Verif.Props.C09
import Verif.Props.C10
import Verif.Props.C11
import Verif.Props.C12
import Verif.Props.C13
import Verif.Props.C04
import Verif.Props.C14
import Verif.Props.C15
import Verif.Model.BusStats
import Verif.Model.Bus
import Verif.Spec.Waveform
import Verif.Spec.BusHistory
import Verif.Lemmas.BusStats
import Verif.Lemmas.Bus
import Verif.Props.C17
import Verif.Props.C18
import Verif.Props.C19
import Verif.Model.Pin
import Verif.Spec.PinWave
import Verif.Lemmas.Pin
import Verif.Props.C20
import Verif.Model.Clock
import Verif.Props.C21
import Verif.Model.Toggling
import Verif.Spec.Activity
import Verif.Lemmas.Toggling
import Verif.Props.C22
import Verif.Model.DataBus
import Verif.Spec.DataShare
import Verif.Props.C42
import Verif.Model.Dbi
import Verif.Spec.Inversion
import Verif.Lemmas.Dbi
import Verif.Props.C23
import Verif.Props.C24
import Verif.Model.Pattern
import Verif.Spec.Encoding
import Verif.Lemmas.Pattern
import Verif.Lemmas.Separate
import Verif.Props.C25
import Verif.Props.C26
import Verif.Props.C27
import Verif.Props.C28
import Verif.Model.Format
import Verif.Spec.Burst
import Verif.Lemmas.Format
import Verif.Props.C29
import Verif.Model.Names
import Verif.Props.C34
import Verif.Model.Cli
import Verif.Spec.Payload
import Verif.Lemmas.Cli
import Verif.Props.C35
import Verif.Model.Stats
import Verif.Model.Energy
import Verif.Spec.Energy
import Verif.Spec.Stats
import Verif.Spec.Currents
import Verif.Lemmas.Stats
import Verif.Lemmas.Energy
import Verif.Lemmas.EnergyExample
import Verif.Lemmas.Currents
import Verif.Lemmas.Sums
import Verif.Lemmas.Total
import Verif.Props.C30
import Verif.Props.C31
import Verif.Props.C32
import Verif.Props.C33
import Verif.Props.C36
import Verif.Props.C43
import Verif.Model.Config
import Verif.Spec.Timing
import Verif.Props.C38
import Verif.Props.C44
import Verif.Model.Bitset
import Verif.Spec.Bits
import Verif.Lemmas.Bitset
import Verif.Props.C41
import Verif.Model.Extension
import Verif.Spec.Extension
import Verif.Lemmas.Extension
import Verif.Props.C40
import Verif.Model.Interface
import Verif.Lemmas.Interface
import Verif.Spec.Seamless
import Verif.Lemmas.Seamless
import Verif.Props.C39
import Verif.Spec.Admissible
import Verif.Lemmas.Admissible
import Verif.Model.Simulator
import Verif.Props.C37
import Verif.Model.InterfaceSerialize
import Verif.Spec.Restore
import Verif.Lemmas.InterfaceSerialize
import Verif.Lemmas.Restore
import Verif.Lemmas.RestoreStep
import Verif.Lemmas.RestoreKept
import Verif.Lemmas.RestoreRound
import Verif.Props.C16
import Verif.Model.InterfaceEnergy
import Verif.Model.SimulatorStats
import Verif.Spec.Signals
import Verif.Lemmas.InterfaceEnergy
import Verif.Lemmas.InterfaceSum
import Verif.Props.C45
import Verif.Props.C46
import Verif.Spec.Trace
import Verif.Lemmas.Project
import Verif.Lemmas.BusTrace
import Verif.Props.C47
import Verif.Lemmas.CommandLevel
import Verif.Lemmas.CommandTrace
import Verif.Props.C48
import Verif.Lemmas.DataLevel
import Verif.Lemmas.BusShort
import Verif.Lemmas.DataTrace
import Verif.Props.C49
import Verif.Spec.TimeBase
import Verif.Lemmas.TimeBase
import Verif.Props.C50
import Verif.Props.C51
import Verif.Spec.InversionPins
import Verif.Lemmas.InversionPins
import Verif.Lemmas.InversionTrace
import Verif.Props.C52
import Verif.Spec.Growth
import Verif.Lemmas.Growth
import Verif.Lemmas.GrowthEnergy
import Verif.Props.C53
import Verif.Model.CliRun
import Verif.Spec.TraceFile
import Verif.Lemmas.CliRun
import Verif.Props.C54
import Verif.Props.C55
import Verif.Model.SimObject
import Verif.Spec.SimSession
import Verif.Lemmas.SimObject
import Verif.Props.C56
import Verif.Spec.Told
import Verif.Props.C57
import Verif.Model.Copies
import Verif.Spec.Copies
import Verif.Lemmas.Copies
import Verif.Props.C58
import Verif.Model.CsvText
import Verif.Spec.TraceText
import Verif.Lemmas.CsvText
import Verif.Props.C59
import Verif.Model.Report
import Verif.Spec.Report
import Verif.Props.C60
import Verif.Model.Rounded
import Verif.Spec.Rounding
import Verif.Lemmas.Rounding
import Verif.Lemmas.RoundedLoop
import Verif.Lemmas.RoundedEnergy
import Verif.Lemmas.Double
import Verif.Lemmas.RoundedExample
import Verif.Props.C61
import Verif.Props.C62
import Verif.Model.Files
import Verif.Model.OutputPath
import Verif.Spec.OutputPath
import Verif.Lemmas.Files
import Verif.Lemmas.OutputPath
import Verif.Lemmas.FilesExample
import Verif.Props.C63
import Verif.Spec.Later
import Verif.Lemmas.Moved
import Verif.Lemmas.MovedStep
import Verif.Lemmas.MovedRun
import Verif.Props.C64
import Verif.Model.RoundedInterface
import Verif.Lemmas.RoundedInterface
import Verif.Props.C65
import Verif.Spec.Banks
import Verif.Lemmas.BankView
import Verif.Props.C66
import Verif.Spec.Power
import Verif.Lemmas.Power
import Verif.Props.C67
import Verif.Model.Router
import Verif.Spec.Router
import Verif.Props.C68
import Verif.Model.StaticExtension
import Verif.Spec.StaticExtension
import Verif.Props.C69
import Verif.Spec.WireEnergy
import Verif.Props.C70
import Verif.Spec.Renumber
import Verif.Lemmas.Renumber
import Verif.Lemmas.RenumberCore
import Verif.Lemmas.RenumberRun
import Verif.Props.C71
import Verif.Model.RoundedTotal
import Verif.Props.C72
import Verif.Lemmas.EndMarker
import Verif.Props.C73
import Verif.Spec.Sequence
import Verif.Lemmas.Sequence
import Verif.Props.C74
import Verif.Spec.Measurement
import Verif.Lemmas.Measurement
import Verif.Props.C75
import Verif.Model.Machine
import Verif.Spec.Machine
import Verif.Lemmas.Machine
import Verif.Lemmas.MachineRun
import Verif.Lemmas.Within
import Verif.Props.C76
import Verif.Model.RoundedToggling
import Verif.Lemmas.RoundedToggling
import Verif.Props.C77
import Verif.Spec.SequenceWires
import Verif.Lemmas.SequenceWires
import Verif.Props.C78
import Verif.Model.MachineWires
import Verif.Spec.MachineWires
import Verif.Lemmas.MachineWires
import Verif.Props.C79
import Verif.Spec.QuotedText
import Verif.Lemmas.CsvQuoted
import Verif.Props.C80
import Verif.Spec.CurrentTimes
import Verif.Props.C81
import Verif.Spec.Scaling
import Verif.Props.C82
import Verif.Spec.Leakage
import Verif.Props.C83
import Verif.Props.C84
import Verif.Model.CliFile
import Verif.Spec.TraceWriting
import Verif.Lemmas.TraceWriting
import Verif.Props.C85
import Verif.Spec.Influence
import Verif.Lemmas.Together
import Verif.Lemmas.Contents
import Verif.Lemmas.ContentsRun
import Verif.Props.C86
import Verif.Lemmas.Places
import Verif.Props.C87
import Verif.Spec.WireScaling
import Verif.Lemmas.WireTogether
import Verif.Props.C88
import Verif.Spec.Slots
import Verif.Lemmas.Slots
import Verif.Props.C89
import Verif.Spec.Inverting
import Verif.Lemmas.AdmissibleInverted
import Verif.Props.C90
import Verif.Spec.Answered
import Verif.Lemmas.Answered
import Verif.Props.C91
import Verif.Lemmas.InversionCost
import Verif.Lemmas.PinCost
import Verif.Props.C92
import Verif.Spec.Outline
import Verif.Lemmas.Outline
import Verif.Props.C93
import Verif.Props.C94
import Verif.Spec.Halves
import Verif.Props.C95
import Verif.Spec.Steady
import Verif.Lemmas.Steady
import Verif.Lemmas.SteadyCore
import Verif.Lemmas.SteadyWires
import Verif.Props.C96
import Verif.Spec.PowerDown
import Verif.Props.C97
import Verif.Spec.Accesses
import Verif.Lemmas.Accesses
import Verif.Props.C98
import Verif.Props.C99
import Verif.Spec.Needless
import Verif.Props.C100
import Verif.Tests.Run
import Verif.Tests.Resources
import Verif.Tests.CoreDDR4
import Verif.Tests.CoreDDR5
import Verif.Tests.CoreLPDDR4
import Verif.Tests.CoreLPDDR5
import Verif.Tests.CoreLPDDR6
import Verif.Tests.Interface
import Verif.Tests.Parts
import Verif.Tests.Hand
