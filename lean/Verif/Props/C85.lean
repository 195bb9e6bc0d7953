import Verif.Lemmas.TraceWriting
import Verif.Model.CliFile
import Verif.Props.C59
import Verif.Props.C60
import Verif.Props.C70

/-!
# C85: from the commands over the trace file to the energy in the output file

`Spec.traceText cs` is what a program writes that dumps the commands `cs` line by line.
-/

namespace DRAMPower
open Spec

variable {std : Std} {N : Nat} {ms : MemSpec} {sp : IfSpec} {ps : PowerSpec} {ws : WireSpec}

/-- The tool reads back the commands that were written, however many there are. -/
theorem C85_roundtrip (cs : List ICmd) (hne : cs ≠ []) (hw : ∀ c ∈ cs, Writable c) : parseTraceFile (traceText cs) = some (.ok (some cs)) :=
  C59_commands_chunks (cs.map traceRow) cs (rows_describe hw) (fun c hc => (hw c hc).numbers) _ (text_ne hne) (text_lines hw) text_plain

/-- No two sequences of commands have the same file. -/
theorem C85_injective (cs cs' : List ICmd) (hw : ∀ c ∈ cs, Writable c) (hw' : ∀ c ∈ cs', Writable c) (h : traceText cs = traceText cs') :
    cs = cs' := by
  by_cases h0 : cs = []
  · by_cases h1 : cs' = []
    · rw [h0, h1]
    · rw [h0] at h
      exact absurd h.symm (text_ne h1)
  · by_cases h1 : cs' = []
    · rw [h1] at h
      exact absurd h (text_ne h0)
    · have a := C85_roundtrip cs h0 hw
      rw [h, C85_roundtrip cs' h1 hw'] at a
      exact ((Option.some.inj (ok_inj (Option.some.inj a))).symm)

theorem cliFile_rows (sink : Sink) {cs : List ICmd} (hne : cs ≠ []) (hw : ∀ c ∈ cs, Writable c) :
    cliFile std N ms sp ps ws .given true true (traceText cs) sink =
      some (cliMain std N ms sp ps ws .given true true (cs.map traceRow) sink) := by
  unfold cliFile
  rw [if_neg (by decide), if_neg (by decide), if_neg (text_ne hne), show csvChunkSize = 10000000 from rfl,
    C59_chunks_partial _ _ _ (text_lines hw) text_plain, Option.map_some]

/-- For commands the library accepts, the tool, started with the file, ends with status 0, and the document it writes contains the total
energy the library calculates for these commands, which is the sum of the energies in the document. -/
theorem C85 (sink : Sink) (cs : List ICmd) (s0 s s1 : Simulator std N) (total : Rat) (hne : cs ≠ []) (hw : ∀ c ∈ cs, Writable c)
    (ho : InOrder cs) (hi : Simulator.init std N ms sp = .ok s0) (hr : s0.run ms sp cs = .done s)
    (ht : s.getTotalEnergy ms sp ps ws (endOf cs) = .ok (s1, total)) (hs : sink ≠ .file false) :
    ∃ r j, cliFile std N ms sp ps ws .given true true (traceText cs) sink = some (.exit 0 (some r)) ∧ Right std N ms sp ps ws cs r ∧
      (CliEnd.exit 0 (some r)).document ps = some j ∧ number j ["TotalEnergy"] = some total ∧ total = documentSum j := by
  obtain ⟨r, h1, h2, h3⟩ := C55_reports std N ms sp ps ws (cs.map traceRow) sink cs s0 s s1 total (rows_describe hw)
    (fun c hc => (hw c hc).numbers) ho hi hr ht hs
  obtain ⟨⟨j, j1, j2, j3⟩, _⟩ := C60_tool std N ms sp ps ws .given true true _ sink r h1
  refine ⟨r, j, by rw [cliFile_rows sink hne hw, h1], h3, ?_, by rw [j2, h2], by rw [← h2, j3]⟩
  show (jsonDocument ps r.core r.interface).toOption = some j
  rw [j1]
  rfl

/-- Commands the library refuses with an exception: status 1 and no document. -/
theorem C85_refused (sink : Sink) (cs : List ICmd) (s0 : Simulator std N) (m : String) (hne : cs ≠ []) (hw : ∀ c ∈ cs, Writable c)
    (hi : Simulator.init std N ms sp = .ok s0)
    (hr : s0.run ms sp cs = .refused (.exception m) ∨ ∃ core, s0.run ms sp cs = .halfway core (.exception m)) :
    cliFile std N ms sp ps ws .given true true (traceText cs) sink = some (.exit 1 none) ∧ (CliEnd.exit 1 none).document ps = none := by
  refine ⟨?_, rfl⟩
  rw [cliFile_rows sink hne hw, C55_refused std N ms sp ps ws _ sink cs s0 m (rows_describe hw) (fun c hc => (hw c hc).numbers) hi hr]

/-- Whatever is in the file: a document is written only with status 0. -/
theorem C85_document_status (e : CliEnd) (j : Json) (h : e.document ps = some j) : ∃ r, e = .exit 0 (some r) := by
  unfold CliEnd.document at h
  split at h
  · exact ⟨_, rfl⟩
  · cases h

/-- The number in the document is the energy of the trace: the power of the core over time and the energy of the waveforms. Restricted as
C67 (power-down) and C70 (`WiresFaithful`). -/
theorem C85_physical_partial (sink : Sink) (cs : List ICmd) (s0 s s1 : Simulator std N) (total : Rat) (hne : cs ≠ [])
    (hw : ∀ c ∈ cs, Writable c) (ho : InOrder cs) (hi : Simulator.init std N ms sp = .ok s0) (hr : s0.run ms sp cs = .done s)
    (ht : s.getTotalEnergy ms sp ps ws (endOf cs) = .ok (s1, total)) (hs : sink ≠ .file false)
    (hv : ValidSpec std ms) (hfit : Fits std ms ps) (hl : TameTrace std ms (cs.map ICmd.core)) (hon : sp.enabled = true)
    (hd : EnergyDefined std ws) (hN : sp.bitWidth * sp.devices ≤ N) (hb : BurstsOver std sp (cs.map .cmd) (endOf cs))
    (hsr : ws.dataRate = sp.dataRate) (hf : WiresFaithful std sp ws (cs.map .cmd)) :
    ∃ e j, cliFile std N ms sp ps ws .given true true (traceText cs) sink = some e ∧ e.document ps = some j ∧
      number j ["TotalEnergy"] = some (coreEnergy std ms ps (cs.map ICmd.core) (endOf cs) +
        (interfaceEnergy std ws (expectedStats std sp (sp.dataRate / sp.wckToCk) (cs.map .cmd) (endOf cs))).total) := by
  obtain ⟨r, j, h1, _, h3, h4, _⟩ := C85 sink cs s0 s s1 total hne hw ho hi hr ht hs
  refine ⟨_, j, h1, h3, ?_⟩
  rw [h4, C70_total_partial hi hr ht hv hfit hl ?_ hon hd hN hb hsr hf]
  intro c hc
  have key : ∀ l : List ICmd, InOrder l → ∀ c ∈ l, c.t ≤ endOf l := by
    intro l hl c hc
    unfold endOf
    cases hg : l.getLast? with
    | none => rw [List.getLast?_eq_none_iff.1 hg] at hc; cases hc
    | some x =>
      obtain ⟨ys, rfl⟩ := List.getLast?_eq_some_iff.1 hg
      rcases List.mem_append.1 hc with h | h
      · exact (List.pairwise_append.1 hl).2.2 c h x (by simp)
      · rw [List.mem_singleton.1 h]
        exact Nat.le_refl _
  exact key cs ho c hc

/-! ## The hypotheses can be met -/

/-- Activate, write, end. -/
def c85Cmds : List ICmd :=
  [{ t := 0, type := .ACT, co := { bank := 3, row := 17, column := 5 }, dbank := 11 },
   { t := 10, type := .WR, co := { bank := 3, row := 17, column := 5 }, data := some [0xde, 0xad, 0xbe, 0xef, 0, 1, 2, 0x3f], nBits := 64,
     dbank := 11 },
   { t := 40, type := .END_OF_SIMULATION, dbank := 8 }]

example : String.ofList (traceText c85Cmds) = "0,ACT,0,0,3,17,5\n10,WR,0,0,3,17,5,deadbeef0001023f\n40,END,0,0,0,0,0\n" := by decide +kernel

theorem writable_iff (c : ICmd) : Writable c ↔ c.type ∈ traceNames.map (·.2) ∧ (∀ n ∈ numbersOf c, n < 2 ^ 63) ∧
    (c.type ∈ carriesData ↔ c.data.isSome) ∧ c.nBits = 8 * (c.data.getD []).length ∧ (c.data.getD []).length ≤ 4000000 ∧
    c.dbank = (c.co.bank + 8) % 16 ∧ c.subChannel = 0 :=
  ⟨fun h => ⟨h.1, h.2, h.3, h.4, h.5, h.6, h.7⟩, fun ⟨a, b, c, d, e, f, g⟩ => ⟨a, b, c, d, e, f, g⟩⟩

instance (c : ICmd) : Decidable (Writable c) := decidable_of_iff _ (writable_iff c).symm

/-- Status and total energy of the document for a file with these commands. -/
def c85Total (std : Std) (cs : List ICmd) (sink : Sink) : Option (Nat × Option Rat) :=
  match cliFile std 64 Ex.ms c53If c53Power c53Wires .given true true (traceText cs) sink with
  | some (.exit n r) => some (n, ((CliEnd.exit n r).document c53Power).bind fun j => number j ["TotalEnergy"])
  | _ => none

example : (∀ c ∈ c85Cmds, Writable c) ∧ InOrder c85Cmds ∧ endOf c85Cmds = 40 ∧ ∀ std ∈ [Std.ddr4, .ddr5, .lpddr4, .lpddr5],
    (match c85Total std c85Cmds (.file true) with
      | some (0, some e) => decide (0 < e)
      | _ => false) = true := by
  refine ⟨?_, ?_, ?_, ?_⟩ <;> decide +kernel

/-- All standards: the trace of C53, C67 and C70 has a file; its last command is at 40 (the other hypotheses of `C85_physical_partial` are
those of `C70_total_partial`). For DDR4 the document shows 5115.5 units of energy. -/
example (std : Std) : (∀ c ∈ c53Example std, Writable c) ∧ InOrder (c53Example std) ∧ endOf (c53Example std) = 40 := by
  cases std <;> decide +kernel

example : c85Total .ddr4 (c53Example .ddr4) (.file true) = some (0, some (10231 / 2)) := by decide +kernel

/-- Refused with an exception: LPDDR5 with 8 banks, refresh of two banks. -/
example : Writable { t := 3, type := .REFP2B, dbank := 8 } ∧
    (match Simulator.init .lpddr5 64 { Ex.ms with bankArch := .m8b } c53If with
      | .ok s => match s.run { Ex.ms with bankArch := .m8b } c53If [{ t := 3, type := .REFP2B, dbank := 8 }] with
        | .refused (.exception _) => true
        | _ => false
      | _ => false) = true ∧
    (match cliFile .lpddr5 64 { Ex.ms with bankArch := .m8b } c53If c53Power c53Wires .given true true
        (traceText [{ t := 3, type := .REFP2B, dbank := 8 }]) (.file true) with
      | some (.exit 1 none) => true
      | _ => false) = true := by
  refine ⟨?_, ?_, ?_⟩ <;> decide +kernel

end DRAMPower
