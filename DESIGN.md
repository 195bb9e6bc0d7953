# Design

Subject: tukl-msd/DRAMPower, source in `/repo` (read as text only; never built or run here).
Properties: `properties.jsonl` (C01...).  Lean project: `lean/` (`Verif.lean` imports everything).
Status per property: `MANIFEST.json`.  Mutation tests: `seeded/LOG.jsonl`.

## Modelling conventions

* Timestamps and counters (`uint64_t`) are `Nat`.  Additions are assumed not to exceed 2^64
  (2^64 cycles is > 100 years at 5 GHz); for the core this is justified by C76, where the core is modelled once more with
  64 bit arithmetic (`Model/Machine`).  Every *subtraction* the code performs on unsigned values
  is modelled by `usub`, which wraps modulo 2^64 when the second operand is larger, so an underflow
  is a visible wrong value, not a silently truncated 0.
* `assert` and `throw` are explicit outcomes (`Except Err _`).  In a build with NDEBUG the asserts
  disappear; the model describes the asserting build and the theorems about accepted traces
  therefore also describe NDEBUG builds on the same traces.
* Deferred lambdas are defunctionalised: the closure type becomes the inductive `Imp`, its body the
  function `exec`.  The captured variables are constructor arguments.
* `std::vector<Rank>`/`std::vector<Bank>` are functions `Nat -> _` together with the vector size;
  bounds are checked where the code checks them.
* `double` energy arithmetic is modelled in an ordered field (no rounding). What rounding changes in the core energy is bounded by C61, with
  the rounding of each operation modelled; overflow, denormal numbers and fused operations are not.
* Console output (warnings) is not modelled.

## Plan per property

| id | modelled | how proved |
|----|----------|-----------|
| C01-C03, C12, C14 | the five cores, `Rank`, `Bank`, `interval_counter`, implicit queue, `getWindowStats` | forward simulation between the code model and a queue-free, counter-free, cycle-by-cycle reference timeline (`Spec/Timeline`); induction over the trace and over the implicit queue; then locality (C07) lifts it to many ranks |
| C04 | same | both traces have the same reference timeline, so C01/C02 give equality |
| C05 | same plus `RegisterHelper.h` | legality implies every assertion holds (part of the simulation); out-of-range: case analysis |
| C06, C07, C08, C11 | `ImplicitCommandHandler`, generic core step | generic lemmas about sorted stable queues; `process t2 . process t1 = process t2`; projection of the shared queue to one rank; `C08_search`: the same simulator with the binary search of the library (`Model/QueueSearch`) cannot be told apart |
| C09, C13 | handlers of the five cores | induction on the trace / index arithmetic |
| C10 | `earliestPossiblePowerDownEntryTime` and the four power-down handlers | characterisation as least upper bound |
| C15 | byte streams of `serialize`/`deserialize` for interval, bank, rank, counters, core | round trip with arbitrary trailing bytes |
| C16 | byte streams of `serialize`/`deserialize` of every part of the interface and of the five interfaces (`Model/InterfaceSerialize`) | round trip of each part; simulation relation `Interface.Alike` kept by every call (`Lemmas/RestoreStep`); invariant over histories for members not written (`Kept`): `C16_ddr5` (complete), `C16_partial` (all standards, DBI never on, metadata and enabling as constructed), `C16_ddr4_partial` (DBI arbitrary); `C16_violation_*` |
| C17-C19 | `Bus`, `BusContainer`, `PendingStats` | refinement to the beat-by-beat waveform sum; for short bursts a stuck state in which only queries at the same time are accepted (`C17_accepted`) |
| C20 | `Pin`, `BitsetContainer` | refinement to waveform sum; counterexample for data rate != 1 |
| C21 | `Clock` | closed form, additivity |
| C22, C42 | `TogglingHandle`, `DataBus` | closed form over rationals; induction on switch histories |
| C23, C24 | `DBI`, `StaticDBI`, `DynamicDBI`, `SubChunkView` | round trip; weight bounds for every width |
| C25-C28 | `DefaultEncoder`, `LPDDR6Encoder`, `PatternHandler`, `handleOverrides`, pattern tables (`Model/Pattern`) | bit-level characterisation of the loop (`encodeLoop_bit`) for every pattern, setting and word; the tables enter by finite checks over commands only (never over coordinates); counterexamples |
| C29 | `formatData` and its index table (`Model/Format`) | bijection of places (finite check, 288) lifted to all payloads by a loop invariant (`Written`); composed with C18 to the wires |
| C30-C33, C36, C43 | statistics (`Model/Stats`) and energy formulas of the five core calculations (`Model/Energy`) | closed form of the rank/device/bank loops (`Lemmas/Energy.calc_closed`), then linear algebra over `Rat`; C43: `Lemmas/Total` |
| C34 | `CmdTypeUtil` | case analysis; counterexample |
| C35 | CLI hex decoder | induction on strings; counterexample |
| C37 | `doCommand` of core, interface (all five, function by function: encoding, busses, toggling, strobes, DBI, formatter) and simulator | `C37_core`/`C37_interface`: exact sets of accepted types; they agree but for two types (`C37_types_partial`, `C37_violation_types`). `C37_halfway_partial`: induction over every trace whose commands find the busses free and bring their data, DBI off; `C37_violation_halfway`: witnesses otherwise |
| C38, C44 | derived fields of the five memory specifications (`Model/Config`) | arithmetic, finite tables for the PASR modes; counterexamples |
| C39 | `handlePrePostamble` inside the interface model, all calls of the public API in between | `C39_partial`: the counters equal the gapless neighbours in the history (induction); `C39_once`; `C39_violation_first`, `C39_violation_merged` |
| C45, C46 | the five interface calculations (`Model/InterfaceEnergy`), queries of the simulator object (`Model/SimulatorStats`) | `C45_partial`: equal to a sum over a table of signals (`Spec/Signals`), group by group; `C45_rank_counters`, `C45_ambles_never`: what simulator statistics do to the DDR4 ambles; `C46_nonneg`, `C46_zero`, `C46_add_partial`, `C46_mono_partial`: linear algebra over `Rat`; `C46_total`: idempotence of the implicit-command queue; counterexamples |
| C47 | the interface model end to end: from the list of calls to `getWindowStats` | `Lemmas/Project.run_clocks`: projection of every accepted run to the calls each clock receives; then C21; `C47_edges`: edges = beats; counterexamples |
| C48 | encoder, overrides, command bus and interface end to end | `Spec.caLine`: waveform read off the calls; `Lemmas/CommandLevel`: the level of each descriptor depends on the command alone (`forced_get`, `sent_bit`); `Lemmas/CommandTrace.run_command`: simulation of every accepted run by bursts on the bus; `Lemmas/BusTrace.accepted_stats`; counterexample for row bit 18 |
| C49 | inversion, LPDDR6 formatter, data bus, toggling-rate model and interface end to end | `Spec.dataLine`: waveform read off the calls; `Lemmas/DataLevel`: bits after inversion and formatting; `Lemmas/DataTrace.run_data`, `run_toggle`: simulation of every accepted run by bursts; `query_late`: an accepted query is not before a transfer; `Lemmas/BusShort.sent_stats`: bursts of any length; counterexample for LPDDR6 inversion |
| C50 | the interface end to end and the durations of the interface calculation | `Spec/TimeBase`: wires and charged time per group of signals; `Lemmas/TimeBase`: counted levels of any accepted run (invariants `PinFull`, `line_full`, `run_sends`, `run_bursts`); the two exclusions are exact (`C50_dataClock_exact`, `C50_inversion_exact`) and refuted; `C50_dataClock_bursts_partial`: a data clock that runs during transfers only |
| C51 | strobes of the interface end to end and the burst energy of the core | `C50_strobe_partial` and the formulas of the core; `C51_ratio` gives the quotient of the two durations for every specification; counterexample for two data clocks per clock |
| C52 | the interface end to end, restricted to the inversion pins | `Spec/InversionPins`: waveform of a pin read off the calls; `Lemmas/InversionPins`, `Lemmas/InversionTrace`: invariant `PinTrack` (history of every pin = flags of the transfers, plus at most one idle level at the end), refinement to `C20_partial` and `C23`; partial: transfers after a gap and data rates other than 2, both refuted |
| C53 | the whole simulator: commands, queries, core and interface energy | `Lemmas/Growth`: every figure of bus, data bus, pins, clocks and strobes is monotone in the query time; `Lemmas/GrowthEnergy`: energies are monotone in the figures; with `C12`, `C31`, `C46` this gives the total. Interface half and non-negativity for every executed trace; core half for tame traces (all legal DDR4 traces, all legal traces without active power-down), otherwise refuted (`C53_violation`) |
| C54 | `parse_command_list`, `data_type` and `get` of the CSV library (`Model/CliRun`); a row is the list of its fields (splitting: C59) | induction over the characters of a field with one lemma per phase (before, inside, after the digits, with sign): exact set of accepted fields; then over the rows. Against `Spec/TraceFile` (numerals, names, payloads) |
| C55 | `main`, `getMemory`, `runCommands`, `makeResult` and the two writers | exit 0 exactly with the answer of the library at the time of the last row (the two reads of the last command time agree, the second query repeats the first), labels by C36; refuted where an exception or assertion ends the process |
| C56 | the simulator object: extension manager with the extensions of each standard, core, interface; `serialize`/`deserialize` of the whole (`Model/SimObject`) | composition of the round trips of C15, C16 and C40 by a shape invariant of the extension manager (`Lemmas/SimObject`) and the relation `SimObject.Alike` kept by every call: `C56_exact` says for every history what the restored simulator is; `C56_ddr5` complete, `C56_partial` (all standards), `C56_ddr4_x4`, `C56_ddr4_partial`; `C56_violation_*` |
| C57 | the calls of C56; the reports and the waveform are read off the list of calls (`Spec/Told`) | the setting of the interface equals the reported one at every call (induction over sessions), then C49 (data bus) and C52 (pins): `C57_partial`, `C57_pins_partial`; with C56 for restored sessions (`C57_restored_partial`); `C57_violation` (LPDDR6 inversion, from C49), `C57_violation_restored` |
| C58 | several simulators in memory, with the extension objects a copy shares and the simulators captured by callbacks, copy and move assignment (`Model/Copies`); moved-from objects are not used | invariant over programs: every simulator equals a new one after its history (`Spec/Copies`); `C58_separate_partial` (no copies), `C58_copies_partial` (no inversion, no metadata), `C58_ddr5` (complete); `C58_violation_*` |
| C59 | the parser of the CSV library character by character, chunk by chunk (`Model/CsvText`); its threads are not modelled | the parser reaches the end of every field, row and line with the written value (`Lemmas/CsvText`), induction over the lines and the chunks; against `Spec/TraceText`; `C59_partial` (one chunk), `C59_chunks_partial` (any size), `C59_mark`, `C59_commands` with C54; `C59_violation_*` |
| C60 | the document `jsonFileResult` builds and the values `stdoutResult` prints, under their names (`Model/Report`); the text of numbers is not modelled | the loops that write the labels and those of C36 run in parallel (`labelEntries_eq`); names read back by `Spec/Report`; sums from C32; `C60_document` (JSON), `C60_printout` (all but LPDDR6), `C60_printout_partial`, `C60_tool` (through `main`), `C60_violation` |
| C61 | the core energy with every operation in the order of the code and any arithmetic (`Model/Rounded`; the exact one gives `Model/Energy`, `C61_exact`); `double` is rounding to nearest even with 53 bits and unbounded exponent | error calculus: a number after `k` roundings of things of size `m` (`Near`), a relative version for divisors (`RelErr`), sums (`near_foldl`); one lemma per current and energy (`Lemmas/RoundedEnergy`), closed form of the loops for every arithmetic (`Lemmas/RoundedLoop`); `C61_double` (the rounding is the nearest one), `C61_outcome`, `C61_bank`, `C61_shared`, `C61_total`. Not covered: overflow and denormal numbers |
| C62 | as C61 | `C62_partial`: order-keeping rounding keeps sign and order of products; all shared parts and the parts computed from the currents directly; `C62_violation` for the background of active banks |
| C63 | a file system as a map from places to directories, files, links and special files, with path resolution as in Linux (at most 40 links), `std::filesystem` status functions including their exceptions, `std::ofstream` (`Model/Files`; not code of the repository); `resolve_symlink`, `createFileInParentDirectory`, `EnsureFileExists_t` (`Model/OutputPath`) | `Lemmas/Files`: following is monotone in the number of links allowed, a link leads where its target leads, one component more than a non-directory leads nowhere, a created file is found. `C63_partial` for paths that are no link, links in the current directory and links with an absolute target; `C63_violation` with four file systems for the rest. That `check` makes CLI11 drop the path the validator assigns is an assumption |
| C64 | the core as in C01 (`Model/Core`, `Model/Interval`) | simulation relation between the two runs: every interval, bank, rank and queue entry is the original one with its times `d` later (`RankMoved`, `CoreMoved`; `Lemmas/Moved*`), preserved by every handler, every implicit command and the queue; induction over the trace with the invariant that a bank that was activated has a start time. The two conditions are needed: `C64_needsActivation`, `C64_needsNotAtZero` are traces without them that depend on the absolute time |
| C65 | the five interface calculations with every operation in the order of the code and an arbitrary arithmetic (`Model/RoundedInterface`) | the calculation is run with two arithmetics and two statistics; a relation of numbers respected by all operations relates the results (`Respects`, `calculate_respects`). Rounded and exact numbers: relative error of `k` roundings, at most 19 for the total. Rounded and rounded: order. `C65_exact` ties the model to that of C45 |
| C66 | the cores (`Model/Core`) | simulation: what a bank sees (its state, the low-power intervals of the rank and the queue entries relevant for it) after a command depends only on what it saw before, and a command that does not concern it changes nothing (`handle_view_eq`, `handle_view_ne`, `exec_view_eq`, `rprocess_filter`, `rrun_bank`). The restriction is needed: the entry into power-down is deferred until all banks allow it (`C66_power_down`) |
| C67 | the whole simulator: commands, query, core energy | `Spec/Power` adds up currents of the reference timeline cycle by cycle, charges command by command. `Lemmas/Power`: the energies of all banks a command addresses add up to its charge (`share_sum`), the cycle counts to the sum over the cycles (`background_sum`); with `C01`, `C02`, `C09` and the closed form of the energy calculation. For tame traces (all legal DDR4 traces, all legal traces without active power-down), otherwise refuted (`C67_violation`). `C67_waiting_partial`: what a longer window adds |
| C68 | `Router` (every function) | registrations as a list, handlers as state changes, an empty `std::function` as an exception. Invariant over the registrations (`routes_inv`), by induction from the back; `C68_count` for the type outside the enumeration |
| C69 | `StaticExtensionManager::callHook`, `withExtension` | extensions as a list of supported hooks and state, functions as changes of extension and world. The expected calls are given by membership and order (`Spec.Calls`; `Calls.unique`), the result is that of these calls one after the other (`C69`); `C69_recorded`, `C69_others`, `C69_visit` |
| C70 | the whole interface: commands, inversion, query, energy | `Spec/WireEnergy` reads the figures of all groups of wires off the calls; `C21`, `C47`, `C48`, `C49`, `C52` give the figures, `C45` the energy. `C70_partial` for the restrictions `WiresFaithful`, with the rate the code gives the data clock; `C70_claim_partial` if that rate is right; `C70_simulator_partial`, `C70_total_partial` (with `C67`) for the simulator object. Refuted for every standard (`C70_violation_*`) |
| C71 | whole core with implicit commands, window statistics, core energy calculation | `Spec/Renumber` says which renumberings keep the structure of the standard. The states of the renumbered run are related to those of the original one by a simulation (`LocalRen`): loops over banks run in another order, but the steps on different banks commute (`Lemmas/RenumberCore`), and due implicit commands of the same time may be queued in another order; `C71_accepted`, `C71`, `C71_energy`, `C71_tame`; `C71_needsSymmetry` shows that the condition is needed |
| C72 | the energy queries of the simulator object with an arbitrary arithmetic (`Model/RoundedTotal`) | `C61_total` for the core, `C65_close` for the interface, one more rounding for their sum (`C72`); same outcome (`C72_outcome`); without rounding it is the model of the other properties (`C72_exact`); `C72_physical_partial` with `C67_partial` and `C70_total_partial` |
| C73 | core, interface and simulator object; the answers of new objects to a trace and a query as functions (`fresh`, `wiresAnswer`, `energyAnswer`) | `Lemmas/EndMarker`: nothing but `getLastCommandTime` reads the time of the last command (bisimulation); core: the marker executes what is due (`C73_core`); wires: as long as nothing has been inverted the marker does nothing else (`C73_partial`), `C73_energy` for the simulator; at the end of traces with inversion both answers are those of C52 (`C73_end_partial`); refuted between inverted transfers (`C73_violation`, `C73_violation_refused`) |
| C74 | core and simulator object; `Spec/Sequence` says when a trace may follow another and what the sum and the multiple of a report are | the reference timeline of the second trace after the first is that of the second alone, delayed (`StateAfter`, bisimulation by induction over the trace), so times, counts and charges add (`Lemmas/Sequence`); the reports are those of the timeline (C01, C02, C09, C67); repetition by induction; refuted for active power-down (`C74_violation`) |
| C75 | simulator object from construction to the energy calculation; `Spec/Measurement` has the loops, their periods and currents, and when a rank stands in a state | loops: charge of one period from the reference timeline (`loop_facts`), repetition and lead-in by C74, reported energy by C67 (`C75_loop_partial`); states: the timeline is constant once a rank stands (`Standing.current`, `C75_standing_partial`); bursts: reads and writes leave it so (`C75_burst_partial`); refuted after the power-down situations of item 1 (`C75_violation`) |
| C76 | `Model/Machine`: the core once more, function by function, with `UInt64` for times and counters; `Spec/Machine` says which traces fit | refinement: each state of the 64 bit core is the image modulo 2^64 of the ideal one and all times are in range (`RankW`, `CoreW`), kept by each handler, deferred command and query (`Lemmas/Machine`, `Lemmas/MachineRun`); comparisons agree because no time wraps; figures stay below the time by an invariant for all ordered traces (`Lemmas/Within`); counters by C09; sums by C03; `C76_needsRange`: false without the condition |
| C77 | `Model/RoundedToggling`: `get_stats` with an arbitrary arithmetic and the truncation to `uint64_t` (undefined out of range); reference `Spec.Activity` as for C22 | `Lemmas/RoundedToggling`: error of each product, then of its truncation; `toggling_answer` reduces every history to its numbers of transferring and idle beats (C22); `C77_exact`: without rounding it is C22; `C77_notTruncated`: the truncated exact products of C22 are not always met |
| C78 | simulator object from construction to the energy calculation; `Spec/SequenceWires` says when the wires are idle | the waveforms of the joint trace are those of the parts one after the other (`line_join`, `halfCycles_join`, `strobe_moved`, `figures_join`), energies are linear in the figures (`energy_join`), and the code reports the energy of the waveforms (C70); the core by C74; repetition by induction; refuted for toggling rates, whose figures are truncated in each report (`C78_violation`), and for gapless reads of DDR4 (`C78_violation_ambles`) |
| C79 | `Model/MachineWires.lean`: bus, clock, pin and toggling rates over `UInt64`, modulo 2^64, with the overflow assertions of the code. | `C79_bus_partial`, `C79_clock_partial`, `C79_toggle_partial`, `C79_pin_partial`: if the times in beats (and the ends of the transfers) are below 2^64, the program accepts and refuses the same calls as the component over the natural numbers, for the same reason, and the figures agree modulo 2^64 (`C79_exact_partial`: exact where they fit). Proof: the map `wrap` of the states commutes with every function. `C79_load_refused`, `C79_toggle_refused`: transfers (and queries with toggling rates) at later times are refused; `C79_toggle`: so whatever the toggling-rate model reports is exact. `C79_violation`: queries of buses and clocks are not checked. Missing in the partial theorems: times at or beyond 2^64 beats, where the claim is false. |
| C80 | The parser model of C59 (`Model/CsvText.lean`). `Spec/QuotedText.lean`: doubling, quoting, texts of rows and files, independent of the parser. | `C80_partial`: every file in which quoted values have no blanks outside their quotation marks is read as its rows; `C80_roundtrip`: any rows come back if every value is written in quotation marks; `C80_commands_partial`: up to the commands; `C80_chunks_partial`, `C80_commands_chunks_partial`: the same for files of any size (Unix line ends, rows not longer than a chunk), wherever the chunks end. Proof: between the quotation marks the parser is described by an invariant (`Inside`) that holds for every prefix of the value; induction over the value (runs without quotation marks, doubled quotation marks), over the row and over the lines. `C80_violation*`: four witnesses. Missing in the partial theorems: blanks outside the quotation marks, values in which nothing but quotation marks follows a blank, an empty last value in quotation marks without a line end; Windows line ends in several chunks. |
| C81 | The energy formulas (`Model/Energy.lean`) and the constructors (`Model/Config.lean`). `Spec/CurrentTimes.lean`: for each current the components and the number of clock cycles, from the data sheet's meaning, without the formulas. | `C81` (`C81_gain`): with one current raised the constructor accepts the configuration, the command level stays the same and every entry of the result grows by exactly the sum over the domains of V·x·time. Proof: each formula is affine in each current, with the coefficient computed by case analysis over standards and components; then sums over domains (`calc_closed`). Not among the currents: the background currents IDD2N, IDD3N (they enter most components as an offset). |
| C82 | The energy formulas (`Model/Energy.lean`) and the constructors (`Model/Config.lean`). `Spec/Scaling.lean`: the changes of configuration and the relations between results. | `C82_voltages`, `C82_currents`, `C82_clock`, `C82_devices`, `C82_domains`, `C82_defaults`: the changed configuration is accepted, the command level is the same (`core`), the results are in the stated relation. Proof: each formula is homogeneous (case analysis, `ring`; divisors from the acceptance of the original), lifted to results by the closed forms of C30 and C32. |
| C83 | Constructors, simulator and energy formulas together (`Model/Config.lean`, `Model/SimulatorStats.lean`, `Model/Energy.lean`). `Spec/Leakage.lean`: the changed data sheet. | `C83_statistics`: all statistics, commands cost the same, the total grows by V·x·(reported rank times). `C83_ddr4`, `C83_noActivePowerDown`, `C83_partial`: of a simulation, V·x·window·devices·ranks. Proof: every effective current of the formulas is affine in the data sheet with coefficients that sum to 1; then C02 (the rank times partition the window). `C83_violation`: witness for DDR5, LPDDR4, LPDDR5, LPDDR6. Missing in the partial theorem: the active power-down situations of C01-C03. |
| C84 | The cores of the five standards (`Model/Core.lean`). | `C84_noActivePowerDown`: every trace of common commands legal for one of the two and without active power-down is legal for the other and has the same statistics. `C84_partial`: with active power-down outside the situations of `benignCmd`. Proof: C01, C02 and C09 pin every reported number by a specification that depends on the standard only in the delay from activation to access. `C84_violation`: DDR4 and any of the others, a power-down during a refresh. Missing in the partial theorem: the active power-down situations of C01-C03. |
| C85 | `cliFile` (`Model/CliFile.lean`) puts the reader of CSV files (C59) in front of `main` (C55) and the document (C60) behind it. `Spec/TraceWriting.lean`: the writer, with the standard library's decimal representation. | `C85_roundtrip`, `C85_injective`, `C85`, `C85_refused`, `C85_document_status`; `C85_physical_partial`: the number in the document is the power of the core over time plus the energy of the waveforms, restricted as C67 and C70. Proof: written lines describe their commands and fit in a chunk (`Lemmas/TraceWriting.lean`, induction over numbers, bytes and commands), then C59, C54, C55, C60, C70. Not part of the claim, because the tool fails: empty traces (`C59_violation_empty`), commands refused with an assertion (`C55_violation_assertion`). |
| C86 | Sessions on the whole simulator (`Model/SimObject.lean`); `Spec/Influence.lean` says which calls correspond and which figures are left out. | `C86_figures` (all standards, inversion or not): as long as both sessions go on, corresponding replies agree but for the data and inversion wires; `C86_energy`: so does the core energy. `C86_accepted_partial`: same end, for DDR5, LPDDR6, toggling rates or inversion never switched on; then the inversion wires agree as well. `C86_toggling`: identical replies. `C86_ddr5_lpddr6`: the full claim for these standards. Proof: a relation between the two simulators that every call preserves, and under which calls fail alike. `C86_violation`: DDR4 with inversion; `C86_violation_long`: LPDDR4 and LPDDR5 with inversion and bursts of 32 beats. |
| C87 | Sessions on the whole simulator as for C86. | `C87` (any starting state): same replies but for the command bus, same end; `C87_energy`: same core energy. Proof: a relation between the two simulators that every call preserves; the encoders fail depending on the table, the settings and the second bank only, and a bus never fails because of the words it carries. |
| C88 | `Spec/WireScaling.lean` says how a specification is changed. | `C88_scaling` (one equation for all factors at once, including whether the calculation is defined; `C88_simulator`: of a simulator), `C88_reads`, `C88_writes`, `C88_unterminated` (not DDR5 with toggling rates, see C45), `C88_termination_partial` (full statement `C88_statement`; not DDR4 with edges of ambles), `C88_ddr4` (DDR4 simulators without gapless transfers). Proof: the two calculations side by side, group of wires by group (`energy_together`). `C88_violation`, `C88_violation_single`: DDR4 ambles. |
| C89 | `Spec/Slots.lean` computes from a command the beats it occupies on the command bus and on the data bus. | `C89_slots` (sessions of interface calls), `C89_simulator`, `C89_sent`, `C89_order_partial` (not LPDDR4), `C89_lpddr4_partial` (no power-down commands), `C89_tool_partial` (the command line tool: for C55 the order need not be assumed). Proof: the beat at which a bus is free again never decreases and bounds all slots so far (`step_ca`, `step_slot`). Full statements `C89_statement_order`, `C89_statement_wires`; `C89_violation_order` (LPDDR4), `C89_violation_wires` (all standards: a read and a write at the same time). |
| C90 | `Spec/Inverting.lean` says from the commands alone which traces the inversion can follow: bursts shorter than the room of an inversion line, payloads of a direction that never get longer, no data after the end. | `C90_session_partial` (whole simulator, extensions), `C90_halfway_partial`, `C90_ddr5` (full claim). Proof: invariant on the recorded bursts and on the levels waiting in every pin (`Primed`), kept by data commands, the end of the simulation and switching. Full statement `C90_statement`; `C90_violation` (bursts of 8 beats of DDR4, of 32 beats of LPDDR4 and LPDDR5), `C90_violation_longer`, `C90_violation_end`. |
| C91 | `Spec/Answered.lean` reads the calls only: their times, whether inversion is switched on, whether writes fill a beat. | `C91_partial` (all sessions with at most two beats per cycle on the inversion lines and no write shorter than a beat to a memory with a running data clock), `C91_ddr5` (full claim), `C91_uninverted`, `C91_getStats_partial` (`getStats` after a trace in time order), `C91_energy_partial` (core, interface and total energy), `C91_tool_partial` (the command line tool reports on every accepted trace). Proof: an invariant on every bus, burst in flight, toggling-rate model and pin says that nothing it remembers began after the latest call; the query then passes every comparison. Full statement `C91_statement`; `C91_violation_rate`, `C91_violation_short`. |
| C92 | inversion, data bus, inversion pins, interface (as in C49, C52). The claim only reads the reported figures of two sessions with equal lists of commands. | `C92_partial` (all standards but LPDDR6; no transfer is going on at the time of the query, and payloads fill whole beats), `C92_ddr5` (full claim), `C92_energy_partial` (in `Props/C93`: the static interface energy of either side). Proof (`Lemmas/InversionCost`): the figures of the data wires are sums over wires and beats (C49); an inversion line reports at most the costly levels that were put on it (`Lemmas/PinCost`: counted plus stored levels never grow by more than the level that is set); the cost of a waveform is at most the sum of the costs of its bursts, and exactly that without inversion, since bursts lie one after another (`C89_slots`) and are over; byte by byte the inverted payload and its flag cost at most what the payload costs. Full statement `C92_statement`; `C92_violation` (during a transfer), `C92_violation_beats` (a payload that does not fill its last beat), `C92_violation_lpddr6`. |
| C93 | whole simulator object (as in C56). `Spec/Outline` says what of a call is left without payload, inversion and metadata. | `C93` (full claim, all standards). Proof: a relation between two interfaces (`Lemmas/Outline.Elsewhere`: all parts but data wires, inversion and metadata agree), kept by corresponding calls and by calls only one session makes; induction over both sessions at once. With C92: `C92_energy_partial`, inversion never raises the static interface energy of either side between transfers if the inversion lines are wired like the data wires. |
| C94 | inversion, data bus, inversion pins, interface (as in C49, C92); C24 is about a single burst and the inversion alone, this claim about the reported figures. | `C94_partial` (DDR4, LPDDR4, LPDDR5: the full claim, also during a transfer and with payloads that do not fill their last beat). Proof: a byte and its flag cost at most four levels; the data wires report at most the levels of the payloads (`Lemmas/InversionCost`), the inversion lines at most the flags that were put on them (`Lemmas/PinCost`); induction over the session. `C94_violation_lpddr6` (item 14). |
| C95 | whole simulator object (as in C56). `Spec/Halves` splits a session and an answer. | `C95` (full claim, all standards), `C95_total` (total energy), `C95_order` (any order of the calls). Proof: a relation between three simulators (`Halves`), kept by each call in both directions; the interface answers a query without regard to what the core has entered (`answer_split`), and a new interface answers every query (C91). |
| C96 | whole simulator (as in C53). `Spec/Steady`: statistics that grow by the same amounts, one cycle of waiting. | `C96_partial` (every accepted tame trace and every data clock with an even number of levels per cycle or that stops between transfers), `C96_ddr4` (full claim), `C96_noActivePowerDown` (legal traces without active power-down), `C96_energy_partial` (core, interface and total energy); `C96_pairs_partial`, `C96_energy_pairs_partial` (every data clock: each two cycles add the same). Proof: after the last event every bank, rank and wire has a function of time that is linear (`Lemmas/Steady`, `Lemmas/SteadyCore`, `Lemmas/SteadyWires`); the energies are additive (C30, C46), the strobe pre- and postambles of DDR4 do not depend on the window. `C96_violation_states`: not DDR4, after the trace of `C03_violation` a bank is active and powered down in every further cycle. `C96_violation_dataClock`: LPDDR5 and LPDDR6 with an odd number of levels per cycle (item 74). |
| C97 | core (as in C01, C02, C09) and, for the energies, the whole simulator (as in C67). `Spec/PowerDown`: the two traces, the time asleep, what moves. | `C97_partial` (every accepted tame trace), `C97_ddr4` (full claim on the statistics), `C97_noActivePowerDown` (all standards, legal traces without active power-down), `C97_energy_partial` (the exact saving), `C97_saves_partial`. Proof: nothing is legal between the request of the exit and the exit (`legal_awake`), hence the next command finds the rank in the state without the power-down (`nap_over`) and the remaining trace is tame; the timelines agree outside of the power-down, inside of which all banks are precharged (`rank_nap`); the cycles are counted by induction on the query time (`count_nap`); then C01, C02, C09 for both traces. `C97_violation` (not DDR4): after an active power-down that leaves a bank counted as active, the 30 cycles of a precharge power-down are taken from 10 precharged cycles. |
| C98 | core (all handlers, queue of implicit commands) and, for the energies, the whole simulator (as in C67). `Spec/Accesses`: a trace with marks, the commands left out and their number. | `C98` (all accepted traces, legal or not), `C98_adding` (the converse for acceptance), `C98_energy`. Proof: adding reads and writes to the counters of a rank commutes with every handler and every implicit command (`handle_more`, `exec_more`); a command left out only works off the queue, which later calls do anyway (`run_more`, with `SameAt` of C06); the energy of reads and writes is linear in their number. |
| C99 | whole simulator (as in C67); the pair of traces as in C04. | `C99_partial`: C04 for the statistics; plain and auto-precharging accesses are charged alike (`bankTotal_split`). `C99_violation` (all standards): after an active power-down the auto-precharge waits tRAS from the end of the power-down (as in C04), which costs 16 more cycles of active standby. |
| C100 | core (all handlers, queue of implicit commands) and, for the energies, the whole simulator (as in C67). `Spec/Needless`: which banks rest after a trace, which precharges are needless. | `C100` (all accepted traces, legal or not), `C100_energy`. Proof: a bank that rests is precharged in the core, whatever is still in the queue (`Rests`, by induction over commands and implicit commands); a precharge of such banks changes nothing (`handle_needless`); a command left out only works off the queue, which later calls do anyway (`run_needless`, as in C98). |
| C40 | `ExtensionManager`, `ExtensionManagerWithHooks`, the two extensions (`Model/Extension`) | invariant on operation lists, refinement to the extension registered last |
| C41 | `dynamic_bitset`, `sub_bitset` (`Model/Bitset`) | refinement of every expression of operations to a list of bits; counterexamples for padding bits |

## Trusted base

Lean 4 kernel; axioms `propext`, `Classical.choice`, `Quot.sound` only (checked by `vcheck`).
The correspondence between `/repo` and the model is by reading: every definition cites the lines it
models.  It is also tested: the unit tests of the repository are run on the model (`lean/Verif/Tests`). `conformance/gen.py`
(with the small evaluator for the text of the tests in `conformance/cpp.py`) and `conformance/misc.py` read the test files and the
JSON resources, never the library, and write the calls each test makes and the values it expects as `#guard` checks; the rest is
translated by hand in `Tests/Hand.lean`. 272 of the 289 tests of `tests_drampower` and the tests of bus, pin, clock, interval,
pattern, burst storage and dynamic bit set of `tests_misc` are covered (about 12 400 comparisons); all of them hold. Energies are
compared exactly, so rounding within the tests' own tolerance is not tested. Not translated: serialization and extension-manager
tests, and tests without an expectation. These are tests, no theorem depends on them.  Not modelled: the third-party libraries (the JSON and command line libraries, `std::filesystem`, `fmt`-like printing) beyond what the
rows above say of them, iostream failure states, memory allocation failure, rounding outside the energies and rates (C61, C62, C65, C72, C77), other programs
changing the file system (C63).
Byte streams: an 8-byte `uint64_t`/`size_t`, 4-byte enum, 1-byte bool little-endian layout and an arbitrary content of the
padding and of the dead value inside `std::optional` are assumed (x86-64/AArch64 ABI).

## Disagreements between code and properties

Each item names the Lean theorem that exhibits it (a concrete trace, evaluated by the kernel).

1. **Active power-down exit (DDR5, LPDDR4, LPDDR5, LPDDR6), C01/C02/C03/C05/C12.** On PDXA these cores restart the
   activity counters from the bank states they find.  A refresh that completes during the power-down, or banks that were
   not open at power-down entry, are then counted wrongly: `C01_violation`, `C01_violation'`, `C02_violation`, `C03_violation`
   (the figures no longer add up to t), `C83_violation` (an additional current is charged for longer than the window), `C84_violation` (DDR4 and the others differ), `C12_violation`, `C09_pre_violation`
   (a precharge is lost) and `C05_accept_violation` (a legal trace trips an assertion).
   DDR4 is not affected: `C01_ddr4` etc. hold for every legal trace.
2. **Auto-precharge after active power-down, C04.** `handleReadAuto`/`handleWriteAuto` compute the precharge time from the
   start of the current activity interval; after an active power-down that is the power-down exit, not the ACT.
   `C04_violation` (all standards).
3. **REFP2B partner bank, C05/C13.** The partner bank `bank + perTwoBankOffset` is not range checked
   (`C05_refp2b_violation`: read past the end of the bank vector).
4. **getStats after a query, C06.** A query executes the pending implicit commands and so moves the last command time, which is
   the window end of `getStats` (`C06_getStats_violation`).  `getWindowStats` is unaffected (`C06_answers`).
5. **REFDB naming one bank twice, C09.** It is counted twice for that bank (`C09_sameBankTwice`).
6. **Saving with pending implicit commands, C15.** `serialize` does not check `isSerializable`; the pending commands are
   dropped silently (`C15_pending_violation`).
7. **Short bursts, C17.** A load of fewer bits than the bus is wide leaves an empty burst; the next query or load asks for the
   levels one beat before it and trips the assertion of `Bus::at` (`C17_short_violation`).
8. **Word order, C18.** `BusContainer::get_burst` counts from the end: a payload is transmitted last word first
   (`C18_violation`, `C18_stats_violation`).  The repository's own bus tests pin this order, so it may be intended.
9. **Re-enabling a bus, C19.** `disable` clears the burst storage including its load time, so after `enable` at beat e the
   e beats since 0 are counted again as idle (`C19_exact` gives the exact figure, `C19_violation` a witness).  A bus
   disabled at clock 0 still reports one idle beat (`C19_disable0_violation`); a burst in the beat of `enable` trips an assertion
   (`C19_load_at_enable`).
10. **Pin times, C20.** `Pin::set` multiplies its time by the data rate twice when it accounts for the past; a call with a data
   rate other than 1 misplaces the beats (`C20_violation`).  All interfaces call it with the default data rate 1.
11. **Odd data rates, C21.** `Clock` halves the number of half-cycles of each running period; a period with an odd number loses a
   low half-cycle and its rising edge, so splitting a period changes the figures (`C21_violation`, exact loss in `C21_any_rate`).
12. **Mode switch during a transfer, C42.** The rest of a transfer that is in flight when the mode changes is counted by neither
   model (`C42_violation`); switching back to bus mode also brings the idle excess of item 9 (`busExcess` in `C42_stats_partial`).
13. **DBI flags vector, C23.** `updateDBI` resizes the vector of inversion flags only when its *capacity* is too small; the
   capacity of a `std::vector<bool>` is a multiple of 64, so a burst with more chunks than the earlier ones of its direction
   (but at most the capacity) writes flags beyond `size()`: undefined behaviour (`C23_violation`).  In practice the word is
   allocated, so release builds are likely to work; a checked library aborts.
14. **DBI with two bytes per chunk (LPDDR6), C24.** `SubChunkView::last` is true on the *first* word of a chunk.  The decision for
   a chunk counts the second byte of the previous chunk (as transmitted) and its own first byte (`C24_static_violation`).  The round trip
   (C23) is not affected.
15. **Transition DBI, C24.** Not instantiated by any interface.  The threshold is free (`C24_threshold_violation`), and a burst of
   a single beat is not remembered as predecessor of a seamless burst (`C24_short_violation`).
16. **Overridden column bits, C25.** After a data transfer the low column bits are fixed by the burst length (`handleOverrides`), so
   reads of two columns of one burst window are the same word (`C25_violation_override`).  This is how the standards address a
   burst, but it contradicts the claim as stated.  Not of this kind: LPDDR4 ACT names row bit 18, which the encoder does not
   know (`C25_violation_row`); LPDDR6 drops column bit 0 of bursts of 48 for reads as well as for writes although the comment on
   the descriptor only says so for writes (`C25_violation_lpddr6`).
17. **Equal words, C26.** `C26_violation`: DDR4 REFA = SREFEN and PDEA = PDXA (on the device the CKE pin tells them apart, it is not
   modelled by the code), DDR5 and LPDDR6 NOP = PDXA, LPDDR5 REFB = REFP2B and SREFEX = DSMEX = PDXA.  `Spec.shared` is the complete
   list (`C26_partial` proves all other pairs different).
18. **Ignored overrides, C27.** Overrides of bank, bank group, row and most column descriptors are stored and never consulted
   (`C27_override_violation`).
19. **LPDDR6 parity, C28.** The encoder looks for the parity descriptor at index 2; in every registered pattern it is at index 3.
   Enabling the parity check therefore has no effect (`C28_never`, `C28_violation`).
20. **Undefined shift, C29.** For a transfer of two bursts `formatData` shifts the 32-bit DBI word by up to 47 places
   (`C29_violation_shift`).  The value is masked out afterwards (`C29_partial` holds for every value of it), but the shift itself
   is undefined behaviour.
21. **Printed name not read back, C34.** `END_OF_SIMULATION` is printed as `END_OF_SIMULATION` but read only as `END`; its
    printed name is read as `NOP` (`C34_violation`).
22. **Malformed payloads accepted, C35.** The decoder uses `std::stoi` for each pair of characters: `1g` is read as byte 1,
    `-1` as byte 255, `0x0x` as byte 0 (`C35_violation`).  `C35_partial` gives the exact set of accepted strings.
23. **Totals, C32.** `energy_info_t::total` leaves out `E_pre_RDA`/`E_pre_WRA`; they are contained in `E_pre`, whose counter includes
    the automatic precharges, so the sum over all printed components is larger than the total.  `aggregated_bank_energy().total()`
    lacks the power-down, self-refresh and deep-sleep energies (`C32_violation`, `C32_aggregated_total`).
24. **Construction, C38.** An LPDDR5 specification with zero bank groups is recognised as valid ("16 banks without groups"), but the number
    of banks has been divided by zero before; a data rate of zero is divided by as well (`C38_violation`).  The LPDDR4 precharge offsets
    assume two beats per cycle and treat every burst length except 16 like 32; bursts that do not take whole cycles are rounded down
    (`C38_violation_formula`).
25. **Bank organisation, C44.** LPDDR5: an organisation that is not recognised (32 banks in 4 groups) is silently replaced by 16 banks in one
    group while the banks per group stay 8.  LPDDR4 PASR: the constants are those of eight banks, "half" of 16 banks is 12 and four
    banks throw `length_error` (`C44_violation`).  DDR5 with fewer banks than groups has no bank per group; the same-bank refresh then
    computes modulo zero (`C44_violation_groups`).
26. **`dynamic_bitset`, C41.** `set()`, `flip()` and `~` change the unused bits of the last block, `==` compares them: the complement of three
    zeros is not equal to three ones (`C41_violation`).  Indices between the size and the end of the last block are accepted
    (`C41_violation_range`).  `count()` masks, `sub_bitset` is correct.
27. **Extensions, C40.** Registering a type twice destroys the older object, its entry in the list of extensions to save stays: saving and
    restoring throw from then on (`C40_violation`).  With hooks the older object stays alive and its hooks are still called
    (`C40_hooks`).  `updateHookCache` shifts an `int` by the number of the hook, undefined for enumerations of more than 32 bits
    (`C40_violation_hooks`).
28. **Pre- and postambles, C39.** The ends of the last read and write of a rank start at 0, so a first transfer at time 0 is counted as
    seamless (`C39_violation_first`).  The merged counters are never written (`C39_violation_merged`).
29. **Types, C37.** DDR5 `SREFEX` has a case in the interface but no pattern: it always throws after the core has executed it.  LPDDR6
    `NOP` is accepted by the interface and refused by the core (`C37_violation_types`).
30. **Half-executed commands, C37.** In bus mode the strobes are started at the time of the command and stopped at time + beats / data rate;
    for a data command without payload both are equal and `Clock::stop` asserts, after the core and the command bus have been updated.
    LPDDR6: a `Command` is converted with second bank (bank + 8) % 16, the encoder asserts for *every* command that it is a multiple
    of the number of bank groups, so most banks cannot be addressed by a plain `Command` (`C37_violation_halfway`).
31. **Restoring DDR4 with DBI, C16.** `LastBurst_t::deserialize` reads the bytes of the remembered last beat into a `bool`; any byte other than 0
    and 1 is then an invalid `bool`.  Two DBI bursts back to back suffice (`C16_violation_ddr4`); `C16_ddr4_partial` gives the exact
    condition.
32. **LPDDR4, LPDDR5 and LPDDR6 do not save DBI, C16.** Statistics of the DBI pins (`C16_violation_pins`) and the enable flag
    (`C16_violation_enable`) are lost; the restored DBI extension still reports that it is enabled.
33. **LPDDR6 does not save metadata and `m_enabled`, C16.** Later bursts carry other metadata (`C16_violation_metadata`); a disabled interface
    is restored with stopped clocks but marked as enabled, so `enable` has no effect (`C16_violation_disabled`).
34. **DDR4 pre/postambles, C45, C46.** `calcDQSEnergy` counts transfers with `rank_total[].counter`, which neither core nor interface ever
    fills (`C45_rank_counters`): without gapless transfers no amble is charged (`C45_ambles_never`, `C45_violation_separate`); with a
    gapless transfer the unsigned difference wraps, two back-to-back reads are charged `2^64 - 1` ambles (`C45_violation_ddr4`).  The
    repository's test fills the counters by hand.  Additivity fails for the same reason (`C46_violation`).
35. **DDR5 toggling rates, C45.** `calcDQEnergyTogglingRate` passes the resistance as termination flag, so unterminated data wires are
    charged (`C45_violation_ddr5`).

36. **Strobes, C47.** All strobe edges of a burst are reported as soon as its command is executed, so a query during a burst counts
    ahead (`C47_violation`).  Strobes stop at time + beats / data rate (integer quotient): a burst that ends between two clocks loses
    edges (`C47_violation_fraction`).  DDR5 takes the strobe rate from `dqsBusRate` but stops the strobes by the data rate; if they differ
    the edges are not one per beat (`C47_violation_rate`).

37. **LPDDR4 row bit 18, C48.** The consequence of item 16 (C25) for whole traces: an activate of row 2^18 is counted like one of row 0
    (`C48_violation`).

38. **LPDDR6 inversion, C49.** The consequence of item 14 (C24) for whole traces: a read of 256 ones with data bus
    inversion is reported with 136 ones on the bus instead of the 16 of the flags (`C49_violation`).

39. **Data clock of LPDDR5 and LPDDR6, C50.** `WCK` has `WCK2CK` cycles of `tCK / WCK2CK` in a clock cycle, but the interface lets it toggle
    `dataRate / WCK2CK` times per clock cycle (LPDDR5Interface.cpp 32, LPDDR6Interface.cpp 38) and the calculation charges `tWCK / 2` for each
    level. With the shipped `dataRate` 2 and `WCK2CK` 2 a quarter of the time is charged, with `WCK2CK` 4 the clock never toggles.
    `C50_dataClock_exact`: right only if `dataRate / WCK2CK = 2 * WCK2CK`. Refuted by `C50_violation_dataClock`, `C50_violation_stopped`.

40. **Inversion pins, C50.** The pins are queried with the constant data rate 2 (for instance LPDDR5Interface.cpp 387-392) and charged `tCK / dataRate`
    per level; for another data rate the charged time is off by `2 / dataRate` (`C50_inversion_exact`, `C50_violation_inversion`).

41. **Duration of a burst of LPDDR5 and LPDDR6, C51.** The core charges `burstLength / dataRate` data clock cycles (and derives `tBurst` from
    `dataRate * WCK2CK`), the interface moves `dataRate` beats per clock cycle. A burst lasts `WCK2CK` times as long for the interface as for the
    core (`C51_ratio`, `C51_violation`).

42. **Inversion pins after a gap, C52.** `updateDBI` calls `dispatchResetCallback` with the time of the new transfer (util/dbi.h 400-451); the callback sets the
    pin at this load time (DDR4Interface.cpp 179-186), not at the end of the previous transfer. If the previous transfer of the direction ended with an
    inverted byte, the pin gets one idle level in front of the flags of the new transfer: all its flags come one beat late, and the last one is
    lost when another transfer follows without a gap (`C52_violation`).

43. **DDR4 refuses transfers with inversion, C52.** With item 42 a DDR4 pin, a `Pin<8>` (DDR4Interface.h 53), gets nine levels for a burst of eight
    beats: the assertion of `push_back` (util/burst_storage.h 113) fails, in a release build `std::bitset::set` throws (`C52_violation_ddr4`).
    The trace is accepted without inversion.

44. **Time base of the inversion pins, C52.** Item 40 again: the figures cover `2 * t` instead of `dataRate * t` beats (`C52_violation_rate`).

45. **Total energy of a longer window, C53.** DDR5, LPDDR4, LPDDR5, LPDDR6: by item 1 (active time counted although the rank is in power-down) the
    precharged time `t - act - powerDown...` of a rank can be negative and is reported as almost `2^64` cycles. Once the rank is precharged
    it grows with the window and passes zero: the total energy for the window 216 exceeds `2^64`, that for the window 400 of the same trace is below
    20000 (`C53_violation`).

46. **Malformed numbers end the tool, C54, C55.** `parse_command_list` reports short rows and malformed payloads by its result, but the
    conversion of a number field throws; nothing in `parse_command_list` or `main` catches it, so the tool is terminated instead of
    ending with status 1 and a message (`C54_violation`, `C55_violation`). The same holds for exceptions while the result is made.

47. **Numbers from 2^63 on, C54.** Time stamps and coordinates are unsigned 64 bit numbers, but the CSV library takes every number above
    `INT64_MAX` for a floating point number and refuses it (`C54_violation_large`).

48. **Unknown commands, C54.** Any unknown command name (also lower case, or the printed name `END_OF_SIMULATION`) is read as `NOP` without a
    message: the row only moves the time (`C54_violation_names`). Zeros with a minus sign anywhere are accepted (`C54_violation_sign`).

49. **Help, C55.** `parseArgs` returns `app.exit(e)`, which is 0 if help was asked for; `main` takes 0 for success and goes on. `--help` alone
    prints the help, then "Invalid config file", and ends with status 1 (`C55_violation_help`; that CLI11 returns 0 there is an assumption,
    its source is not in the repository).

50. **Restored simulators with inversion or metadata, C56.** LPDDR4, LPDDR5 and LPDDR6: the DBI extension saves whether inversion is on, and
    restoring sets the member of the extension only; the callback is not called and the interface does not save its inverter, so the
    restored extension reports "enabled" while bursts are transferred plain (`C56_violation_enable`). LPDDR6: the metadata words are not
    restored into the interface (`C56_violation_metadata`). DDR4: a saved stream may be unreadable (item 31, `C56_violation_ddr4`).

51. **Reports after restoring, C57.** LPDDR4 and LPDDR5: after restoring, the DBI extension reports "on" and the bursts are transferred plain
    (`C57_violation_restored`; the cause is item 50).

52. **Copied simulators, C58.** The copy constructors are public and defaulted. The extension objects are shared by copy and source
    (`std::shared_ptr`), and their callbacks captured the source: turning inversion on in a copy turns it on in the source, the copy reports "on"
    and transfers plain bursts (`C58_violation_source`, `C58_violation_copy`). The callback of the inverter captured the interface of the source:
    inverted bursts of a copy are counted on the pins of the source (`C58_violation_pins`). If the source is gone - also after moving, for
    instance in a growing `std::vector` - these callbacks are undefined behaviour (`C58_violation_destroyed`). All standards but DDR5.

53. **Empty lines and Windows line ends, C59.** One empty line after a row is skipped, but a second one, an empty line at the beginning, and
    every empty line with a Windows line end is a row with one empty value: the tool refuses the trace (`C59_violation`). Files are read in
    chunks of 10000000 bytes; if a chunk ends between the two characters of a Windows line end, the second one is taken for an empty line
    and a correct trace is refused (`C59_violation_chunk`).

54. **Other texts, C59.** A row of more than 10000000 bytes is read again and again without end (`C59_violation_long`). An empty last value is
    lost if blanks but no line end follow it (`C59_violation_last`). An empty trace file ends the tool with an exception instead of a report
    about no commands (`C59_violation_empty`).

55. **Dual-bank refreshes in the standard output, C60.** The formatter of the energy of a bank (util.hpp 63-100) prints 14 of the 15 parts:
    `REF_DB` is missing, though it is part of the total and of the JSON document. An LPDDR6 trace with one dual-bank refresh is reported
    with a total of 10000 while all printed parts are zero (`C60_violation`).

56. **Negative background energy by rounding, C62.** With the default background factor 1 the background of an active bank is computed from
    `I_1 - I_rho`, which is zero but for rounding: `(1.0 / B) * (I_B + (B - 1) * I_rho)` (core_calculation_DDR4.cpp 69-71) against
    `rho * (I_B - IXX2N) + IXX2N`. For DDR4 with IDD2N = 2 mA, IDD3N = 20 mA and eight banks the difference is -3.5e-18 A, so that `E_bg_act`
    is reported negative and decreases the longer the bank is active (`C62_violation`). The error is far below every figure of interest
    (`C61_bank`), but a check for non-negative energies would fail.

57. **Relative links as output path, C63.** `resolve_symlink` (validators.cpp 29-33) looks for the target of a link as it is stored, so a relative
    target is taken from the current directory and not from the directory of the link. If `/out/link` leads to `real.json` in `/out` and the
    tool is started elsewhere, an empty `real.json` appears in the current directory; with the target `sub/real.json` the path is refused
    with "Parent directory does not exist" although the report could be written; and if only the current directory has a `sub`, the path is
    accepted, an empty file appears there, and the report cannot be written. A link in a circle makes `std::filesystem::exists` throw,
    which nobody catches (main.cpp 44-48 catches `ParseError` only), so the tool is terminated instead of printing a message. Theorem
    `C63_violation`.

58. **Energy of a trace, C67.** By item 1, DDR5, LPDDR4, LPDDR5, LPDDR6: after a refresh that ends when an active power-down begins the core
    energy is not that of the timeline, for DDR5 in `C67_violation` 4920 instead of 4800.

59. **Interface energy of a trace, C70.** By the items on C45, C48, C50: DDR4 charges no pre- and postambles (`C70_violation_ddr4`: 8 instead of
    10), DDR5 charges rates on unterminated wires (`C70_violation_ddr5`: 80 instead of 0), LPDDR4 does not send bit 18 of a row
    (`C70_violation_lpddr4`), the data clock of LPDDR5 and LPDDR6 is given dataRate / WCK2CK half-cycles per clock cycle instead of
    2 · WCK2CK (`C70_violation_dataClock`: 20 instead of 80 edges).

60. **End marker, C73.** `endOfSimulation` passes the time of the command in clock cycles to `dispatchResetCallback` (DDR4Interface.cpp 329-331,
    LPDDR4Interface.cpp 238-240, LPDDR5Interface.cpp 369-371, LPDDR6Interface.cpp 353-355), which compares it with the end of the last burst in beats
    (`timestamp * dataRate`, util/dbi.h 406-416): an end marker less than `dataRate` times as late as the end of the last inverted transfer resets no
    pin. If it does, a later transfer escapes item 42, so that the marker changes the figures of the inversion pins (`C73_violation`) and for DDR4
    whether the trace is accepted (`C73_violation_refused`).

61. **Traces one after the other, C74.** Except for DDR4 a refresh during which an active power-down is requested is reported otherwise if the bank
    has ever been activated before (`C74_violation`): the power-down of item 1 remembers the activation of an earlier, finished access.

62. **Measurement loops, C75.** Except for DDR4, after the power-down of item 1 an idle memory consumes more than IDD2N for ever
    (`C75_violation`).

63. **Energies of parts, C78.** With toggling rates the figures of a report are truncated per wire, so that the energies of two parts of a
    trace do not add up to that of the whole: with duty cycle 1/16 two bursts of eight beats have half a level each, which is lost in each
    report alone, and found in the report of both (`C78_violation`, all standards). With DDR4 the wrapped difference of item C45 does not
    add up either (`C78_violation_ambles`).

64. **Queries of buses and clocks overflow silently, C79.** `Bus::load` and `TogglingHandle` check that the time in beats fits into 64 bits; `Bus::get_stats`,
    `Bus::disable`, `Bus::enable`, `Clock::count` and `Pin` do not. A clock with two beats per cycle asked at the time 2^63 reports no period, a bus of eight ones
    asked at 2^63 + 1 reports two ones (`C79_violation`). Only of theoretical interest.

65. **Blanks next to quotation marks, C80.** The reader trims blanks but recognises a closing quotation mark only directly before a comma or line end, and a blank
    before the opening one puts the mark into the value. With `"note" ` (a blank behind the mark) in a column the tool ignores, the rest of the file becomes a part
    of the note and all further commands are lost without a message (`C80_violation`: one command instead of two). ` "a,b"` is read as `"a,b` (`C80_violation_open`),
    `""` at the end of a file without line end is lost (`C80_violation_last`), `"a  """` loses its quotation mark (`C80_violation_mark`).

66. **Acceptance depends on the bytes, C86.** DDR4 with inversion: two writes with a gap of a few clock cycles are accepted if the last byte of the first one is
   not inverted, and end with the assertion "bitset_size not enough" of the inversion pin if it is (see C52). The same trace with other data is therefore accepted or
   refused. Witness: `c86Gap 255` and `c86Gap 0` (`C86_violation`). LPDDR4 and LPDDR5, whose pins have 32 places, do the same with bursts of 32 beats
   (`C86_violation_long`).

67. **Edges of DDR4 ambles, C88.** `calcDQSEnergy` charges the dynamic energy of pre- and postambles inside `if (..._termination == true)`
    (interface_calculation_DDR4.cpp 87-101), while the dynamic energy of all other edges does not depend on termination. Switching the termination of the strobes off
    removes the energy of these edges (`C88_violation_single`: 1 becomes 0; `C88_violation` with the statistics of a simulator).

68. **Commands that go back in time, C89.** The order of the commands is checked only by the busses, as an assertion. LPDDR4 does not send power-down commands
    (LPDDR4Interface.cpp 143-146), and the core does not compare times: entering power-down at 100 and leaving it at 50 is accepted and reported as a power-down that never
    ends (`C89_violation_order`). Reads and writes use two bus objects: a write burst is accepted while a read burst occupies the same wires, by all standards (`C89_violation_wires`).

69. **Refused only with inversion, C90.** An inversion line holds 8 levels (DDR4) or 32 (LPDDR4, LPDDR5), all taken by a burst of that many beats; the return to the idle
    level after the burst is one more, sent at the time of the next burst, and the assertion `bitset_size not enough` ends the simulation, after the core has executed the
    command (`C90_violation`). A payload longer than an earlier one writes flags outside the vector, for LPDDR6 too (`C90_violation_longer`, as item of C23). The mark for the
    end of the simulation returns the lines at its time in clock cycles, not beats; data for earlier beats is then refused (`C90_violation_end`).

70. **Queries that assume two beats per cycle, C91.** The inversion lines are driven at beat `t * dataRate` but their statistics are asked for at `2 * t` (DDR4Interface.cpp
    367 and 370, LPDDR4Interface.cpp 256-261, LPDDR5Interface.cpp 388 and 391). With a data rate of 4 a query after an inverted transfer at `t` ends with the assertion
    `virtual_time >= m_last_set` (util/pin.h 175-197) for all times before `2 * t` (`C91_violation_rate`).

71. **A short write disables all later queries, C91.** An LPDDR5 memory whose data clock always runs accepts a write of fewer bits than the data bus is wide (otherwise the
    start of the clock refuses it); the burst it leaves has no beats, and every query for a later time ends with the assertion `n >= last_load` of the bus
    (util/bus.h 182-190, `C91_violation_short`).

72. **Flags ahead of their bytes, C92.** The data bus sends the words of a payload last first (item 8), the inversion lines send the flags first word first. During a transfer
    the lines show the flags of other bytes: one clock cycle into a DDR4 read of `00 00 0f 0f` with inversion ten zeroes are reported, without inversion eight
    (`C92_violation`, also LPDDR4 and LPDDR5). After the transfer the totals agree with what inversion should save. For LPDDR6 item 14 makes inversion cost more for whole
    transfers: bytes `ff 00` in turn give 144 ones with and 128 without inversion (`C92_violation_lpddr6`). A byte at the end of a payload that does not fill a beat never
    gets on the data wires, but its flag is on an inversion line: a payload of 40 bits on 16 wires costs 17 levels with and 16 without inversion (`C92_violation_beats`).

73. **LPDDR6 inversion beyond half, C94.** Because of item 14 a payload of bytes `1f 00` in turn, 80 ones without inversion, is sent with 192 ones in 288 bits
    (`C94_violation_lpddr6`).

74. **Data clock in every second cycle only, C96.** With `dataRate` 2 and `WCK2CK` 2, as in `tests/tests_drampower/resources/lpddr5.json` and `lpddr6.json`, the data
    clock that always runs is given one level per clock cycle (item 39); `count` (util/clock.h 24-36) divides by two and rounds, so that levels and
    edges are reported in every second cycle only (`c96_dataClock`): consecutive cycles of a memory left alone differ for ever (`C96_violation_dataClock`).

Remarks without a violated claim:


* C22: `get_stats` applies the rates in force at query time to all beats ever transferred; a rate change is retroactive
  (`Spec.finalRates`).  Truncation loses at most one beat per wire (`C22_bound`).
* C31: "at least the background currents" is formalised as `Spec.Sane`: IDD4/IDD5 etc. are compared with the background of as many open
  banks as the measurement has.  With single comparisons such as IDD5 > IDD3N only, an LPDDR refresh energy can be negative
  (`C31_violation`).
* C43: the write energies (and LPDDR reads) use the integer quotient burst length / data rate, DDR reads the exact one; they agree only
  if the data rate divides the burst length (a hypothesis of `C43_idd4r`/`C43_idd4w`).
* C16: the last command pattern is not saved, but no pattern or override of any standard uses the last bits, so this is unobservable
  (part of `Kept`: `NoLast`).
* C47: the number of strobe wires depends on the width of one device only, while data wires and DBI pins scale with the number of
  devices.
* C52: on the inversion pins the flags of a transfer appear first beat first, while the words of the payload appear on the data wires last
  first (C18, C49), so that the flag and the data of a beat do not belong together. The totals do not depend on it.
* C55: the window of the report ends with the time of the last row. If that is a read or write its burst is not part of the report: the
  payload has no influence (second example in `Props/C55`). A later `END` row is needed.
* C54: a field such as `1e9223372036854775807` makes the CSV library multiply 9223372036854775807 times by ten before it is refused.
* C57: `getInterface().enableDBI` and `getInterface().setMetaData` bypass the DBI extension; its report is then out of date (it keeps a copy
  of the flag). The metadata extension asks the interface and stays correct.
* C59: quotation marks are not part of the claim. The parser keeps the opening mark of a quoted value after a blank, and does not recognise
  a closing mark before a blank: the following rows become part of the value.
* C13: the memory specification files carry `per2BankOffset` (0 in `tests/tests_drampower/resources/lpddr5.json`), but LPDDR5 always uses the
  distance 8 of `memspec/MemSpecLPDDR5.h` 45; no constructor reads the key.
* The unit test `FormatData_0` of LPDDR6 shifts a 32-bit value by more than 31, which is undefined (`Tests/Hand.lean`); what the shift returns
  has no influence on the result.
* C68: `Router` deletes its default constructor and has another one whose only parameter has a default: `Router<CmdType> r;` is ambiguous and
  does not compile. The library includes the header but uses no router.
* C69: `tryCallFunctor` (extension_manager_static.h 21-30) is meant to skip a function that cannot be called with an extension, but its return
  type `decltype(func(ext))` already makes such a call ill-formed. The functor tuple holds references to lvalue arguments, not copies as its
  comment says, and is forwarded as an rvalue to every extension.
* C40, C69: given two hooks at once, the static manager calls the extensions that support any of them, the dynamic one only those that
  registered for the lowest.
* **The last times before 2^64, C76.** An access with auto-precharge in the last cycles before 2^64 ends, after the wrap, before it began
  (`C76_needsRange`: 6 instead of 19 active cycles).
* C77: with duty cycle 0.3 ten beats have three ones although the `double` is less than 0.3, with duty cycle 0.29 a hundred beats have 28
  (`C77_notTruncated`): the product is rounded, then truncated.
* `DataBus::lastBurst` (util/databus.h 126-135) calls `get_lastburst_timestamp` of `Bus`, which does not exist: a program that uses it does not
  compile. Nothing in the library does.
* The copy assignment operators of DDR4, LPDDR4 and LPDDR5 are declared `= default`, but a program that uses them does not compile: `Pin` has a
  constant member (util/pin.h 224), and their interfaces have vectors of pins. The move assignments compile.
