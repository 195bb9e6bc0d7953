{"id": "C01", "title": "Per-bank cycle accounting is exact", "statement": "After any protocol-legal command trace, the per-bank cycle figures returned by getWindowStats(t) (act, pre, powerDownAct, powerDownPre, selfRefresh, deepSleepMode) each equal the number of clock cycles in [0,t) during which that bank was in that state according to a cycle-by-cycle reference timeline of the DRAM protocol (row open or refreshing = act, rank powered down / in self refresh / in deep sleep = the corresponding state, otherwise pre).", "quantifier": "every memory spec (timings, number of banks), every protocol-legal command trace of any length, every bank, every window end t not earlier than the last command; for DDR4, DDR5, LPDDR4, LPDDR5 and LPDDR6", "why_tests_cant": "the state depends on unboundedly many interleavings of explicit commands with deferred implicit ones (auto-precharge, refresh end, delayed power-down); a test checks one trace and one t", "anchors": ["src/DRAMPower/DRAMPower/standards/ddr4/DDR4Core.cpp", "src/DRAMPower/DRAMPower/standards/ddr5/DDR5Core.cpp", "src/DRAMPower/DRAMPower/standards/lpddr4/LPDDR4Core.cpp", "src/DRAMPower/DRAMPower/standards/lpddr5/LPDDR5Core.cpp", "src/DRAMPower/DRAMPower/standards/lpddr6/LPDDR6Core.cpp", "src/DRAMPower/DRAMPower/dram/Rank.cpp", "src/DRAMPower/DRAMPower/util/cycle_stats.h:interval_counter", "getWindowStats"]}
{"id": "C02", "title": "Per-rank cycle accounting is exact", "statement": "After any protocol-legal command trace, rank_total[r].cycles.act equals the number of cycles in [0,t) in which at least one bank of the rank is open or refreshing while the rank is neither powered down nor in self refresh, and the remaining rank figures equal the cycles the rank spent in each low-power state (pre = none of them).", "quantifier": "every memory spec, every protocol-legal trace, every rank, every t after the last command, all five standards", "why_tests_cant": "the rank-level interval is opened and closed by different handlers depending on what the other banks are doing; only a proof over all interleavings shows it is the union of the bank intervals", "anchors": ["src/DRAMPower/DRAMPower/standards/ddr4/DDR4Core.cpp", "src/DRAMPower/DRAMPower/standards/ddr5/DDR5Core.cpp", "src/DRAMPower/DRAMPower/standards/lpddr4/LPDDR4Core.cpp", "src/DRAMPower/DRAMPower/standards/lpddr5/LPDDR5Core.cpp", "src/DRAMPower/DRAMPower/standards/lpddr6/LPDDR6Core.cpp", "rank_total", "Rank::isActive"]}
{"id": "C03", "title": "Cycle conservation, no unsigned underflow", "statement": "For every protocol-legal trace the per-bank and per-rank state cycles reported by getWindowStats(t) add up to exactly t, and the subtraction that produces the precharged time never wraps around below zero.", "quantifier": "every legal trace, bank, rank, window end t >= last command time", "why_tests_cant": "the precharge figure is computed as an unsigned difference; a single overlapping pair of intervals anywhere in a long trace yields a value near 2^64", "anchors": ["src/DRAMPower/DRAMPower/standards/ddr4/DDR4Core.cpp", "src/DRAMPower/DRAMPower/standards/ddr5/DDR5Core.cpp", "src/DRAMPower/DRAMPower/standards/lpddr4/LPDDR4Core.cpp", "src/DRAMPower/DRAMPower/standards/lpddr5/LPDDR5Core.cpp", "src/DRAMPower/DRAMPower/standards/lpddr6/LPDDR6Core.cpp", "getWindowStats", "stats.bank[].cycles.pre"]}
{"id": "C04", "title": "Auto-precharge equals read/write plus explicit precharge", "statement": "Replacing an RDA (WRA) issued at time t to a bank opened at time a by an RD (WR) at t and an explicit PRE to the same bank at max(a + tRAS, t + read/write precharge offset) leaves every cycle figure and every counter except the RD/RDA (WR/WRA) split unchanged.", "quantifier": "every legal trace containing the RDA/WRA, every other traffic in between, every later window", "why_tests_cant": "the implicit precharge is delayed and runs at some later call; the equivalence must hold for everything that may happen in the meantime", "anchors": ["src/DRAMPower/DRAMPower/standards/ddr4/DDR4Core.cpp", "src/DRAMPower/DRAMPower/standards/ddr5/DDR5Core.cpp", "src/DRAMPower/DRAMPower/standards/lpddr4/LPDDR4Core.cpp", "src/DRAMPower/DRAMPower/standards/lpddr5/LPDDR5Core.cpp", "src/DRAMPower/DRAMPower/standards/lpddr6/LPDDR6Core.cpp", "handleReadAuto", "handleWriteAuto", "ImplicitCommandHandler"]}
{"id": "C05", "title": "Legal traces are accepted, invalid coordinates are rejected", "statement": "A protocol-legal trace never trips an assertion or exception of the core model, whereas a command whose rank or bank coordinate is outside the configured device is rejected before any bank or rank state changes.", "quantifier": "every memory spec, every legal trace; every command with an out-of-range coordinate in every reachable state", "why_tests_cant": "requires reasoning about all reachable states, not about one sequence", "anchors": ["src/DRAMPower/DRAMPower/standards/ddr4/DDR4Core.cpp", "src/DRAMPower/DRAMPower/standards/ddr5/DDR5Core.cpp", "src/DRAMPower/DRAMPower/standards/lpddr4/LPDDR4Core.cpp", "src/DRAMPower/DRAMPower/standards/lpddr5/LPDDR5Core.cpp", "src/DRAMPower/DRAMPower/standards/lpddr6/LPDDR6Core.cpp", "src/DRAMPower/DRAMPower/util/RegisterHelper.h"]}
{"id": "C06", "title": "Querying statistics does not disturb the simulation", "statement": "Calling getWindowStats/getStats/energy queries any number of times, at any times not later than the next command, does not change the result of any later query or command: final statistics are the same as if the queries had never been made; the same query repeated returns the same result.", "quantifier": "every trace, every placement of queries with non-decreasing times between the commands", "why_tests_cant": "queries execute pending implicit commands as a side effect, so purity is a statement about all placements of queries relative to all pending commands", "anchors": ["src/DRAMPower/DRAMPower/standards/ddr4/DDR4Core.cpp", "src/DRAMPower/DRAMPower/standards/ddr5/DDR5Core.cpp", "src/DRAMPower/DRAMPower/standards/lpddr4/LPDDR4Core.cpp", "src/DRAMPower/DRAMPower/standards/lpddr5/LPDDR5Core.cpp", "src/DRAMPower/DRAMPower/standards/lpddr6/LPDDR6Core.cpp", "src/DRAMPower/DRAMPower/util/ImplicitCommandHandler.h", "src/DRAMPower/DRAMPower/dram/dram_base.h:getStats"]}
{"id": "C07", "title": "Ranks are independent", "statement": "Statistics of one rank (and of its banks) depend only on the commands addressed to that rank: removing all commands to other ranks from the trace leaves them unchanged at every window end.", "quantifier": "every trace (legal or not, as long as it is accepted) with non-decreasing timestamps, every rank, every t", "why_tests_cant": "all ranks share a single implicit-command queue and a single last-command time, so independence is not local to any function", "anchors": ["src/DRAMPower/DRAMPower/standards/ddr4/DDR4Core.cpp", "src/DRAMPower/DRAMPower/standards/ddr5/DDR5Core.cpp", "src/DRAMPower/DRAMPower/standards/lpddr4/LPDDR4Core.cpp", "src/DRAMPower/DRAMPower/standards/lpddr5/LPDDR5Core.cpp", "src/DRAMPower/DRAMPower/standards/lpddr6/LPDDR6Core.cpp", "src/DRAMPower/DRAMPower/util/ImplicitCommandHandler.h"]}
{"id": "C08", "title": "Implicit commands run exactly once, in time order, never early or late", "statement": "Every deferred command (auto precharge, refresh end, self-refresh start, power-down entry/exit) takes effect exactly once, after all deferred commands with an earlier time and after those with the same time that were issued before it, before any explicit command whose timestamp is not smaller than its time, and not before an explicit command with a smaller timestamp.", "quantifier": "every sequence of insertions and process calls", "why_tests_cant": "ordering and exactly-once execution are properties of all interleavings of insertions and pops", "anchors": ["src/DRAMPower/DRAMPower/util/ImplicitCommandHandler.h"]}
{"id": "C09", "title": "Command counters count exactly the commands addressed to the bank", "statement": "For every accepted trace the per-bank counters act, reads, readAuto, writes, writeAuto, refAllBank, refPerBank, refPerTwoBanks, refSameBank, refDualBanks equal the number of commands of the trace that target the bank (self-refresh entry counts as one all-bank refresh), and counter.pre equals the number of open-to-precharged transitions caused by precharge commands; counters of other banks are unchanged.", "quantifier": "every accepted trace, every bank, every standard", "why_tests_cant": "counts over unbounded histories; needs induction", "anchors": ["src/DRAMPower/DRAMPower/standards/ddr4/DDR4Core.cpp", "src/DRAMPower/DRAMPower/standards/ddr5/DDR5Core.cpp", "src/DRAMPower/DRAMPower/standards/lpddr4/LPDDR4Core.cpp", "src/DRAMPower/DRAMPower/standards/lpddr5/LPDDR5Core.cpp", "src/DRAMPower/DRAMPower/standards/lpddr6/LPDDR6Core.cpp", "command_stats_t", "src/DRAMPower/DRAMPower/data/stats.h"]}
{"id": "C10", "title": "Power-down entry and exit are deferred to the earliest legal time", "statement": "A power-down entry (exit) command at t takes effect at max(t, E) where E is the largest of: last row-activation start + tRCD, last precharge + tRP, refresh end, over the banks of the rank; never earlier, and never later.", "quantifier": "every state of the banks, every t, every timing set", "why_tests_cant": "maximum over all banks and all histories", "anchors": ["src/DRAMPower/DRAMPower/standards/ddr4/DDR4Core.cpp", "src/DRAMPower/DRAMPower/standards/ddr5/DDR5Core.cpp", "src/DRAMPower/DRAMPower/standards/lpddr4/LPDDR4Core.cpp", "src/DRAMPower/DRAMPower/standards/lpddr5/LPDDR5Core.cpp", "src/DRAMPower/DRAMPower/standards/lpddr6/LPDDR6Core.cpp", "earliestPossiblePowerDownEntryTime", "handlePowerDownActEntry", "handlePowerDownPreExit"]}
{"id": "C11", "title": "Last command time is the time of the latest executed command", "statement": "For traces with non-decreasing timestamps getLastCommandTime() never decreases, is never smaller than the timestamp of the last explicit command, and after a query at t it is never larger than max(t, last explicit command).", "quantifier": "every trace with non-decreasing timestamps and interleaved queries", "why_tests_cant": "the value is overwritten by implicit commands; monotonicity is a history property", "anchors": ["src/DRAMPower/DRAMPower/standards/ddr4/DDR4Core.cpp", "src/DRAMPower/DRAMPower/standards/ddr5/DDR5Core.cpp", "src/DRAMPower/DRAMPower/standards/lpddr4/LPDDR4Core.cpp", "src/DRAMPower/DRAMPower/standards/lpddr5/LPDDR5Core.cpp", "src/DRAMPower/DRAMPower/standards/lpddr6/LPDDR6Core.cpp", "getLastCommandTime", "src/DRAMPower/DRAMPower/util/ImplicitCommandHandler.h"]}
{"id": "C12", "title": "Window statistics are monotone in time", "statement": "Extending the observation window from t to t' >= t never decreases any counter or any cycle figure, and the cycle figures of a bank together grow by exactly t' - t.", "quantifier": "every legal trace and every pair t <= t' after its last command", "why_tests_cant": "quantifies over all window pairs and all pending implicit commands in between", "anchors": ["src/DRAMPower/DRAMPower/standards/ddr4/DDR4Core.cpp", "src/DRAMPower/DRAMPower/standards/ddr5/DDR5Core.cpp", "src/DRAMPower/DRAMPower/standards/lpddr4/LPDDR4Core.cpp", "src/DRAMPower/DRAMPower/standards/lpddr5/LPDDR5Core.cpp", "src/DRAMPower/DRAMPower/standards/lpddr6/LPDDR6Core.cpp", "getWindowStats"]}
{"id": "C13", "title": "Bank-set commands hit exactly the intended banks", "statement": "PRESB/REFSB act on exactly the banks with the same index inside every bank group, REFP2B on exactly the bank and its partner at the configured offset, REFDB on exactly the two banks given, PREA/REFA/SREFEN on all banks of the rank; no other bank changes state, counters or cycles.", "quantifier": "every bank index, every number of bank groups and banks per group, every state", "why_tests_cant": "index arithmetic over all geometries", "anchors": ["src/DRAMPower/DRAMPower/standards/ddr5/DDR5Core.cpp:handlePreSameBank", "src/DRAMPower/DRAMPower/standards/ddr5/DDR5Core.cpp:handleRefSameBank", "src/DRAMPower/DRAMPower/standards/lpddr5/LPDDR5Core.cpp:handleRefPerTwoBanks", "src/DRAMPower/DRAMPower/standards/lpddr6/LPDDR6Core.cpp:handleRefDualBanks"]}
{"id": "C14", "title": "Self refresh and deep sleep accounting", "statement": "Self-refresh time starts tRFC after the self-refresh entry command and ends at the exit command; deep-sleep time is the time between DSM entry and exit and is contained in the self-refresh period, so the reported selfRefresh figure is the self-refresh time not spent in deep sleep and never wraps.", "quantifier": "every legal trace with nested SREF/DSM phases", "why_tests_cant": "difference of two independently maintained interval counters over all histories", "anchors": ["src/DRAMPower/DRAMPower/standards/lpddr5/LPDDR5Core.cpp:handleDSMEntry", "src/DRAMPower/DRAMPower/standards/lpddr5/LPDDR5Core.cpp:getWindowStats", "src/DRAMPower/DRAMPower/standards/lpddr6/LPDDR6Core.cpp"]}
{"id": "C15", "title": "Saving and restoring the core is lossless", "statement": "If a simulator is serialized while no implicit command is pending and the stream is loaded into a freshly constructed simulator with the same memory spec, every later command and query behaves identically in both; exactly the bytes written are consumed.", "quantifier": "every reachable state without pending implicit commands, every continuation trace", "why_tests_cant": "equality of all future behaviours from all reachable states", "anchors": ["src/DRAMPower/DRAMPower/standards/ddr4/DDR4Core.cpp:serialize", "src/DRAMPower/DRAMPower/standards/ddr5/DDR5Core.cpp:serialize", "src/DRAMPower/DRAMPower/standards/lpddr4/LPDDR4Core.cpp:serialize", "src/DRAMPower/DRAMPower/standards/lpddr5/LPDDR5Core.cpp:serialize", "src/DRAMPower/DRAMPower/standards/lpddr6/LPDDR6Core.cpp:serialize", "src/DRAMPower/DRAMPower/dram/Rank.cpp", "src/DRAMPower/DRAMPower/dram/Bank.h", "src/DRAMPower/DRAMPower/util/cycle_stats.h", "src/DRAMPower/DRAMPower/data/stats.h"]}
{"id": "C16", "title": "Saving and restoring the interface is lossless", "statement": "Serializing and restoring the interface part of a simulator preserves all later interface statistics (command bus, data buses, clocks, strobes, DBI pins, DBI state, last command pattern).", "quantifier": "every reachable interface state, every continuation", "why_tests_cant": "needs equality of all future behaviours; a round-trip test that issues no further command cannot see lost state", "anchors": ["src/DRAMPower/DRAMPower/standards/ddr4/DDR4Interface.cpp:serialize", "src/DRAMPower/DRAMPower/standards/lpddr4/LPDDR4Interface.cpp:serialize", "src/DRAMPower/DRAMPower/util/PatternHandler.h", "src/DRAMPower/DRAMPower/util/bus.h", "src/DRAMPower/DRAMPower/util/dbi.h"]}
{"id": "C17", "title": "Bus statistics equal the statistics of the transmitted waveform", "statement": "For every history of non-overlapping loads on an enabled bus, getStats(t) equals the sums over all beats before t of ones, zeroes, 0->1 and 1->0 transitions of the waveform consisting of the idle pattern outside bursts and of the burst words inside, starting from the idle pattern; in particular ones + zeroes = width * beats and bit_changes = ones_to_zeroes + zeroes_to_ones.", "quantifier": "every width, idle pattern, data rate, history of loads, query time", "why_tests_cant": "the implementation accumulates lazily per burst with special cases for idle gaps and pending statistics; equality for all gap/burst combinations is inductive", "anchors": ["src/DRAMPower/DRAMPower/util/bus.h", "src/DRAMPower/DRAMPower/util/burst_storage.h", "src/DRAMPower/DRAMPower/util/bus_types.h"]}
{"id": "C18", "title": "Data layout on the bus", "statement": "A payload of n*width bits is transmitted as n beats where bit j of beat i is payload bit i*width + j (bytes least significant bit first), in that order, and nothing else is transmitted.", "quantifier": "every payload, width and length", "why_tests_cant": "bit-level reshaping for every width/length combination", "anchors": ["src/DRAMPower/DRAMPower/util/burst_storage.h:insert_data", "src/DRAMPower/DRAMPower/util/bus.h:load"]}
{"id": "C19", "title": "A disabled bus contributes nothing and resumes cleanly", "statement": "Disabling a bus at time t1 and enabling it at t2 makes the statistics equal to those of the waveform restricted to the times the bus was enabled: no beat in [t1,t2) is counted and every beat outside is counted exactly once.", "quantifier": "every interleaving of loads, disable and enable", "why_tests_cant": "mode switching history", "anchors": ["src/DRAMPower/DRAMPower/util/bus.h:disable", "src/DRAMPower/DRAMPower/util/bus.h:enable", "src/DRAMPower/DRAMPower/util/databus.h"]}
{"id": "C20", "title": "Pin statistics equal the statistics of the pin waveform", "statement": "For every history of bursts on a DBI pin with non-overlapping transmission times, the pin statistics at t equal the ones, zeroes and transitions of the waveform (idle level outside bursts) summed over all beats before t.", "quantifier": "every history of pin bursts, idle level, data rate, t", "why_tests_cant": "lazy accumulation with gaps, as for the bus", "anchors": ["src/DRAMPower/DRAMPower/util/pin.h", "src/DRAMPower/DRAMPower/util/burst_storage.h:BitsetContainer"]}
{"id": "C21", "title": "Clock statistics", "statement": "A free-running or gated clock reports for every history of start/stop commands as many ones, zeroes and edges as the enabled periods contain: half of the half-cycles are ones, half zeroes, and each is followed by one transition; splitting a running period at any point does not change the totals.", "quantifier": "every start/stop history, every query time, every data rate", "why_tests_cant": "additivity over arbitrary splits", "anchors": ["src/DRAMPower/DRAMPower/util/clock.h"]}
{"id": "C22", "title": "Toggling-rate statistics", "statement": "In toggling-rate mode the reported figures equal the closed form given by transferred bits, toggling rate, duty cycle and idle level, are independent of how the transferred beats are split into commands, and ones + zeroes never exceeds the number of observed beats times the bus width.", "quantifier": "every history of transfers, enable/disable phases, all rates", "why_tests_cant": "real-number truncation and histories", "anchors": ["src/DRAMPower/DRAMPower/dram/Interface.cpp", "src/DRAMPower/DRAMPower/dram/Interface.h", "src/DRAMPower/DRAMPower/util/databus.h"]}
{"id": "C23", "title": "DBI is transparent", "statement": "For every data stream the receiver that un-inverts each chunk whose DBI flag is set recovers exactly the original data; payload length and unaffected bits are unchanged.", "quantifier": "every payload, chunk width, DBI polarity, previous bus state", "why_tests_cant": "all data values and histories", "anchors": ["src/DRAMPower/DRAMPower/util/dbi.h:updateDBI", "src/DRAMPower/DRAMPower/util/dbialgos.h", "src/DRAMPower/DRAMPower/util/dbihelpers.h"]}
{"id": "C24", "title": "DBI bounds the signalling cost", "statement": "After static DBI no transmitted chunk contains more than half of the costly level (plus the DBI bit), and inversion is applied exactly when it strictly reduces the cost; with dynamic (transition) DBI the number of toggles per chunk is at most half of its width.", "quantifier": "every chunk value and width", "why_tests_cant": "2^width values for every width, and dependence on the previous burst", "anchors": ["src/DRAMPower/DRAMPower/util/dbialgos.h", "src/DRAMPower/DRAMPower/util/dbi.h"]}
{"id": "C25", "title": "Command/address encoding loses no coordinate information", "statement": "For every registered command pattern the encoded bus word determines all coordinate bits named in the pattern: two coordinates that differ in a bit named by the pattern yield different words, and the word agrees with the fixed H/L bits of the pattern.", "quantifier": "every coordinate, every registered command, every override setting, all five standards", "why_tests_cant": "coordinate space is 2^k for large k", "anchors": ["src/DRAMPower/DRAMPower/command/Pattern.cpp", "src/DRAMPower/DRAMPower/standards/lpddr6/LPDDR6Pattern.cpp", "src/DRAMPower/DRAMPower/standards/ddr4/DDR4Interface.cpp"]}
{"id": "C26", "title": "Different commands are distinguishable on the command bus", "statement": "For two different commands of one standard that act differently on the device, no pair of coordinates is encoded to the same command-bus word.", "quantifier": "all pairs of commands and all coordinates of a standard", "why_tests_cant": "requires a check over all coordinate pairs, unbounded for tests", "anchors": ["src/DRAMPower/DRAMPower/standards/ddr4/DDR4Interface.cpp", "src/DRAMPower/DRAMPower/standards/ddr5/DDR5Interface.cpp", "src/DRAMPower/DRAMPower/standards/lpddr4/LPDDR4Interface.cpp", "src/DRAMPower/DRAMPower/standards/lpddr5/LPDDR5Interface.cpp", "src/DRAMPower/DRAMPower/standards/lpddr6/LPDDR6Interface.cpp"]}
{"id": "C27", "title": "Encoding is a pure function of command, coordinate, settings and last word", "statement": "The encoded word has no bits outside the pattern width, is independent of the history except for positions configured as 'repeat last bit', and an override setting affects exactly the positions of the overridden descriptor.", "quantifier": "every pattern up to 64 positions, every settings history, every previous word", "why_tests_cant": "settings histories and all words", "anchors": ["src/DRAMPower/DRAMPower/command/Pattern.cpp", "src/DRAMPower/DRAMPower/command/Pattern.h", "src/DRAMPower/DRAMPower/util/PatternHandler.h"]}
{"id": "C28", "title": "LPDDR6 command parity", "statement": "With CA parity checking enabled, every encoded LPDDR6 command word has even parity over the command bits and the parity bit.", "quantifier": "every LPDDR6 command and coordinate with parity enabled", "why_tests_cant": "2^k coordinates for every command", "anchors": ["src/DRAMPower/DRAMPower/standards/lpddr6/LPDDR6Pattern.cpp", "src/DRAMPower/DRAMPower/standards/lpddr6/LPDDR6Interface.cpp"]}
{"id": "C29", "title": "LPDDR6 burst formatting is a bijection", "statement": "The 288-bit LPDDR6 burst carries every one of the 256 payload bits exactly once and the 16 metadata bits and 16 DBI bits in their reserved positions; payload, metadata and DBI can be recovered from the formatted burst.", "quantifier": "every payload, metadata and DBI value, one or two bursts", "why_tests_cant": "2^288 inputs", "anchors": ["src/DRAMPower/DRAMPower/standards/lpddr6/LPDDR6Interface.cpp:formatData", "src/DRAMPower/DRAMPower/standards/lpddr6/LPDDR6Interface.h:dataBitMapping"]}
{"id": "C30", "title": "Energy is additive over statistics", "statement": "Core energy computed from the sum of two statistics equals the sum of the energies computed from each; in particular the energy of a window is the sum of the energies of the parts of a partition of it.", "quantifier": "every pair of statistics, every memory spec with non-zero denominators", "why_tests_cant": "universally quantified algebraic law", "anchors": ["src/DRAMPower/DRAMPower/standards/ddr4/core_calculation_DDR4.cpp", "src/DRAMPower/DRAMPower/standards/ddr5/core_calculation_DDR5.cpp", "src/DRAMPower/DRAMPower/standards/lpddr4/core_calculation_LPDDR4.cpp", "src/DRAMPower/DRAMPower/standards/lpddr5/core_calculation_LPDDR5.cpp", "src/DRAMPower/DRAMPower/standards/lpddr6/core_calculation_LPDDR6.cpp", "src/DRAMPower/DRAMPower/data/stats.h"]}
{"id": "C31", "title": "Energy is non-negative and monotone", "statement": "For memory specs whose active, refresh and burst currents are at least the background currents, every energy component is non-negative and adding commands or cycles never decreases any component.", "quantifier": "every sane memory spec and all statistics", "why_tests_cant": "inequalities over all reals", "anchors": ["src/DRAMPower/DRAMPower/standards/ddr4/core_calculation_DDR4.cpp", "src/DRAMPower/DRAMPower/data/energy.h"]}
{"id": "C32", "title": "Totals equal the sum of their parts", "statement": "energy.total() equals the sum over all banks of every per-bank component plus all shared components, each counted exactly once; total_energy() (aggregated) has the same total; interface total is the sum of controller and DRAM dynamic and static parts.", "quantifier": "every energy result, any number of banks", "why_tests_cant": "any number of banks, all values", "anchors": ["src/DRAMPower/DRAMPower/data/energy.cpp", "src/DRAMPower/DRAMPower/data/energy.h"]}
{"id": "C33", "title": "Statistics form a commutative monoid", "statement": "Adding statistics is componentwise, associative and commutative with the empty statistics as neutral element, equality is componentwise, scaling distributes over addition.", "quantifier": "all statistics values", "why_tests_cant": "algebraic laws", "anchors": ["src/DRAMPower/DRAMPower/data/stats.h", "src/DRAMPower/DRAMPower/util/bus_types.h"]}
{"id": "C34", "title": "Command names round-trip", "statement": "Parsing the printed name of any command type yields that command type, and no two command types print the same name.", "quantifier": "every command type; every string", "why_tests_cant": "the statement for unknown strings quantifies over all strings", "anchors": ["src/DRAMPower/DRAMPower/command/CmdType.h"]}
{"id": "C35", "title": "CLI payload parsing", "statement": "A hexadecimal payload string is decoded to exactly the bytes it spells, with or without 0x prefix, and any string that is not an even number of hexadecimal digits is rejected.", "quantifier": "every string", "why_tests_cant": "infinitely many strings, including malformed ones", "anchors": ["src/cli/lib/DRAMPower/cli/util.cpp:hexStringToUint8Array"]}
{"id": "C36", "title": "CLI result indexing", "statement": "The JSON/console result lists for every rank, device and bank exactly the energy entry of that bank: the computed offset is injective and in range for all architectures.", "quantifier": "every number of ranks, devices and banks", "why_tests_cant": "all geometries", "anchors": ["src/cli/lib/DRAMPower/cli/run.cpp:jsonFileResult"]}
{"id": "C37", "title": "Core and interface accept the same commands", "statement": "For each standard every command type accepted by the core model is accepted by the interface model and vice versa, so that doCommand never fails half way with only one half of the simulator updated.", "quantifier": "every command type and standard", "why_tests_cant": "needs the negative case for every command in every state", "anchors": ["src/DRAMPower/DRAMPower/standards/ddr5/DDR5Interface.cpp", "src/DRAMPower/DRAMPower/standards/ddr5/DDR5Core.cpp", "src/DRAMPower/DRAMPower/standards/lpddr6/LPDDR6Interface.cpp", "src/DRAMPower/DRAMPower/dram/dram_base.h:doCommand"]}
{"id": "C38", "title": "Derived timing values are well defined", "statement": "Constructing a memory spec from any accepted configuration performs no division by zero, and the derived burst length and precharge offsets equal the standard's formulas.", "quantifier": "every accepted configuration", "why_tests_cant": "all parameter combinations", "anchors": ["src/DRAMPower/DRAMPower/memspec/MemSpecLPDDR5.cpp", "src/DRAMPower/DRAMPower/memspec/MemSpecDDR4.cpp", "src/DRAMPower/DRAMPower/memspec/MemSpecDDR5.cpp", "src/DRAMPower/DRAMPower/memspec/MemSpecLPDDR4.cpp", "src/DRAMPower/DRAMPower/memspec/MemSpecLPDDR6.cpp"]}
{"id": "C39", "title": "Pre/postamble bookkeeping", "statement": "DDR4 counts a data transfer as seamless exactly when it starts when the previous transfer of the same kind on the rank ended, and as merged exactly when the gap is shorter than pre- plus postamble; each transfer is counted at most once.", "quantifier": "every history of reads and writes", "why_tests_cant": "history property", "anchors": ["src/DRAMPower/DRAMPower/standards/ddr4/DDR4Interface.cpp:handlePrePostamble", "src/DRAMPower/DRAMPower/dram/Rank.h:RankInterface"]}
{"id": "C40", "title": "Extension manager", "statement": "After registering an extension it can be found, retrieved and invoked, unregistered extensions are never reported present, and saving/restoring preserves each extension's enabled state.", "quantifier": "every sequence of registrations, lookups and invocations", "why_tests_cant": "arbitrary registration histories", "anchors": ["src/DRAMPower/DRAMPower/util/extension_manager.h", "src/DRAMPower/DRAMPower/util/extensions.h"]}
{"id": "C41", "title": "Bit-set arithmetic", "statement": "dynamic_bitset behaves like a fixed-length sequence of bits: equality, complement, xor, count and flip agree with the bitwise definition for every length, including lengths that are not a multiple of the storage block.", "quantifier": "every length and content", "why_tests_cant": "all lengths/contents", "anchors": ["src/DRAMPower/DRAMPower/util/dynamic_bitset.h", "src/DRAMPower/DRAMPower/util/sub_bitset.h"]}
{"id": "C42", "title": "Data-bus mode selection conserves transfers", "statement": "Each read/write payload is accounted exactly once: by the bit-accurate bus when the simulator is in bus mode and by the toggling-rate model when in toggling-rate mode, for every sequence of mode switches; the total statistics are the sum of both models.", "quantifier": "every sequence of loads and mode switches", "why_tests_cant": "arbitrary switch histories", "anchors": ["src/DRAMPower/DRAMPower/util/databus.h", "src/DRAMPower/DRAMPower/util/databus_presets.h"]}
{"id": "C43", "title": "Measurement loops reproduce the data-sheet currents", "statement": "For the statistics of each measurement loop of the data sheet (activate/precharge of one bank, all banks precharged or active, power-down, self-refresh, deep sleep, back-to-back reads or writes, all-bank, same-bank, per-bank and dual-bank refresh), the core energy calculated for a rank equals devices x voltage x the corresponding data-sheet current (IDD0, IDD2N, IDD3N, IDD2P, IDD3P, IDD6, IDD6DS, IDD4R, IDD4W, IDD5, IDD5C, IDD5PB) x duration, summed over the voltage domains.", "quantifier": "every standard and every power specification without a vanishing divisor", "why_tests_cant": "all combinations of currents, timings, bank counts and device counts", "anchors": ["src/DRAMPower/DRAMPower/standards/ddr4/core_calculation_DDR4.cpp", "src/DRAMPower/DRAMPower/standards/ddr5/core_calculation_DDR5.cpp", "src/DRAMPower/DRAMPower/standards/lpddr4/core_calculation_LPDDR4.cpp", "src/DRAMPower/DRAMPower/standards/lpddr5/core_calculation_LPDDR5.cpp", "src/DRAMPower/DRAMPower/standards/lpddr6/core_calculation_LPDDR6.cpp"]}
{"id": "C44", "title": "The derived bank organisation is consistent", "statement": "After construction from a memory specification the number of banks equals the number of bank groups times the banks per group; the LPDDR5 bank mode (16 banks, 4 groups of 4, 8 banks) matches the configured numbers; with partial-array self-refresh the banks refreshed are exactly the documented part (half, quarter, eighth; lower or upper) of the array; the refresh mode selects both the refresh time and the refresh current of every voltage domain.", "quantifier": "every memory specification accepted by the constructor", "why_tests_cant": "all combinations of bank counts, group counts, PASR modes and refresh modes", "anchors": ["src/DRAMPower/DRAMPower/memspec/MemSpecDDR4.cpp", "src/DRAMPower/DRAMPower/memspec/MemSpecDDR5.cpp", "src/DRAMPower/DRAMPower/memspec/MemSpecLPDDR4.cpp", "src/DRAMPower/DRAMPower/memspec/MemSpecLPDDR5.cpp", "src/DRAMPower/DRAMPower/memspec/MemSpecLPDDR6.cpp"]}
{"id": "C45", "title": "Interface energy is the sum over the signals", "statement": "The interface energy is the sum over the groups of wires of the standard (clock, data clock, command bus, strobes, data in bus and in toggling-rate mode, inversion pins), each counted once and charged to the side that drives it: static energy V^2/R times the time at the level that draws current through the termination (only if the group is terminated), dynamic energy per rising edge; for DDR4 in addition one pre/postamble per transfer that does not follow its predecessor without a gap.", "quantifier": "all standards, specifications without zero divisors and statistics", "why_tests_cant": "tests fix the statistics by hand, including counters the simulator never fills, and terminate every group", "anchors": ["src/DRAMPower/DRAMPower/standards/ddr4/interface_calculation_DDR4.cpp", "src/DRAMPower/DRAMPower/standards/ddr5/interface_calculation_DDR5.cpp", "src/DRAMPower/DRAMPower/standards/lpddr4/interface_calculation_LPDDR4.cpp", "src/DRAMPower/DRAMPower/standards/lpddr5/interface_calculation_LPDDR5.cpp", "src/DRAMPower/DRAMPower/standards/lpddr6/interface_calculation_LPDDR6.cpp"]}
{"id": "C46", "title": "Interface energy is non-negative, additive and monotone", "statement": "With non-negative parameters every part of the interface energy is non-negative; no activity needs no energy; the energy of the sum of two statistics is the sum of their energies, so more activity never needs less energy; the total energy a simulator reports is the sum of the core and the interface energy it reports separately.", "quantifier": "all standards, specifications, pairs of statistics; for the total all simulator states and times", "why_tests_cant": "algebraic laws over all statistics", "anchors": ["src/DRAMPower/DRAMPower/standards/ddr4/interface_calculation_DDR4.cpp", "src/DRAMPower/DRAMPower/standards/ddr5/interface_calculation_DDR5.cpp", "src/DRAMPower/DRAMPower/standards/lpddr4/interface_calculation_LPDDR4.cpp", "src/DRAMPower/DRAMPower/standards/lpddr5/interface_calculation_LPDDR5.cpp", "src/DRAMPower/DRAMPower/standards/lpddr6/interface_calculation_LPDDR6.cpp", "src/DRAMPower/DRAMPower/dram/dram_base.h"]}
{"id": "C47", "title": "Strobes toggle once per transferred beat", "statement": "After any accepted sequence of commands the read strobes have made exactly one half-cycle per wire for each beat of read data transferred up to the time of the query, and the write strobes (where the standard has them) one for each beat of write data; outside of bursts they are still. The number of strobe wires follows from the device width.", "quantifier": "all standards, specifications, accepted command sequences and query times, in bus and toggling-rate mode", "why_tests_cant": "tests query selected traces after the last burst, with data rate 2 and burst lengths divisible by it", "anchors": ["src/DRAMPower/DRAMPower/standards/ddr4/DDR4Interface.cpp", "src/DRAMPower/DRAMPower/standards/ddr5/DDR5Interface.cpp", "src/DRAMPower/DRAMPower/standards/lpddr4/LPDDR4Interface.cpp", "src/DRAMPower/DRAMPower/standards/lpddr5/LPDDR5Interface.cpp", "src/DRAMPower/DRAMPower/standards/lpddr6/LPDDR6Interface.cpp", "src/DRAMPower/DRAMPower/util/clock.h"]}
{"id": "C48", "title": "The command bus carries the commands", "statement": "The reported command-bus figures of an accepted sequence of commands are the sums over the beats of one waveform: each command sent puts, from its time on, the levels of its own pattern (fixed bits, its coordinate bits, burst bits of its own transfer) on the wires, one pattern position per wire and beat in order, and the bus is at its idle level otherwise. Nothing in the levels of a command depends on earlier commands; each wire is counted once per beat.", "quantifier": "all standards, specifications, accepted command sequences and query times", "why_tests_cant": "tests compare selected traces with hand-computed totals; encoder state left by earlier transfers needs specific sequences", "anchors": ["src/DRAMPower/DRAMPower/standards/ddr4/DDR4Interface.cpp", "src/DRAMPower/DRAMPower/standards/ddr5/DDR5Interface.cpp", "src/DRAMPower/DRAMPower/standards/lpddr4/LPDDR4Interface.cpp", "src/DRAMPower/DRAMPower/standards/lpddr5/LPDDR5Interface.cpp", "src/DRAMPower/DRAMPower/standards/lpddr6/LPDDR6Interface.cpp", "src/DRAMPower/DRAMPower/command/Pattern.cpp", "src/DRAMPower/DRAMPower/standards/lpddr6/LPDDR6Pattern.cpp", "src/DRAMPower/DRAMPower/util/PatternHandler.h", "src/DRAMPower/DRAMPower/util/bus.h"]}
{"id": "C49", "title": "The data bus carries the payloads", "statement": "The reported read-bus and write-bus figures of an accepted sequence of commands are the sums over the beats of one waveform per direction: each transfer with payload puts, from its time on and one word per beat, its payload on the wires (inverted per chunk when inversion is on and the chunk costs more than half, for LPDDR6 interleaved with the current metadata and the inversion flags), and the bus is at its idle level otherwise. In toggling-rate mode the figures are those of the configured rates for the beats in which the direction transfers data and the beats in which it does not. The figures of the mode not in use stay as they are.", "quantifier": "all standards, specifications, accepted command sequences with changes of inversion and metadata, and query times", "why_tests_cant": "tests compare selected traces with constant payloads or hand-computed totals", "anchors": ["src/DRAMPower/DRAMPower/standards/ddr4/DDR4Interface.cpp", "src/DRAMPower/DRAMPower/standards/ddr5/DDR5Interface.cpp", "src/DRAMPower/DRAMPower/standards/lpddr4/LPDDR4Interface.cpp", "src/DRAMPower/DRAMPower/standards/lpddr5/LPDDR5Interface.cpp", "src/DRAMPower/DRAMPower/standards/lpddr6/LPDDR6Interface.cpp", "src/DRAMPower/DRAMPower/util/databus.h", "src/DRAMPower/DRAMPower/util/dbi.h", "src/DRAMPower/DRAMPower/util/bus.h", "src/DRAMPower/DRAMPower/util/burst_storage.h", "src/DRAMPower/DRAMPower/dram/Interface.cpp"]}
{"id": "C50", "title": "One time base for counting and charging", "statement": "For every wire that always has a level (clock and data clock unless stopped, command bus, data bus in bus mode, inversion pins) the number of counted levels times the duration the energy calculation charges for one level is the elapsed time. In toggling-rate mode it falls short by at most one beat per wire; for strobes it is the duration of the transferred beats.", "quantifier": "all standards, specifications, accepted command sequences and query times", "why_tests_cant": "tests check the counted figures or the energies of given figures, with shipped rates; never that both use the same unit of time", "anchors": ["src/DRAMPower/DRAMPower/standards/ddr4/DDR4Interface.cpp", "src/DRAMPower/DRAMPower/standards/ddr5/DDR5Interface.cpp", "src/DRAMPower/DRAMPower/standards/lpddr4/LPDDR4Interface.cpp", "src/DRAMPower/DRAMPower/standards/lpddr5/LPDDR5Interface.cpp", "src/DRAMPower/DRAMPower/standards/lpddr6/LPDDR6Interface.cpp", "src/DRAMPower/DRAMPower/standards/ddr4/interface_calculation_DDR4.cpp", "src/DRAMPower/DRAMPower/standards/ddr5/interface_calculation_DDR5.cpp", "src/DRAMPower/DRAMPower/standards/lpddr4/interface_calculation_LPDDR4.cpp", "src/DRAMPower/DRAMPower/standards/lpddr5/interface_calculation_LPDDR5.cpp", "src/DRAMPower/DRAMPower/standards/lpddr6/interface_calculation_LPDDR6.cpp", "src/DRAMPower/DRAMPower/util/clock.h", "src/DRAMPower/DRAMPower/util/pin.h", "src/DRAMPower/DRAMPower/util/bus.h"]}
{"id": "C51", "title": "Core and interface agree on the duration of a burst", "statement": "The read and write energy of the core for a sequence of full bursts is, in every voltage domain, the additional power of a transfer times the time for which the strobes of the direction toggle.", "quantifier": "all standards, specifications, currents and accepted sequences of full bursts", "why_tests_cant": "core and interface energies are tested separately, each against its own formula", "anchors": ["src/DRAMPower/DRAMPower/standards/ddr4/DDR4Interface.cpp", "src/DRAMPower/DRAMPower/standards/ddr5/DDR5Interface.cpp", "src/DRAMPower/DRAMPower/standards/lpddr4/LPDDR4Interface.cpp", "src/DRAMPower/DRAMPower/standards/lpddr5/LPDDR5Interface.cpp", "src/DRAMPower/DRAMPower/standards/lpddr6/LPDDR6Interface.cpp", "src/DRAMPower/DRAMPower/standards/ddr4/core_calculation_DDR4.cpp", "src/DRAMPower/DRAMPower/standards/ddr5/core_calculation_DDR5.cpp", "src/DRAMPower/DRAMPower/standards/lpddr4/core_calculation_LPDDR4.cpp", "src/DRAMPower/DRAMPower/standards/lpddr5/core_calculation_LPDDR5.cpp", "src/DRAMPower/DRAMPower/standards/lpddr6/core_calculation_LPDDR6.cpp", "src/DRAMPower/DRAMPower/memspec/MemSpecLPDDR5.cpp", "src/DRAMPower/DRAMPower/memspec/MemSpecLPDDR6.cpp"]}
{"id": "C52", "title": "The inversion pins carry the inversion flags", "statement": "The reported figures of the read and write inversion pins of an accepted sequence of commands are the sums over the beats of one waveform per pin: during a transfer with payload and inversion switched on, beat k of pin p is at the marking level if byte p of the k-th word of the payload is inverted; at all other times the pin is at its idle level. Standards without such pins report none, and an inverted transfer is accepted whenever the same transfer without inversion is.", "quantifier": "all standards, specifications, accepted command sequences whose payloads fill whole beats, with changes of the inversion setting, and query times", "why_tests_cant": "tests look at single bursts or seamless pairs with few patterns; the pin waveform over gaps and idle times is never compared", "anchors": ["src/DRAMPower/DRAMPower/standards/ddr4/DDR4Interface.cpp", "src/DRAMPower/DRAMPower/standards/lpddr4/LPDDR4Interface.cpp", "src/DRAMPower/DRAMPower/standards/lpddr5/LPDDR5Interface.cpp", "src/DRAMPower/DRAMPower/util/dbi.h", "src/DRAMPower/DRAMPower/util/pin.h", "src/DRAMPower/DRAMPower/util/burst_storage.h"]}
{"id": "C53", "title": "Total energy is non-negative and never decreases when the window grows", "statement": "After an executed sequence of legal commands, the total energy reported for a window is never negative, and the total energy of a longer window (both ending after the last command) is at least as large; the same holds for every component of the core energy of every bank, for every shared component, for static and dynamic interface energy of controller and memory, and for every figure of every group of wires.", "quantifier": "all standards, specifications with physically meaningful currents and wires, legal command sequences, pairs of query times", "why_tests_cant": "tests query one time per trace; the energy as a function of the window is never examined, and counters that wrap show up only for long windows", "anchors": ["src/DRAMPower/DRAMPower/dram/dram_base.h", "src/DRAMPower/DRAMPower/standards/ddr4/DDR4.cpp", "src/DRAMPower/DRAMPower/standards/ddr5/DDR5.cpp", "src/DRAMPower/DRAMPower/standards/lpddr4/LPDDR4.cpp", "src/DRAMPower/DRAMPower/standards/lpddr5/LPDDR5.cpp", "src/DRAMPower/DRAMPower/standards/lpddr6/LPDDR6.cpp"]}
{"id": "C54", "title": "The command line tool reads a trace file as written", "statement": "A trace file whose rows are timestamp, command name, rank, bank group, bank, row, column and (for reads and writes) payload is read as exactly one command per row, in order, with these numbers, this command and this payload; if some row does not have this form, reading reports failure.", "quantifier": "all trace files (any number of rows and fields, any strings)", "why_tests_cant": "the tests read a few well formed files; malformed numbers, unknown names and numbers near the limits of the types are never read", "anchors": ["src/cli/lib/DRAMPower/cli/run.cpp", "src/cli/lib/DRAMPower/cli/csv.hpp"]}
{"id": "C55", "title": "The command line tool reports the energy of the trace", "statement": "The command line tool ends with status 0 and reports, with the right rank, device and bank for each entry, the core energy, interface energy and total energy the library calculates for the commands of the trace file at the time of the last one; or it ends with another status and reports nothing.", "quantifier": "all standards, specifications, trace files, arguments and output targets", "why_tests_cant": "the tool is not run by the unit tests; exit status and report for rejected input are never examined", "anchors": ["src/cli/lib/DRAMPower/cli/run.cpp", "src/cli/main/main.cpp"]}
{"id": "C56", "title": "Saving and restoring a whole simulator is lossless", "statement": "A simulator (extensions, core and interface together) is brought into any state by any calls, saved while it says that it can be saved, and loaded into a newly constructed one. Then exactly the bytes written are consumed, and every later session gets the same replies from both: statistics, energies, last command time, whether it can be saved, and what the extensions report.", "quantifier": "all standards, specifications, histories of calls (commands, extension calls, queries), later sessions and trailing bytes", "why_tests_cant": "the tests compare the statistics of one short trace; histories that use extensions before saving and sessions after restoring are not compared", "anchors": ["src/DRAMPower/DRAMPower/dram/dram_base.h", "src/DRAMPower/DRAMPower/util/extension_manager.h", "src/DRAMPower/DRAMPower/util/extensions.h", "src/DRAMPower/DRAMPower/util/extensions.cpp", "src/DRAMPower/DRAMPower/standards/lpddr6/LPDDR6.cpp"]}
{"id": "C57", "title": "What the extensions report is what the data bus does", "statement": "Inversion and metadata set through the extensions of a simulator are reported as they were last set; a device that refuses inversion answers false and keeps reporting off. The data bus statistics of every window are those of bursts each of which is inverted, and accompanied by the metadata words, exactly as the extensions report when the burst begins; this also holds after saving and restoring.", "quantifier": "all standards, specifications, sessions that use the extensions, and windows", "why_tests_cant": "the tests switch inversion on once at the beginning; switching between bursts, refused settings and restored simulators are not compared with the reports", "anchors": ["src/DRAMPower/DRAMPower/util/extensions.h", "src/DRAMPower/DRAMPower/util/extensions.cpp", "src/DRAMPower/DRAMPower/standards/ddr4/DDR4.cpp", "src/DRAMPower/DRAMPower/standards/lpddr4/LPDDR4.cpp", "src/DRAMPower/DRAMPower/standards/lpddr5/LPDDR5.cpp", "src/DRAMPower/DRAMPower/standards/lpddr6/LPDDR6.cpp"]}
{"id": "C58", "title": "Simulators do not influence each other", "statement": "Simulators are constructed, copied, destroyed and called in any order. Every call on an existing simulator is answered as a simulator on its own would answer it after the same calls; for a copy these are the calls made to its source before the copy was made, followed by its own.", "quantifier": "all standards, all programs of constructions, copies, destructions and calls", "why_tests_cant": "the tests never copy a simulator, and never keep two with different settings", "anchors": ["src/DRAMPower/DRAMPower/dram/dram_base.h", "src/DRAMPower/DRAMPower/util/extension_manager.h", "src/DRAMPower/DRAMPower/standards/ddr4/DDR4.h", "src/DRAMPower/DRAMPower/standards/ddr4/DDR4Interface.cpp", "src/DRAMPower/DRAMPower/standards/lpddr4/LPDDR4Interface.cpp", "src/DRAMPower/DRAMPower/standards/lpddr5/LPDDR5Interface.cpp"]}
{"id": "C59", "title": "Trace files are split into rows and fields as they are written", "statement": "A trace file given to the command line tool whose lines hold values separated by commas, with blanks or tabulators around the values, line ends of Unix or Windows, empty lines and an optional byte order mark, is read as exactly these rows of these values, for every file size; rows that describe commands become these commands.", "quantifier": "all rows of plain values, all ways to write them, all file sizes", "why_tests_cant": "the test traces are small, have Unix line ends and no empty lines; the behaviour depends on where a chunk of ten million bytes ends", "anchors": ["src/cli/lib/DRAMPower/cli/csv.hpp", "src/cli/lib/DRAMPower/cli/run.cpp"]}
{"id": "C60", "title": "The report of the command line tool is complete", "statement": "The JSON document and the standard output of the command line tool show every part of the calculated energy under its name: the parts of every bank at the one entry of its rank, device and bank, the shared parts and the parts of the interface (a part that is not shown is zero). The parts shown add up to the total that is shown.", "quantifier": "all standards, specifications, statistics and trace files the tool accepts", "why_tests_cant": "the tests never look at the output of the tool", "anchors": ["src/cli/lib/DRAMPower/cli/run.cpp", "src/cli/lib/DRAMPower/cli/util.hpp", "src/DRAMPower/DRAMPower/data/energy.cpp"]}
{"id": "C61", "title": "Rounding does not change the core energy noticeably", "statement": "The core energy is computed with double precision numbers. The calculation succeeds exactly when the exact one does, every reported part of the energy of a bank differs from the exact value by at most 2e-13 of the energy of the largest current of the specification during the time the part is charged for, and shared parts and the total differ by at most 5e-15 of that scale for each rank and bank summed up (plus a constant).", "quantifier": "all standards, specifications with non-negative numbers, statistics, and all ways to round to 53 bits", "why_tests_cant": "tests compare a few results with a tolerance; the formulas subtract currents of similar size, so that the error has to be bounded for all of them", "anchors": ["src/DRAMPower/DRAMPower/standards/ddr4/core_calculation_DDR4.cpp", "src/DRAMPower/DRAMPower/standards/ddr5/core_calculation_DDR5.cpp", "src/DRAMPower/DRAMPower/standards/lpddr4/core_calculation_LPDDR4.cpp", "src/DRAMPower/DRAMPower/standards/lpddr5/core_calculation_LPDDR5.cpp", "src/DRAMPower/DRAMPower/standards/lpddr6/core_calculation_LPDDR6.cpp", "src/DRAMPower/DRAMPower/data/energy.cpp"]}
{"id": "C62", "title": "Reported energies are non-negative and monotone in double precision", "statement": "For specifications whose active, refresh and burst currents are at least the background currents, every part of the reported core energy, computed with double precision numbers, is non-negative, and more commands or cycles never decrease it.", "quantifier": "all standards, such specifications, and pairs of statistics", "why_tests_cant": "the sign of a difference of two rounded currents depends on the last bits of the specification", "anchors": ["src/DRAMPower/DRAMPower/standards/ddr4/core_calculation_DDR4.cpp", "src/DRAMPower/DRAMPower/standards/ddr5/core_calculation_DDR5.cpp", "src/DRAMPower/DRAMPower/standards/lpddr4/core_calculation_LPDDR4.cpp", "src/DRAMPower/DRAMPower/standards/lpddr5/core_calculation_LPDDR5.cpp", "src/DRAMPower/DRAMPower/standards/lpddr6/core_calculation_LPDDR6.cpp", "src/DRAMPower/DRAMPower/data/energy.cpp"]}
{"id": "C63", "title": "The check of the output path is honest", "statement": "The check of the path given with --json always ends with an answer. If the path is accepted, opening it for writing reaches a regular file, which is new and empty if there was none; if it is refused, no regular file can be written through it. No other file is created or changed.", "quantifier": "all paths, relative or absolute, and all states of the file system, including symbolic links, directories, special files and directories without write permission", "why_tests_cant": "the outcome depends on the directory the tool is started in and on how links in the path are stored; tests use plain files in one directory", "anchors": ["src/cli/main/validators.cpp", "src/cli/main/validators.h", "src/cli/main/main.cpp"]}
{"id": "C64", "title": "A trace that starts later is the same trace", "statement": "If d is added to every time stamp of a trace in which auto-precharge commands follow an activation of their bank, the core accepts it or refuses it as before and for the same reason, the time of the last command is d later, and the statistics at t + d are those of the original trace at t in every counter and every cycle count of every bank and rank, except the time in precharged standby, which is exactly d longer.", "quantifier": "all standards, memory specifications, delays, window times and traces, legal or not, in which every RDA and WRA comes after an ACT to the same bank and, except for DDR4, no command has time 0 or none is PDXA", "why_tests_cant": "tests start their traces at time 0 with fixed numbers; a dependence on the absolute time shows only when the same trace is run at many offsets", "anchors": ["src/DRAMPower/DRAMPower/standards/ddr4/DDR4Core.cpp", "src/DRAMPower/DRAMPower/standards/ddr5/DDR5Core.cpp", "src/DRAMPower/DRAMPower/standards/lpddr4/LPDDR4Core.cpp", "src/DRAMPower/DRAMPower/standards/lpddr5/LPDDR5Core.cpp", "src/DRAMPower/DRAMPower/standards/lpddr6/LPDDR6Core.cpp", "src/DRAMPower/DRAMPower/util/ImplicitCommandHandler.h", "src/DRAMPower/DRAMPower/util/cycle_stats.h"]}
{"id": "C65", "title": "The interface energy is accurate, non-negative and monotone in double precision", "statement": "The interface energy is computed with double precision numbers. The calculation succeeds exactly when the exact one does; static and dynamic energy of controller and memory, and their total, differ from the exact values by at most 1e-14 of these values; none is negative, and more lossy levels, edges and pre/postambles never decrease any of them.", "quantifier": "all standards, specifications with non-negative numbers, statistics, pairs of statistics, and all ways to round to 53 bits (for the last part those that keep the order)", "why_tests_cant": "tests compare a few results with a tolerance; a bound on the relative error has to hold for all parameters and counts", "anchors": ["src/DRAMPower/DRAMPower/standards/ddr4/interface_calculation_DDR4.cpp", "src/DRAMPower/DRAMPower/standards/ddr5/interface_calculation_DDR5.cpp", "src/DRAMPower/DRAMPower/standards/lpddr4/interface_calculation_LPDDR4.cpp", "src/DRAMPower/DRAMPower/standards/lpddr5/interface_calculation_LPDDR5.cpp", "src/DRAMPower/DRAMPower/standards/lpddr6/interface_calculation_LPDDR6.cpp", "src/DRAMPower/DRAMPower/data/energy.h"]}
{"id": "C66", "title": "Banks of a rank are independent while the rank is not powered down", "statement": "As long as a rank gets no power-down command, the statistics reported for one of its banks (command counters and cycles) depend only on the commands that concern this bank: those addressed to it, to a set of banks that contains it, or to the whole rank. Removing all other commands from an accepted trace leaves an accepted trace with the same report for the bank at every window end.", "quantifier": "all standards, memory specifications, accepted traces (legal or not), ranks, banks and window ends not before the last command", "why_tests_cant": "tests use a few traces; interference between banks through the shared queue of deferred commands or the shared rank state shows only for particular interleavings", "anchors": ["src/DRAMPower/DRAMPower/standards/ddr4/DDR4Core.cpp", "src/DRAMPower/DRAMPower/standards/ddr5/DDR5Core.cpp", "src/DRAMPower/DRAMPower/standards/lpddr4/LPDDR4Core.cpp", "src/DRAMPower/DRAMPower/standards/lpddr5/LPDDR5Core.cpp", "src/DRAMPower/DRAMPower/standards/lpddr6/LPDDR6Core.cpp", "src/DRAMPower/DRAMPower/util/ImplicitCommandHandler.h", "src/DRAMPower/DRAMPower/dram/Rank.cpp"]}
{"id": "C67", "title": "The core energy is the power drawn over time", "statement": "After a legal command sequence, the total core energy reported for a window is the energy that follows from the data sheet: in every clock cycle each rank draws the current of the state it is in (precharged, active with as many banks as are open or refreshing, active or precharge power-down, self-refresh, deep sleep); every activation, read, write and refresh command moves its charge once, whatever number of banks it addresses; every row that is closed, by command or automatically, moves the charge of a precharge; all this times the voltage, over all voltage domains, ranks and devices. A longer window adds the background of the additional cycles and the precharges that fall into them, nothing else.", "quantifier": "all standards, memory specifications (a burst being a whole number of data clock cycles), legal command sequences, window ends not before the last command", "why_tests_cant": "tests compare the energy of some traces with constants computed by the same formulas; they cannot show that command handling, counters and formulas together account for every cycle and every command of every trace exactly once", "anchors": ["src/DRAMPower/DRAMPower/standards/ddr4/core_calculation_DDR4.cpp", "src/DRAMPower/DRAMPower/standards/ddr5/core_calculation_DDR5.cpp", "src/DRAMPower/DRAMPower/standards/lpddr4/core_calculation_LPDDR4.cpp", "src/DRAMPower/DRAMPower/standards/lpddr5/core_calculation_LPDDR5.cpp", "src/DRAMPower/DRAMPower/standards/lpddr6/core_calculation_LPDDR6.cpp", "src/DRAMPower/DRAMPower/standards/ddr4/DDR4Core.cpp", "src/DRAMPower/DRAMPower/standards/ddr5/DDR5Core.cpp", "src/DRAMPower/DRAMPower/standards/lpddr4/LPDDR4Core.cpp", "src/DRAMPower/DRAMPower/standards/lpddr5/LPDDR5Core.cpp", "src/DRAMPower/DRAMPower/standards/lpddr6/LPDDR6Core.cpp", "src/DRAMPower/DRAMPower/dram/Rank.cpp", "src/DRAMPower/DRAMPower/data/energy.cpp"]}
{"id": "C68", "title": "The router calls the handler registered last", "statement": "After any sequence of registrations, executing a command runs exactly one handler, once and with that command: the one registered last for the type of the command, or, if none was registered for it, the default handler given at construction; if none was given, nothing happens. Registrations for one type do not affect other types. The number of types stays constant, and a type outside the enumeration can neither be registered nor executed.", "quantifier": "all default handlers, registration sequences, handlers and commands", "why_tests_cant": "there are no tests of the router; a test could try single sequences only", "anchors": ["src/DRAMPower/DRAMPower/util/Router.h", "src/DRAMPower/DRAMPower/command/CmdType.h"]}
{"id": "C69", "title": "The static extension manager calls every function for every supporting extension", "statement": "Invoking a hook calls each given function exactly once for each extension of the manager that supports one of the given hooks, and for no other: extensions in the order of the template arguments, for each of them the functions in the order of the arguments. Functions may change the extension they are called for and what they have captured, and later calls see it. Extensions that do not support the hook, and visitors of other extensions, leave an extension unchanged.", "quantifier": "all extension tuples, supported hooks, hooks, lists of functions and states", "why_tests_cant": "the tests have one extension and one function per call, so they see neither the order nor that other extensions are left alone", "anchors": ["src/DRAMPower/DRAMPower/util/extension_manager_static.h", "tests/tests_misc/test_static_extension_manager.cpp"]}
{"id": "C70", "title": "The interface energy is that of the waveforms", "statement": "After an accepted command sequence, queried when all bursts have ended, the interface energy is the energy of what the trace puts on the wires: the clock toggles in every cycle, the data clock at its multiple of the clock, always or during bursts as configured; every command puts its own levels on the command bus, every burst its payload (or its rates) on the data bus, its inversion flags on the inversion pins, and one strobe edge per beat, for DDR4 with a pre- and postamble unless it follows without a gap; each terminated wire takes V squared over R while it is at the level that draws a current, each rising edge its charge. The total energy of a simulator is this plus the core energy of the trace.", "quantifier": "all standards, memory specifications, interface configurations (bits, rates, inversion, widths), accepted command sequences and query times after the last burst", "why_tests_cant": "tests compare the energies of a few traces with constants; that every wire of every command is charged exactly once, and with the right duration, depends on the interplay of encoder, busses, clocks, pins and formulas", "anchors": ["src/DRAMPower/DRAMPower/standards/ddr4/interface_calculation_DDR4.cpp", "src/DRAMPower/DRAMPower/standards/ddr5/interface_calculation_DDR5.cpp", "src/DRAMPower/DRAMPower/standards/lpddr4/interface_calculation_LPDDR4.cpp", "src/DRAMPower/DRAMPower/standards/lpddr5/interface_calculation_LPDDR5.cpp", "src/DRAMPower/DRAMPower/standards/lpddr6/interface_calculation_LPDDR6.cpp", "src/DRAMPower/DRAMPower/standards/ddr4/DDR4Interface.cpp", "src/DRAMPower/DRAMPower/standards/ddr5/DDR5Interface.cpp", "src/DRAMPower/DRAMPower/standards/lpddr4/LPDDR4Interface.cpp", "src/DRAMPower/DRAMPower/standards/lpddr5/LPDDR5Interface.cpp", "src/DRAMPower/DRAMPower/standards/lpddr6/LPDDR6Interface.cpp", "src/DRAMPower/DRAMPower/dram/dram_base.h"]}
{"id": "C71", "title": "The numbering of ranks and banks does not matter", "statement": "If the ranks and the banks within each rank of an accepted command sequence are given other numbers, where for DDR5 the banks of equal number in their groups stay together and for LPDDR5 the pairs of the two-bank refresh stay pairs, the sequence is still accepted, every bank and rank has the same statistics and the same energies under its new number, and the total core energy is the same.", "quantifier": "all standards, memory specifications, renumberings of ranks, renumberings of banks that may differ per rank, accepted command sequences (legal or not) ordered in time, query times, power specifications", "why_tests_cant": "tests use a handful of fixed bank numbers; a loop that misses one bank, handles the banks in an order that matters, or an index computed with the wrong stride shows only for particular numbers", "anchors": ["src/DRAMPower/DRAMPower/standards/ddr4/DDR4Core.cpp", "src/DRAMPower/DRAMPower/standards/ddr5/DDR5Core.cpp", "src/DRAMPower/DRAMPower/standards/lpddr4/LPDDR4Core.cpp", "src/DRAMPower/DRAMPower/standards/lpddr5/LPDDR5Core.cpp", "src/DRAMPower/DRAMPower/standards/lpddr6/LPDDR6Core.cpp", "src/DRAMPower/DRAMPower/dram/Rank.cpp", "src/DRAMPower/DRAMPower/standards/ddr4/core_calculation_DDR4.cpp"]}
{"id": "C72", "title": "The total energy is accurate in double", "statement": "getTotalEnergy(t), computed in double, fails exactly when the formulas have no value, and otherwise differs from their exact value by at most (46 + 3 ranks + number of bank entries) * 6e-15 times the energy the largest currents would take in the charged times plus 2e-14 times the exact core and interface energies. Together with C67 and C70 it is that close to the energy of the trace: power of the core over time plus energy of the waveforms.", "quantifier": "all standards, simulator states, query times, memory, power and interface specifications without negative numbers with at most three voltage domains, all roundings with half a unit in the last place", "why_tests_cant": "tests compare with expected values computed in double by the same formulas; a loss of accuracy by cancellation or by a long sum is not visible there", "anchors": ["src/DRAMPower/DRAMPower/dram/dram_base.h", "src/DRAMPower/DRAMPower/data/energy.cpp", "src/DRAMPower/DRAMPower/data/energy.h", "src/DRAMPower/DRAMPower/standards/ddr4/core_calculation_DDR4.cpp", "src/DRAMPower/DRAMPower/standards/ddr5/core_calculation_DDR5.cpp", "src/DRAMPower/DRAMPower/standards/lpddr4/core_calculation_LPDDR4.cpp", "src/DRAMPower/DRAMPower/standards/lpddr5/core_calculation_LPDDR5.cpp", "src/DRAMPower/DRAMPower/standards/lpddr6/core_calculation_LPDDR6.cpp", "src/DRAMPower/DRAMPower/standards/ddr4/interface_calculation_DDR4.cpp", "src/DRAMPower/DRAMPower/standards/ddr5/interface_calculation_DDR5.cpp", "src/DRAMPower/DRAMPower/standards/lpddr4/interface_calculation_LPDDR4.cpp", "src/DRAMPower/DRAMPower/standards/lpddr5/interface_calculation_LPDDR5.cpp", "src/DRAMPower/DRAMPower/standards/lpddr6/interface_calculation_LPDDR6.cpp"]}
{"id": "C73", "title": "The end marker has no influence on the figures", "statement": "END_OF_SIMULATION only tells that a trace is over: a trace with and without it, wherever it stands in time order, is accepted alike, fails with the same error, and gives the same core statistics, interface statistics and total energy at every later query.", "quantifier": "all standards, specifications, traces in time order, positions of the marker, query times not before the last command", "why_tests_cant": "the tests use the marker only as the last command of a trace and compare with recorded figures; no test compares a trace with and without it", "anchors": ["src/DRAMPower/DRAMPower/standards/ddr4/DDR4Core.cpp", "src/DRAMPower/DRAMPower/standards/ddr5/DDR5Core.cpp", "src/DRAMPower/DRAMPower/standards/lpddr4/LPDDR4Core.cpp", "src/DRAMPower/DRAMPower/standards/lpddr5/LPDDR5Core.cpp", "src/DRAMPower/DRAMPower/standards/lpddr6/LPDDR6Core.cpp", "src/DRAMPower/DRAMPower/standards/ddr4/DDR4Interface.cpp", "src/DRAMPower/DRAMPower/standards/ddr5/DDR5Interface.cpp", "src/DRAMPower/DRAMPower/standards/lpddr4/LPDDR4Interface.cpp", "src/DRAMPower/DRAMPower/standards/lpddr5/LPDDR5Interface.cpp", "src/DRAMPower/DRAMPower/standards/lpddr6/LPDDR6Interface.cpp", "src/DRAMPower/DRAMPower/util/dbi.h", "src/DRAMPower/DRAMPower/util/pin.h"]}
{"id": "C74", "title": "Traces run one after the other add up", "statement": "If a legal trace begins when every rank is in normal operation with all banks closed (and, if it uses power-down, the times that delay a power-down have passed), then the joint trace is legal and accepted, and every counter and cycle figure of every bank and rank, and the core energy, is the sum of the figures of the two traces run on their own. A trace repeated n times gives n times its figures.", "quantifier": "all standards, specifications, legal traces, starting times, query times, numbers of repetitions", "why_tests_cant": "tests run single short traces and compare with recorded figures; none compares a concatenation with its parts", "anchors": ["src/DRAMPower/DRAMPower/standards/ddr4/DDR4Core.cpp", "src/DRAMPower/DRAMPower/standards/ddr5/DDR5Core.cpp", "src/DRAMPower/DRAMPower/standards/lpddr4/LPDDR4Core.cpp", "src/DRAMPower/DRAMPower/standards/lpddr5/LPDDR5Core.cpp", "src/DRAMPower/DRAMPower/standards/lpddr6/LPDDR6Core.cpp", "src/DRAMPower/DRAMPower/standards/ddr4/core_calculation_DDR4.cpp", "src/DRAMPower/DRAMPower/standards/ddr5/core_calculation_DDR5.cpp", "src/DRAMPower/DRAMPower/standards/lpddr4/core_calculation_LPDDR4.cpp", "src/DRAMPower/DRAMPower/standards/lpddr5/core_calculation_LPDDR5.cpp", "src/DRAMPower/DRAMPower/standards/lpddr6/core_calculation_LPDDR6.cpp"]}
{"id": "C75", "title": "Measurement loops give back the currents of the data sheet", "statement": "The currents of the data sheet can be measured on the simulator: if after any legal lead-in the measurement loop of IDD0, IDD5, IDD5C or IDD5PB is run any number of times on a rank, or the memory waits in the state of IDD2N, IDD3N, IDD2P, IDD3P, IDD6 or IDD6DS, or reads (IDD4R) or writes (IDD4W) fill the time, then the core energy reported at the end minus that at the beginning is number of devices \u00d7 voltage \u00d7 current \u00d7 time, summed over the ranks (idle ranks draw IDD2N) and voltage domains.", "quantifier": "all standards, specifications, lead-ins, ranks and banks, numbers of repetitions, durations, numbers of bursts", "why_tests_cant": "tests compare the energies of a few fixed statistics with recorded figures; none runs a measurement loop as commands and compares with the current it defines", "anchors": ["src/DRAMPower/DRAMPower/standards/ddr4/DDR4Core.cpp", "src/DRAMPower/DRAMPower/standards/ddr5/DDR5Core.cpp", "src/DRAMPower/DRAMPower/standards/lpddr4/LPDDR4Core.cpp", "src/DRAMPower/DRAMPower/standards/lpddr5/LPDDR5Core.cpp", "src/DRAMPower/DRAMPower/standards/lpddr6/LPDDR6Core.cpp", "src/DRAMPower/DRAMPower/standards/ddr4/core_calculation_DDR4.cpp", "src/DRAMPower/DRAMPower/standards/ddr5/core_calculation_DDR5.cpp", "src/DRAMPower/DRAMPower/standards/lpddr4/core_calculation_LPDDR4.cpp", "src/DRAMPower/DRAMPower/standards/lpddr5/core_calculation_LPDDR5.cpp", "src/DRAMPower/DRAMPower/standards/lpddr6/core_calculation_LPDDR6.cpp"]}
{"id": "C76", "title": "64 bit are enough for the core", "statement": "As long as every time stamp plus the longest delay of the memory specification is below 2^64 (and there are fewer than 2^64 commands), the core, which computes with unsigned 64 bit numbers, accepts and refuses the same traces for the same reason as one with unlimited numbers. All counters and cycle figures of all banks and ranks are the same, for every trace in the order of time whose report is taken at a time below 2^64 / 3, and at any time below 2^64 if the figures add up to the time. No figure except the precharged time and self refresh exceeds the time of the report.", "quantifier": "all standards, specifications, traces in the order of time (legal or not) and query times", "why_tests_cant": "tests use times of a few thousand cycles; no overflow can occur there and no test could enumerate the times near 2^64", "anchors": ["src/DRAMPower/DRAMPower/standards/ddr4/DDR4Core.cpp", "src/DRAMPower/DRAMPower/standards/ddr5/DDR5Core.cpp", "src/DRAMPower/DRAMPower/standards/lpddr4/LPDDR4Core.cpp", "src/DRAMPower/DRAMPower/standards/lpddr5/LPDDR5Core.cpp", "src/DRAMPower/DRAMPower/standards/lpddr6/LPDDR6Core.cpp", "src/DRAMPower/DRAMPower/util/cycle_stats.h", "src/DRAMPower/DRAMPower/util/ImplicitCommandHandler.h"]}
{"id": "C77", "title": "Toggling rates are applied accurately in double precision", "statement": "In toggling-rate mode the products of the rates with the number of transferred beats are computed in double and truncated. The reported ones, zeroes and falling edges per wire differ from the exact products by at most one plus 2^-51 of the beats; ones and zeroes together never exceed the observed beats times the width and miss at most two beats per wire, edges never exceed the beats (up to 2^50 transferred beats); a later query never reports less; how the beats are split into commands makes no difference.", "quantifier": "all rates, widths, histories of transfers, pauses and rate changes, query times up to beat 2^63, all roundings with half a unit in the last place (for the monotonicity those that keep the order)", "why_tests_cant": "whether a product is rounded over an integer before it is truncated depends on the last bit of rate and count", "anchors": ["src/DRAMPower/DRAMPower/dram/Interface.cpp", "src/DRAMPower/DRAMPower/dram/Interface.h"]}
{"id": "C78", "title": "The total energies of traces run one after the other add up", "statement": "If at time T all commands and bursts of a trace have left the wires, and a second trace is run from T on, then the interface energy reported for both is the sum of the interface energies reported for each alone (the first up to T), part by part; if moreover all banks are closed at T as in C74, the same holds for getTotalEnergy. A trace repeated n times takes n times the interface energy.", "quantifier": "all standards, specifications, traces the simulator accepts, times T and t, numbers of repetitions", "why_tests_cant": "tests compare single traces with recorded energies; that nothing leaks from one part of a trace into another over all traces and gaps is a statement about all pairs of runs", "anchors": ["src/DRAMPower/DRAMPower/standards/ddr4/DDR4Interface.cpp", "src/DRAMPower/DRAMPower/standards/ddr5/DDR5Interface.cpp", "src/DRAMPower/DRAMPower/standards/lpddr4/LPDDR4Interface.cpp", "src/DRAMPower/DRAMPower/standards/lpddr5/LPDDR5Interface.cpp", "src/DRAMPower/DRAMPower/standards/lpddr6/LPDDR6Interface.cpp", "src/DRAMPower/DRAMPower/standards/ddr4/interface_calculation_DDR4.cpp", "src/DRAMPower/DRAMPower/standards/ddr5/interface_calculation_DDR5.cpp", "src/DRAMPower/DRAMPower/standards/lpddr4/interface_calculation_LPDDR4.cpp", "src/DRAMPower/DRAMPower/standards/lpddr5/interface_calculation_LPDDR5.cpp", "src/DRAMPower/DRAMPower/standards/lpddr6/interface_calculation_LPDDR6.cpp", "src/DRAMPower/DRAMPower/util/bus.h", "src/DRAMPower/DRAMPower/util/clock.h", "src/DRAMPower/DRAMPower/dram/dram_base.h"]}
{"id": "C79", "title": "64 bits are enough for the figures of the wires", "statement": "The figures of ones, zeroes and transitions that a bus, a clock, a bus described by toggling rates and a DBI pin report are exact although the program computes with 64 bit numbers: for every history of calls and every query, each reported figure that fits into 64 bits is the true one.", "quantifier": "all widths, data rates, idle levels, histories of loads, switching off and on, rates, and all query times below 2^64", "why_tests_cant": "overflow happens only at times near 2^64 beats, which no test reaches", "anchors": ["src/DRAMPower/DRAMPower/util/bus.h", "src/DRAMPower/DRAMPower/util/clock.h", "src/DRAMPower/DRAMPower/util/pin.h", "src/DRAMPower/DRAMPower/util/burst_storage.h", "src/DRAMPower/DRAMPower/dram/Interface.cpp"]}
{"id": "C80", "title": "Values in quotation marks are read as written", "statement": "A value of a trace file may be written in quotation marks, each quotation mark within it twice, blanks around it; it may then contain commas, line ends and quotation marks. The command line tool finds the value as it was meant and the rows of the file, and so the commands they describe.", "quantifier": "all lists of rows, all values that do not begin or end with a blank, all ways to write them, files of any length up to one chunk", "why_tests_cant": "values, positions of quotation marks, commas and line ends, and blanks combine without bound", "anchors": ["src/cli/lib/DRAMPower/cli/csv.hpp", "src/cli/lib/DRAMPower/cli/run.cpp"]}
{"id": "C81", "title": "Every current is charged for the time it flows", "statement": "If a current of the data sheet (IDD0, the current while precharging, IDD4R, IDD4W, IDD5B, IDD5C, IDD5PB, IDD6N, IDD2P, IDD3P, deep sleep) is greater by x in every voltage domain, the simulation does not change, and the energies grow by voltage times x times the time the current is charged for: IDD0 for the row cycle of each activation less what the precharge takes, the precharge current for tRP of each precharge, IDD4R and IDD4W for the duration of each burst, IDD5B for tRFC of each refresh, shared by the banks, IDD6N, IDD2P, IDD3P and the deep sleep current for the time in the state. No other energy changes. (For bursts of whole data clock cycles; the precharge current configured where it or IDD0 is changed.)", "quantifier": "all five standards, all configurations, all statistics, all currents named and amounts", "why_tests_cant": "configurations and statistics are unbounded; a test fixes one figure per current", "anchors": ["src/DRAMPower/DRAMPower/standards/ddr4/core_calculation_DDR4.cpp", "src/DRAMPower/DRAMPower/standards/ddr5/core_calculation_DDR5.cpp", "src/DRAMPower/DRAMPower/standards/lpddr4/core_calculation_LPDDR4.cpp", "src/DRAMPower/DRAMPower/standards/lpddr5/core_calculation_LPDDR5.cpp", "src/DRAMPower/DRAMPower/standards/lpddr6/core_calculation_LPDDR6.cpp"]}
{"id": "C82", "title": "Energies scale with voltages, currents, clock period and devices", "statement": "k times all supply voltages, k times all currents or k times the clock period give k times every energy of the core for the same commands. n devices have each the energies of a single one, and n times its shared and total energy. The energies of several voltage domains are the sums of those of the domains alone. What may be left out of a configuration (devices, bank-wise factor, precharge current) counts as 1, 1 and IDD0.", "quantifier": "all five standards, all configurations and statistics, all factors (for the clock period other than 0), all numbers of devices, all lists of domains", "why_tests_cant": "configurations, statistics and factors are unbounded", "anchors": ["src/DRAMPower/DRAMPower/standards/ddr4/core_calculation_DDR4.cpp", "src/DRAMPower/DRAMPower/standards/ddr5/core_calculation_DDR5.cpp", "src/DRAMPower/DRAMPower/standards/lpddr4/core_calculation_LPDDR4.cpp", "src/DRAMPower/DRAMPower/standards/lpddr5/core_calculation_LPDDR5.cpp", "src/DRAMPower/DRAMPower/standards/lpddr6/core_calculation_LPDDR6.cpp", "src/DRAMPower/DRAMPower/memspec/MemSpec.h"]}
{"id": "C83", "title": "A current that always flows costs voltage times current times elapsed time", "statement": "If a memory draws an additional current x in every voltage domain whatever it does, so that every current of the data sheet is greater by x, the simulation is the same, no command costs more, and the core energy of a legal trace grows by exactly supply voltage times x times the length of the window, for every device of every rank.", "quantifier": "all five standards, all configurations, all currents x, all legal traces and windows that begin with the simulation", "why_tests_cant": "configurations and traces are unbounded; background currents are subtracted from every command's current in a different way per standard, and one wrong subtraction shows only in sums", "anchors": ["src/DRAMPower/DRAMPower/standards/ddr4/core_calculation_DDR4.cpp", "src/DRAMPower/DRAMPower/standards/ddr5/core_calculation_DDR5.cpp", "src/DRAMPower/DRAMPower/standards/lpddr4/core_calculation_LPDDR4.cpp", "src/DRAMPower/DRAMPower/standards/lpddr5/core_calculation_LPDDR5.cpp", "src/DRAMPower/DRAMPower/standards/lpddr6/core_calculation_LPDDR6.cpp", "src/DRAMPower/DRAMPower/standards/lpddr5/LPDDR5Core.cpp"]}
{"id": "C84", "title": "The standards agree on what they have in common", "statement": "The core of every standard accounts for common commands alike: a trace made of commands that two standards have in common, run with the same geometry and timings (and the same delay from activation to access), that is legal for both is accepted by both and yields the same reported statistics, every time and every count of every bank and rank, at every later time.", "quantifier": "all pairs of the five standards, all valid specifications, all traces of common commands legal for both, all query times", "why_tests_cant": "five copies of the command handlers exist; a difference between two copies shows only if the same trace is run with both, and traces are unbounded", "anchors": ["src/DRAMPower/DRAMPower/standards/ddr4/DDR4Core.cpp", "src/DRAMPower/DRAMPower/standards/ddr5/DDR5Core.cpp", "src/DRAMPower/DRAMPower/standards/lpddr4/LPDDR4Core.cpp", "src/DRAMPower/DRAMPower/standards/lpddr5/LPDDR5Core.cpp", "src/DRAMPower/DRAMPower/standards/lpddr6/LPDDR6Core.cpp"]}
{"id": "C85", "title": "From the commands over the trace file to the energy in the output file", "statement": "A program writes commands into a trace file, one line each (time, name, rank, bank group, bank, row, column in decimal, payload with two hexadecimal digits per byte). The command line tool reads back exactly these commands, however many there are; no two sequences give the same file. If the library accepts them the tool ends with status 0 and the document it writes contains the total energy the library returns for these commands at the time of the last one, which is the sum of the energies in the document. If the library refuses them with an exception the tool ends with status 1 and writes no document.", "quantifier": "all five standards, all non-empty sequences of commands in order of time the format can express (63 bit numbers, payloads up to four million bytes), all configurations", "why_tests_cant": "sequences, payloads and configurations are unbounded; chunk borders of the reader fall anywhere", "anchors": ["src/cli/main/main.cpp", "src/cli/lib/DRAMPower/cli/run.cpp", "src/cli/lib/DRAMPower/cli/csv.hpp"]}
{"id": "C86", "title": "Payloads influence the wires that carry them and nothing else", "statement": "If two users make the same calls on two equal simulators and only the bytes of the payloads differ (their number does not), both sessions are accepted or refused alike, with the same error at the same call, and every statistic reported is the same except those of the data buses and the data bus inversion wires; in particular every count and time of banks and ranks, the command bus, clocks and strobes, and the energy of the core. With toggling rates configured all replies are the same.", "quantifier": "all standards, specifications, sessions (commands, extension calls, queries in any order) and pairs of payloads of equal length", "why_tests_cant": "a dependence shows only when two runs with different payloads are compared; tests run one trace with one payload, and the payloads that make a difference (an inverted last beat before a gap) are rare", "anchors": ["src/DRAMPower/DRAMPower/standards/ddr4/DDR4Interface.cpp", "src/DRAMPower/DRAMPower/standards/ddr5/DDR5Interface.cpp", "src/DRAMPower/DRAMPower/standards/lpddr4/LPDDR4Interface.cpp", "src/DRAMPower/DRAMPower/standards/lpddr5/LPDDR5Interface.cpp", "src/DRAMPower/DRAMPower/standards/lpddr6/LPDDR6Interface.cpp", "src/DRAMPower/DRAMPower/util/dbi.h", "src/DRAMPower/DRAMPower/util/databus.h", "src/DRAMPower/DRAMPower/dram/dram_base.h"]}
{"id": "C87", "title": "Rows, columns and bank groups influence the command bus and nothing else", "statement": "If two users make the same calls on two equal simulators and only the row, the column, the bank group and (LPDDR6) the subchannel of the commands differ, while bank and rank are the same, both sessions are accepted or refused alike, with the same error at the same call, and every statistic reported is the same except those of the command bus; in particular the energy of the core.", "quantifier": "all standards, specifications, states, sessions (commands, extension calls, queries in any order) and pairs of addresses", "why_tests_cant": "a dependence shows only when two runs with different addresses are compared, and the address space is far too large to enumerate", "anchors": ["src/DRAMPower/DRAMPower/standards/ddr4/DDR4Interface.cpp", "src/DRAMPower/DRAMPower/standards/ddr5/DDR5Interface.cpp", "src/DRAMPower/DRAMPower/standards/lpddr4/LPDDR4Interface.cpp", "src/DRAMPower/DRAMPower/standards/lpddr5/LPDDR5Interface.cpp", "src/DRAMPower/DRAMPower/standards/lpddr6/LPDDR6Interface.cpp", "src/DRAMPower/DRAMPower/command/Pattern.cpp", "src/DRAMPower/DRAMPower/standards/lpddr6/LPDDR6Pattern.cpp", "src/DRAMPower/DRAMPower/dram/dram_base.h"]}
{"id": "C88", "title": "How the interface energy depends on voltage, clock, resistances, edge energies and termination", "statement": "For the same statistics the static interface energies are proportional to the square of the supply voltage, to the clock period and to the inverse of the equivalent resistances, and the dynamic ones to the energies per rising edge; neither depends on anything else that is scaled. The wires of the reads have no influence on the energy of the controller, the other wires none on the energy of the memory. Termination influences the static energies only, and without any termination these are zero.", "quantifier": "all standards, electrical specifications, statistics and factors", "why_tests_cant": "a wrong factor, exponent or wire is invisible with the single specification file per standard the tests use, in which all resistances are the same", "anchors": ["src/DRAMPower/DRAMPower/standards/ddr4/interface_calculation_DDR4.cpp", "src/DRAMPower/DRAMPower/standards/ddr5/interface_calculation_DDR5.cpp", "src/DRAMPower/DRAMPower/standards/lpddr4/interface_calculation_LPDDR4.cpp", "src/DRAMPower/DRAMPower/standards/lpddr5/interface_calculation_LPDDR5.cpp", "src/DRAMPower/DRAMPower/standards/lpddr6/interface_calculation_LPDDR6.cpp"]}
{"id": "C89", "title": "Accepted traces are in time order and nothing overlaps on the wires", "statement": "If a simulator executes all commands of a trace, then every command that is sent on the command bus starts when the beats of the commands before it are over, so these commands have strictly increasing times; every burst of reads starts when the read bursts before it are over, every burst of writes when the write bursts before it are over, with payloads as well as with toggling rates. No command but the mark for the end of the simulation is earlier than a command before it, and no two bursts overlap on the data wires.", "quantifier": "all standards, specifications and sessions whose calls succeed", "why_tests_cant": "tests only feed traces that are in order; what is silently accepted out of order is not tried", "anchors": ["src/DRAMPower/DRAMPower/util/bus.h", "src/DRAMPower/DRAMPower/dram/Interface.cpp", "src/DRAMPower/DRAMPower/standards/lpddr4/LPDDR4Interface.cpp", "src/DRAMPower/DRAMPower/standards/lpddr4/LPDDR4Core.cpp"]}
{"id": "C90", "title": "Data bus inversion does not make a simulator refuse a trace", "statement": "If every command of a trace finds the command bus free and every data command finds the data bus free and brings the data it announces, then a simulator executes the trace exactly if its core does, and otherwise fails with the error of the core, however data bus inversion and metadata are switched between the commands; no command is executed by the core only.", "quantifier": "all standards, specifications, payloads, traces of any length, and all ways to switch inversion and metadata between the commands", "why_tests_cant": "tests switch inversion on for a few bursts of one length; that a burst is accepted depends on the bytes and lengths of the bursts before it", "anchors": ["src/DRAMPower/DRAMPower/util/dbi.h", "src/DRAMPower/DRAMPower/util/pin.h", "src/DRAMPower/DRAMPower/standards/ddr4/DDR4Interface.cpp", "src/DRAMPower/DRAMPower/standards/lpddr4/LPDDR4Interface.cpp", "src/DRAMPower/DRAMPower/dram/dram_base.h"]}
{"id": "C91", "title": "Every query that is not about the past is answered", "statement": "After any sequence of accepted calls on a simulator, a query of the statistics or of the core, interface or total energy for a time that is not before any time given so far returns a result: it ends neither with an exception nor with a failed assertion.", "quantifier": "all standards, specifications without a division by zero, sessions of any length (commands to the whole simulator, the core or the interface, extensions, earlier queries), and all times that are not before a call", "why_tests_cant": "tests query after the last burst is over and with two beats per cycle; whether a query is answered depends on what the busses, strobes, clocks and inversion lines remember of the session", "anchors": ["src/DRAMPower/DRAMPower/util/bus.h", "src/DRAMPower/DRAMPower/util/pin.h", "src/DRAMPower/DRAMPower/util/clock.h", "src/DRAMPower/DRAMPower/util/databus.h", "src/DRAMPower/DRAMPower/standards/ddr4/DDR4Interface.cpp", "src/DRAMPower/DRAMPower/standards/lpddr4/LPDDR4Interface.cpp", "src/DRAMPower/DRAMPower/standards/lpddr5/LPDDR5Interface.cpp", "src/DRAMPower/DRAMPower/dram/dram_base.h"]}
{"id": "C92", "title": "Data bus inversion never makes the levels of a transfer more expensive", "statement": "Take two simulations of the same commands with payloads, one with data bus inversion switched on and off at will, one without inversion. The first one never reports more levels that draw current (zeroes for DDR4 and DDR5, ones for LPDDR4, LPDDR5 and LPDDR6) on the data wires and inversion lines of a direction together than the second one does at the same time.", "quantifier": "all standards, bus widths, burst lengths, payloads, traces of any length and settings of the inversion during a trace that both simulations accept; the payloads are simulated bit by bit", "why_tests_cant": "tests compare the figures of a few hand-made payloads with inversion; that the inverted bytes and their flags never cost more than they save is a statement about all payloads and needs the figures of both simulations side by side", "anchors": ["src/DRAMPower/DRAMPower/util/dbi.h", "src/DRAMPower/DRAMPower/util/pin.h", "src/DRAMPower/DRAMPower/util/databus.h", "src/DRAMPower/DRAMPower/standards/ddr4/DDR4Interface.cpp", "src/DRAMPower/DRAMPower/standards/lpddr4/LPDDR4Interface.cpp", "src/DRAMPower/DRAMPower/standards/lpddr5/LPDDR5Interface.cpp", "src/DRAMPower/DRAMPower/standards/lpddr6/LPDDR6Interface.cpp"]}
{"id": "C93", "title": "Payloads, inversion and metadata influence the data wires and inversion lines and nothing else", "statement": "Take two sessions on equal simulators that differ at most in the bytes of the payloads (their announced length is the same, a payload may even be missing), in when data bus inversion and metadata are switched, and in calls that only ask. Whenever both sessions are accepted and both queries at a time are answered, the reported figures are the same except those of the data buses and the inversion lines: every count and time of banks and ranks, the command bus, clocks, strobes, preambles and toggling-rate figures, the time of the last command, and the energy of the core.", "quantifier": "all standards, specifications, sessions of any length (commands to the whole simulator, the core or the interface, extensions, earlier queries) and times of the query", "why_tests_cant": "tests compare figures of single traces; that switching inversion in the middle of an arbitrary trace does not leak into strobes, clocks or bank figures is a relation between two arbitrary sessions", "anchors": ["src/DRAMPower/DRAMPower/standards/ddr4/DDR4Interface.cpp", "src/DRAMPower/DRAMPower/standards/lpddr4/LPDDR4Interface.cpp", "src/DRAMPower/DRAMPower/standards/lpddr5/LPDDR5Interface.cpp", "src/DRAMPower/DRAMPower/standards/lpddr6/LPDDR6Interface.cpp", "src/DRAMPower/DRAMPower/util/dbi.h", "src/DRAMPower/DRAMPower/util/databus.h", "src/DRAMPower/DRAMPower/util/extensions.cpp"]}
{"id": "C94", "title": "With data bus inversion at most half of the transferred bits are expensive", "statement": "Take a simulation with data bus inversion switched on before the first command and not switched off. At any query the number of levels that draw current (zeroes for DDR4, ones for LPDDR4, LPDDR5 and LPDDR6) reported for the data wires and inversion lines of a direction together is at most half the number of bits of the transfers of that direction.", "quantifier": "all standards with data bus inversion, bus widths, burst lengths, payloads (whole beats or not), traces of any length and query times that the simulator accepts; the payloads are simulated bit by bit", "why_tests_cant": "the bound is about all payloads and all ways transfers follow each other; tests look at the figures of a few payloads", "anchors": ["src/DRAMPower/DRAMPower/util/dbi.h", "src/DRAMPower/DRAMPower/util/pin.h", "src/DRAMPower/DRAMPower/util/databus.h", "src/DRAMPower/DRAMPower/standards/ddr4/DDR4Interface.cpp", "src/DRAMPower/DRAMPower/standards/lpddr4/LPDDR4Interface.cpp", "src/DRAMPower/DRAMPower/standards/lpddr5/LPDDR5Interface.cpp", "src/DRAMPower/DRAMPower/standards/lpddr6/LPDDR6Interface.cpp"]}
{"id": "C95", "title": "Core and interface do not influence each other", "statement": "Every session with a simulator has two halves: the calls that concern the core, with every command given to the core alone (doCoreCommand), and the calls that concern the interface, with every command given to the interface alone (doInterfaceCommand). The session is accepted exactly if both halves are accepted by new simulators. Then a query at any time is refused exactly when it is refused after the interface half, and its answer consists of the figures of banks and ranks after the core half and of the figures of the wires after the interface half; the time of the last command is the later of the two. The core energy is that after the core half, the interface energy is that after the interface half, and the total energy is their sum. The order in which core and interface are called does not matter: sessions with the same halves leave simulators behind that behave the same for ever, so doCommand may be replaced by doCoreCommand and doInterfaceCommand, also with delays between them.", "quantifier": "all standards, specifications, sessions of any length (commands to both, to the core or to the interface, extensions, queries in between), times of the query, power and wire parameters", "why_tests_cant": "tests call doCommand, or only one half on a fresh simulator; that no interleaving of calls leaks from one half into the other is a relation between three arbitrary sessions", "anchors": ["src/DRAMPower/DRAMPower/dram/dram_base.h", "src/DRAMPower/DRAMPower/standards/ddr4/DDR4.h", "src/DRAMPower/DRAMPower/standards/ddr4/DDR4.cpp", "src/DRAMPower/DRAMPower/standards/ddr4/DDR4Interface.cpp", "src/DRAMPower/DRAMPower/standards/ddr5/DDR5.cpp", "src/DRAMPower/DRAMPower/standards/lpddr4/LPDDR4.cpp", "src/DRAMPower/DRAMPower/standards/lpddr5/LPDDR5.cpp", "src/DRAMPower/DRAMPower/standards/lpddr6/LPDDR6.cpp"]}
{"id": "C96", "title": "A memory left alone draws constant power", "statement": "After a legal trace there is a time from which on every further clock cycle without commands adds the same to the answers of the simulator: one cycle in exactly one state for every bank and every rank, no command, and for each group of wires the same numbers of levels and of edges. Hence there are two numbers p and q such that from then on the core energy grows by p, the interface energy by q and the total energy by p + q in every cycle.", "quantifier": "all standards, valid specifications, legal traces of any length that the simulator accepts, all later query times that it answers, power and wire parameters without division by zero", "why_tests_cant": "tests ask for the statistics at a few times; that nothing keeps changing after the last command (a pending event, a burst, a counter with rounding) is a statement about all later times after arbitrary traces", "anchors": ["src/DRAMPower/DRAMPower/dram/Rank.h", "src/DRAMPower/DRAMPower/dram/Rank.cpp", "src/DRAMPower/DRAMPower/util/clock.h", "src/DRAMPower/DRAMPower/util/bus.h", "src/DRAMPower/DRAMPower/util/pin.h", "src/DRAMPower/DRAMPower/util/databus.h", "src/DRAMPower/DRAMPower/util/ImplicitCommandHandler.h", "src/DRAMPower/DRAMPower/standards/ddr4/DDR4.cpp", "src/DRAMPower/DRAMPower/standards/lpddr5/LPDDR5Interface.cpp", "src/DRAMPower/DRAMPower/standards/lpddr6/LPDDR6Interface.cpp"]}
{"id": "C97", "title": "A precharge power-down moves standby cycles to power-down cycles and changes nothing else", "statement": "Remove from a legal trace the entry to and the exit from one precharge power-down of a rank, between which the rank receives no command. The remaining trace is executed, too, and at any later time the statistics differ only in this: for that rank and each of its banks the cycles between the actual entry (not before the precharges and refreshes under way have ended) and the actual exit are counted as precharged standby instead of precharge power-down. All command counts, all other cycle counts and all other ranks are the same. The core energy differs by that number of cycles times the clock period, times the number of devices, times the sum over the voltage domains of voltage times (IDD2N - IDD2P); it is not larger with the power-down if IDD2P does not exceed IDD2N.", "quantifier": "all standards, valid specifications, legal traces of any length and with any number of ranks, every position of the power-down, all query times after the last command; for the energies all power parameters without division by zero", "why_tests_cant": "tests contain a few power-downs at fixed places; that a power-down has no effect on anything that happens afterwards compares every trace with the one without it", "anchors": ["src/DRAMPower/DRAMPower/dram/Rank.h", "src/DRAMPower/DRAMPower/dram/Rank.cpp", "src/DRAMPower/DRAMPower/dram/Bank.h", "src/DRAMPower/DRAMPower/standards/ddr4/DDR4Core.cpp", "src/DRAMPower/DRAMPower/standards/ddr5/DDR5Core.cpp", "src/DRAMPower/DRAMPower/standards/lpddr4/LPDDR4Core.cpp", "src/DRAMPower/DRAMPower/standards/lpddr5/LPDDR5Core.cpp", "src/DRAMPower/DRAMPower/standards/lpddr6/LPDDR6Core.cpp", "src/DRAMPower/DRAMPower/standards/ddr4/core_calculation_DDR4.cpp"]}
{"id": "C98", "title": "Reads and writes only count", "statement": "Leave out any reads and writes (without auto-precharge) of a trace that is executed. The remaining trace is executed, too, and at any time after the last command all cycle counts of all banks and ranks are the same, and so are all command counts but those of reads and writes, which differ per bank by exactly the commands left out. Conversely, reads and writes of existing banks can be added anywhere to a trace that the core executes, and the core executes it. The core energy differs by the charge of the bursts left out: for each read the number of devices times the sum over the voltage domains of voltage times (IDD4R less the standby current of the banks that are open while IDD4R is measured) times the burst time, for each write the same with IDD4W, if the data rate divides the burst length.", "quantifier": "all standards, all memory specifications, all traces ordered in time that are executed (protocol conforming or not) of any length and with any number of ranks, every choice of reads and writes left out, all query times after the last command; for the energies all power parameters without division by zero", "why_tests_cant": "tests run a few fixed traces; that a read or a write has no effect on anything but its own counter compares every trace with all traces obtained by leaving out some of its accesses", "anchors": ["src/DRAMPower/DRAMPower/dram/Rank.h", "src/DRAMPower/DRAMPower/dram/Bank.h", "src/DRAMPower/DRAMPower/standards/ddr4/DDR4Core.cpp", "src/DRAMPower/DRAMPower/standards/ddr5/DDR5Core.cpp", "src/DRAMPower/DRAMPower/standards/lpddr4/LPDDR4Core.cpp", "src/DRAMPower/DRAMPower/standards/lpddr5/LPDDR5Core.cpp", "src/DRAMPower/DRAMPower/standards/lpddr6/LPDDR6Core.cpp", "src/DRAMPower/DRAMPower/standards/ddr4/core_calculation_DDR4.cpp"]}
{"id": "C99", "title": "An auto-precharge costs as much core energy as the access and an explicit precharge", "statement": "Replace in a legal trace a read or write with auto-precharge by the plain read or write and an explicit precharge of the bank at the time of the auto-precharge (row opened plus tRAS, or access plus the precharge delay, whichever is later). If both traces are legal and executed, the total core energy reported at any time after the last command is the same.", "quantifier": "all standards, valid specifications, legal traces of any length and with any number of ranks and open banks, every access with auto-precharge, all query times after the last command, all power parameters without division by zero, any payloads, rows and columns", "why_tests_cant": "tests compare hand-picked traces with fixed figures; the equality of the energies for every trace and every power specification is a relation between two runs", "anchors": ["src/DRAMPower/DRAMPower/dram/Bank.h", "src/DRAMPower/DRAMPower/standards/ddr4/DDR4Core.cpp", "src/DRAMPower/DRAMPower/standards/ddr5/DDR5Core.cpp", "src/DRAMPower/DRAMPower/standards/lpddr4/LPDDR4Core.cpp", "src/DRAMPower/DRAMPower/standards/lpddr5/LPDDR5Core.cpp", "src/DRAMPower/DRAMPower/standards/lpddr6/LPDDR6Core.cpp", "src/DRAMPower/DRAMPower/standards/ddr4/core_calculation_DDR4.cpp"]}
{"id": "C100", "title": "A precharge of closed banks has no effect", "statement": "Leave out of a trace that is executed any precharges (of one bank, of all banks, of the same bank in all bank groups) all of whose banks are closed already, that is, neither activated nor refreshed since their last precharge or since the beginning. The remaining trace is executed, too, and at any time after the last command all statistics of the core (command counts and cycles of all banks and ranks) and the core energy are the same.", "quantifier": "all standards, valid memory specifications, all traces ordered in time that are executed (protocol conforming or not) of any length and with any number of ranks, every choice of such precharges, all query times after the last command; for the energies all power parameters without division by zero", "why_tests_cant": "tests precharge banks that are open; that a needless precharge leaves no trace in anything that happens later compares every trace with the ones without it", "anchors": ["src/DRAMPower/DRAMPower/dram/Rank.h", "src/DRAMPower/DRAMPower/dram/Bank.h", "src/DRAMPower/DRAMPower/standards/ddr4/DDR4Core.cpp", "src/DRAMPower/DRAMPower/standards/ddr5/DDR5Core.cpp", "src/DRAMPower/DRAMPower/standards/lpddr4/LPDDR4Core.cpp", "src/DRAMPower/DRAMPower/standards/lpddr5/LPDDR5Core.cpp", "src/DRAMPower/DRAMPower/standards/lpddr6/LPDDR6Core.cpp"]}
