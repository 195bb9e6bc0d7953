{
 "claims": [
  {
   "property": "C01",
   "status": "partial",
   "theorems": [
    "DRAMPower.C01_partial",
    "DRAMPower.C01_ddr4",
    "DRAMPower.C01_noActivePowerDown",
    "DRAMPower.C01_violation",
    "DRAMPower.C01_violation'"
   ],
   "note": "Full claim is false of the code for DDR5/LPDDR4/LPDDR5/LPDDR6 in some active power-down situations (C01_violation); proved for every legal DDR4 trace, for every legal trace without active power-down on every standard, and for every legal trace outside the excluded power-down situations."
  },
  {
   "property": "C02",
   "status": "partial",
   "theorems": [
    "DRAMPower.C02_partial",
    "DRAMPower.C02_ddr4",
    "DRAMPower.C02_noActivePowerDown",
    "DRAMPower.C02_timeline_union",
    "DRAMPower.C02_violation"
   ],
   "note": "Full claim is false of the code for DDR5/LPDDR4/LPDDR5/LPDDR6 in some active power-down situations (C02_violation); proved for every legal DDR4 trace, for every legal trace without active power-down on every standard, and for every legal trace outside the excluded power-down situations."
  },
  {
   "property": "C03",
   "status": "partial",
   "theorems": [
    "DRAMPower.C03_partial",
    "DRAMPower.C03_ddr4",
    "DRAMPower.C03_noActivePowerDown",
    "DRAMPower.C03_wrap_visible",
    "DRAMPower.C03_violation"
   ],
   "note": "Full claim is false of the code for DDR5/LPDDR4/LPDDR5/LPDDR6 in some active power-down situations (C03_violation); proved for every legal DDR4 trace, for every legal trace without active power-down on every standard, and for every legal trace outside the excluded power-down situations."
  },
  {
   "property": "C04",
   "status": "partial",
   "theorems": [
    "DRAMPower.C04_partial",
    "DRAMPower.C04_violation"
   ],
   "note": "Proved when no active power-down exit reaches the rank between the activation and the precharge; false otherwise (tRAS is then counted from the power-down exit), witness for every standard."
  },
  {
   "property": "C05",
   "status": "partial",
   "theorems": [
    "DRAMPower.C05_accept_partial",
    "DRAMPower.C05_accept_ddr4",
    "DRAMPower.C05_accept_noActivePowerDown",
    "DRAMPower.C05_accept_violation",
    "DRAMPower.C05_reject",
    "DRAMPower.C05_no_undefined_behaviour",
    "DRAMPower.C05_refp2b_violation"
   ],
   "note": "Acceptance as for C01; rejection proved except for the REFP2B partner bank, which the code does not check (witness)."
  },
  {
   "property": "C06",
   "status": "partial",
   "theorems": [
    "DRAMPower.C06_answers",
    "DRAMPower.C06_acceptance",
    "DRAMPower.C06_final",
    "DRAMPower.C06_getStats_repeat",
    "DRAMPower.C06_getStats_violation"
   ],
   "note": "Proved for getWindowStats; false for getStats, whose window end depends on earlier queries (witness)."
  },
  {
   "property": "C07",
   "status": "proved",
   "theorems": [
    "DRAMPower.C07_same_commands",
    "DRAMPower.C07_drop_other_ranks"
   ],
   "note": ""
  },
  {
   "property": "C08",
   "status": "proved",
   "theorems": [
    "DRAMPower.C08",
    "DRAMPower.C08_once",
    "DRAMPower.C08_search",
    "DRAMPower.C08_search_sorted"
   ],
   "note": ""
  },
  {
   "property": "C09",
   "status": "partial",
   "theorems": [
    "DRAMPower.C09",
    "DRAMPower.C09_sameBankTwice",
    "DRAMPower.C09_pre_partial",
    "DRAMPower.C09_pre_ddr4",
    "DRAMPower.C09_pre_noActivePowerDown",
    "DRAMPower.C09_pre_violation"
   ],
   "note": "All command counters proved for every accepted trace, with REFDB naming the same bank twice counted twice; counter.pre proved for all legal DDR4 traces, all legal traces without active power-down and all tame traces, refuted for the remaining active power-down situations."
  },
  {
   "property": "C10",
   "status": "proved",
   "theorems": [
    "DRAMPower.C10",
    "DRAMPower.C10_effect"
   ],
   "note": ""
  },
  {
   "property": "C11",
   "status": "proved",
   "theorems": [
    "DRAMPower.C11_bounds",
    "DRAMPower.C11_monotone",
    "DRAMPower.C11_after_command"
   ],
   "note": ""
  },
  {
   "property": "C12",
   "status": "partial",
   "theorems": [
    "DRAMPower.C12_counters",
    "DRAMPower.C12_partial",
    "DRAMPower.C12_ddr4",
    "DRAMPower.C12_noActivePowerDown",
    "DRAMPower.C12_violation"
   ],
   "note": "Counters for all accepted traces; cycles as for C01."
  },
  {
   "property": "C13",
   "status": "proved",
   "theorems": [
    "DRAMPower.C13_others",
    "DRAMPower.C13_refresh",
    "DRAMPower.C13_precharge"
   ],
   "note": ""
  },
  {
   "property": "C14",
   "status": "proved",
   "theorems": [
    "DRAMPower.C14"
   ],
   "note": "All standards, all legal traces."
  },
  {
   "property": "C15",
   "status": "proved",
   "theorems": [
    "DRAMPower.C15",
    "DRAMPower.C15_again",
    "DRAMPower.C15_pending_violation"
   ],
   "note": "All standards. The side condition that no implicit command is pending is part of the property; without it the claim is false (C15_pending_violation)."
  },
  {
   "property": "C17",
   "status": "partial",
   "theorems": [
    "DRAMPower.C17_partial",
    "DRAMPower.C17_sums_partial",
    "DRAMPower.C17_accepted",
    "DRAMPower.C17_short_violation"
   ],
   "note": "Proved (including acceptance) for every history of non-overlapping bursts of at least one word; a burst shorter than one word makes the next query trip an assertion (witness). C17_accepted: with short bursts, whatever is accepted is right."
  },
  {
   "property": "C18",
   "status": "partial",
   "theorems": [
    "DRAMPower.C18_partial",
    "DRAMPower.C18_integer",
    "DRAMPower.C18_violation",
    "DRAMPower.C18_stats_violation"
   ],
   "note": "Exact layout proved for every history; the words of a payload are transmitted last word first, so the order part of the claim is false of the code (witnesses in levels and in statistics)."
  },
  {
   "property": "C19",
   "status": "partial",
   "theorems": [
    "DRAMPower.C19_exact",
    "DRAMPower.C19_partial",
    "DRAMPower.C19_violation",
    "DRAMPower.C19_disable0_violation",
    "DRAMPower.C19_load_at_enable"
   ],
   "note": "Exact statistics proved for every accepted history; the claim holds without re-enabling; each enable of a disabled bus at beat e counts e idle beats too many (witness)."
  },
  {
   "property": "C20",
   "status": "partial",
   "theorems": [
    "DRAMPower.C20_partial",
    "DRAMPower.C20_violation"
   ],
   "note": "Proved, including acceptance, for every history of bursts addressed in beats (how all interfaces call it) and queries at any data rate; with a data-rate argument other than 1 `set` multiplies the time twice (witness)."
  },
  {
   "property": "C21",
   "status": "partial",
   "theorems": [
    "DRAMPower.C21_partial",
    "DRAMPower.C21_period",
    "DRAMPower.C21_split_partial",
    "DRAMPower.C21_violation",
    "DRAMPower.C21_any_rate"
   ],
   "note": "Proved for every start/stop history at even data rates; for odd data rates a period with an odd number of half-cycles is rounded down (witness, exact loss in C21_any_rate)."
  },
  {
   "property": "C22",
   "status": "proved",
   "theorems": [
    "DRAMPower.C22",
    "DRAMPower.C22_accept",
    "DRAMPower.C22_split",
    "DRAMPower.C22_bound",
    "DRAMPower.C22_all_bits"
   ],
   "note": "Rates are exact rationals (no double rounding)."
  },
  {
   "property": "C42",
   "status": "partial",
   "theorems": [
    "DRAMPower.C42_shares",
    "DRAMPower.C42_partition",
    "DRAMPower.C42_bus_payloads",
    "DRAMPower.C42_toggle_bits",
    "DRAMPower.C42_stats_partial",
    "DRAMPower.C42_payload_on_wires",
    "DRAMPower.C42_conserved_partial",
    "DRAMPower.C42_presets",
    "DRAMPower.C42_violation"
   ],
   "note": "Each transfer goes to exactly the model of the current mode and the figures are those of the shares, for every history; a transfer cut by a switch is counted only up to the switch (witness), and switching back to bus mode adds the idle beats of C19."
  },
  {
   "property": "C23",
   "status": "partial",
   "theorems": [
    "DRAMPower.C23_partial",
    "DRAMPower.C23_pins",
    "DRAMPower.C23_off",
    "DRAMPower.C23_accept_partial",
    "DRAMPower.C23_violation"
   ],
   "note": "Round trip proved for every accepted burst from every state, every algorithm, chunk width and polarity; acceptance proved for histories of bursts of one size; a longer burst after a shorter one writes inversion flags beyond the vector (undefined behaviour, witness)."
  },
  {
   "property": "C24",
   "status": "partial",
   "theorems": [
    "DRAMPower.C24_static_partial",
    "DRAMPower.C24_static_violation",
    "DRAMPower.C24_dynamic_partial",
    "DRAMPower.C24_seamless_partial",
    "DRAMPower.C24_threshold_violation",
    "DRAMPower.C24_short_violation"
   ],
   "note": "Static: proved for every word width, polarity, payload and state with one word per chunk; false for two words per chunk (LPDDR6, witness). Dynamic: proved for threshold = half the width; false for other thresholds and after single-beat bursts (witnesses)."
  },
  {
   "property": "C25",
   "status": "partial",
   "theorems": [
    "DRAMPower.C25_fixed",
    "DRAMPower.C25_partial",
    "DRAMPower.C25_registered_partial",
    "DRAMPower.C25_names",
    "DRAMPower.C25_lpddr6_fixed",
    "DRAMPower.C25_lpddr6_partial",
    "DRAMPower.C25_violation_override",
    "DRAMPower.C25_violation_row",
    "DRAMPower.C25_violation_lpddr6"
   ],
   "note": "Fixed levels proved for every pattern, setting and history; distinct words proved for every named bit that is not overridden; each registered pattern names all coordinate bits the command carries. False for column bits fixed by burst-length overrides, row bit 18 of the LPDDR4 ACT and column bit 0 of LPDDR6 bursts of 48 (witnesses)."
  },
  {
   "property": "C26",
   "status": "partial",
   "theorems": [
    "DRAMPower.C26_lpddr4",
    "DRAMPower.C26_partial",
    "DRAMPower.C26_lpddr6_partial",
    "DRAMPower.C26_shared",
    "DRAMPower.C26_shared_lpddr6",
    "DRAMPower.C26_violation"
   ],
   "note": "LPDDR4 proved completely; elsewhere proved for every pair of commands that does not share a pattern-table entry; the complete list of shared entries is given and proved to collide."
  },
  {
   "property": "C27",
   "status": "partial",
   "theorems": [
    "DRAMPower.C27_width",
    "DRAMPower.C27_width_lpddr6",
    "DRAMPower.C27_history",
    "DRAMPower.C27_handler",
    "DRAMPower.C27_settings",
    "DRAMPower.C27_override_partial",
    "DRAMPower.C27_override_violation"
   ],
   "note": "Width, history independence and settings histories proved for every pattern; overrides are exact for the overridable descriptors; overrides of other descriptors (for example bank bits) are ignored (witness)."
  },
  {
   "property": "C28",
   "status": "partial",
   "theorems": [
    "DRAMPower.C28_partial",
    "DRAMPower.C28_never",
    "DRAMPower.C28_violation"
   ],
   "note": "Proved for patterns whose third position is the parity position; all registered patterns have it fourth, so parity is never generated (C28_never) and words of odd parity are sent (witnesses)."
  },
  {
   "property": "C29",
   "status": "partial",
   "theorems": [
    "DRAMPower.C29_places",
    "DRAMPower.C29_reserved",
    "DRAMPower.C29_partial",
    "DRAMPower.C29_recover",
    "DRAMPower.C29_wires",
    "DRAMPower.C29_sizes",
    "DRAMPower.C29_violation_shift"
   ],
   "note": "Full for one burst; for two bursts for every value the out-of-range shift of the DBI word may have (C29_violation_shift shows that it is always executed). C29_wires: the beats on the data bus."
  },
  {
   "property": "C34",
   "status": "partial",
   "theorems": [
    "DRAMPower.C34_partial",
    "DRAMPower.C34_distinct",
    "DRAMPower.C34_strings",
    "DRAMPower.C34_data",
    "DRAMPower.C34_violation"
   ],
   "note": "Every command type except END_OF_SIMULATION round-trips; its printed name is read as NOP (witness)."
  },
  {
   "property": "C35",
   "status": "partial",
   "theorems": [
    "DRAMPower.C35_decode",
    "DRAMPower.C35_odd",
    "DRAMPower.C35_partial",
    "DRAMPower.C35_violation"
   ],
   "note": "Well-formed payloads are decoded exactly, odd lengths rejected; the exact set of accepted strings is given, it contains malformed ones (witnesses)."
  },
  {
   "property": "C30",
   "status": "proved",
   "theorems": [
    "DRAMPower.C30",
    "DRAMPower.C30_partition",
    "DRAMPower.C30_accepts"
   ],
   "note": "Additive in every counter, cycle count and component for every pair of statistics and for every partition of a trace's statistics; rational arithmetic instead of double."
  },
  {
   "property": "C31",
   "status": "proved",
   "theorems": [
    "DRAMPower.C31_monotone",
    "DRAMPower.C31_nonneg",
    "DRAMPower.C31_ddr",
    "DRAMPower.C31_violation"
   ],
   "note": "'At least the background currents' is Spec.Sane: every command current is at least the background of the banks open in its measurement. C31_violation: with currents that are only individually plausible the result can be negative."
  },
  {
   "property": "C32",
   "status": "partial",
   "theorems": [
    "DRAMPower.C32_all",
    "DRAMPower.C32_partial",
    "DRAMPower.C32_aggregated",
    "DRAMPower.C32_aggregated_total",
    "DRAMPower.C32_aggregated_partial",
    "DRAMPower.C32_interface",
    "DRAMPower.C32_violation"
   ],
   "note": "total() is the sum of all components except the precharge part of auto-precharge commands (which E_pre already contains); the aggregated bank energy contains only bank energies and the shared active background (witness)."
  },
  {
   "property": "C33",
   "status": "proved",
   "theorems": [
    "DRAMPower.C33_componentwise",
    "DRAMPower.C33_comm",
    "DRAMPower.C33_assoc",
    "DRAMPower.C33_neutral",
    "DRAMPower.C33_eq",
    "DRAMPower.C33_scale"
   ],
   "note": ""
  },
  {
   "property": "C36",
   "status": "proved",
   "theorems": [
    "DRAMPower.C36_range",
    "DRAMPower.C36_injective",
    "DRAMPower.C36_surjective",
    "DRAMPower.C36_labels",
    "DRAMPower.C36_energy",
    "DRAMPower.C36_isolated"
   ],
   "note": ""
  },
  {
   "property": "C43",
   "status": "proved",
   "theorems": [
    "DRAMPower.C43_idd0",
    "DRAMPower.C43_idd2n",
    "DRAMPower.C43_idd3n",
    "DRAMPower.C43_powerdown",
    "DRAMPower.C43_idd6ds",
    "DRAMPower.C43_idd4r",
    "DRAMPower.C43_idd4w",
    "DRAMPower.C43_idd5",
    "DRAMPower.C43_idd5c",
    "DRAMPower.C43_idd5pb"
   ],
   "note": "For every power specification without vanishing divisor, any number of devices and banks."
  },
  {
   "property": "C38",
   "status": "partial",
   "theorems": [
    "DRAMPower.C38_partial",
    "DRAMPower.C38_necessary",
    "DRAMPower.C38_tBurst",
    "DRAMPower.C38_offsets",
    "DRAMPower.C38_violation",
    "DRAMPower.C38_violation_formula"
   ],
   "note": "Construction succeeds exactly if the divisors are positive; burst time and precharge offsets as in the standards for bursts of whole cycles (LPDDR4: data rate 2, burst length 16 or 32). Zero divisors are not rejected and other LPDDR4 settings give wrong offsets (witnesses)."
  },
  {
   "property": "C41",
   "status": "partial",
   "theorems": [
    "DRAMPower.C41_dynamic",
    "DRAMPower.C41_sizes",
    "DRAMPower.C41_equal_partial",
    "DRAMPower.C41_value_partial",
    "DRAMPower.C41_equal_mixed",
    "DRAMPower.C41_violation",
    "DRAMPower.C41_violation_range",
    "DRAMPower.C41_sub",
    "DRAMPower.C41_sub_equal"
   ],
   "note": "Every sequence of operations, every length, every block size. Only == between dynamic_bitsets of the same block size fails: it compares padding bits that set(), flip() and ~ change (witness)."
  },
  {
   "property": "C44",
   "status": "partial",
   "theorems": [
    "DRAMPower.C44_groups_partial",
    "DRAMPower.C44_mode",
    "DRAMPower.C44_pasr_partial",
    "DRAMPower.C44_refresh",
    "DRAMPower.C44_violation",
    "DRAMPower.C44_violation_groups"
   ],
   "note": "Proved for recognised organisations and eight-bank PASR; false for unrecognised LPDDR5 organisations, PASR with another number of banks and DDR5 with fewer banks than groups (witnesses)."
  },
  {
   "property": "C40",
   "status": "partial",
   "theorems": [
    "DRAMPower.C40",
    "DRAMPower.C40_present",
    "DRAMPower.C40_enabled",
    "DRAMPower.C40_hooks",
    "DRAMPower.C40_restore_partial",
    "DRAMPower.C40_violation",
    "DRAMPower.C40_violation_hooks"
   ],
   "note": "Lookup, presence, invocation and hooks proved for every history; saving/restoring if no type is registered twice (otherwise saving throws, witness). Hook enumerations of more than 32 bits shift out of range at the first registration."
  },
  {
   "property": "C37",
   "status": "partial",
   "theorems": [
    "DRAMPower.C37_core",
    "DRAMPower.C37_interface",
    "DRAMPower.C37_types_partial",
    "DRAMPower.C37_violation_types",
    "DRAMPower.C37_halfway_partial",
    "DRAMPower.C37_violation_halfway"
   ],
   "note": "Exact sets of accepted types of both halves; equal except DDR5 SREFEX and LPDDR6 NOP. No trace fails half way if the busses are free, data commands bring their data, DBI is off (for DBI see C90) and (LPDDR6) second banks are multiples of the bank groups; witnesses of half-executed commands otherwise."
  },
  {
   "property": "C39",
   "status": "partial",
   "theorems": [
    "DRAMPower.C39_partial",
    "DRAMPower.C39_once",
    "DRAMPower.C39_violation_first",
    "DRAMPower.C39_violation_merged"
   ],
   "note": "Seamless counter equals the number of gapless neighbours for every history, except that a first transfer at time 0 is counted; merged counters never change (witness)."
  },
  {
   "property": "C16",
   "status": "partial",
   "theorems": [
    "DRAMPower.C16_partial",
    "DRAMPower.C16_ddr5",
    "DRAMPower.C16_ddr5_statement",
    "DRAMPower.C16_ddr4_partial",
    "DRAMPower.C16_violation_ddr4",
    "DRAMPower.C16_violation_pins",
    "DRAMPower.C16_violation_enable",
    "DRAMPower.C16_violation_metadata",
    "DRAMPower.C16_violation_disabled"
   ],
   "note": "DDR5 complete. All standards for histories in which DBI was never enabled and (LPDDR6) metadata and enabling are as constructed; DDR4 with DBI whenever the stream can be restored, with the exact condition. Elsewhere state is lost or the restore is undefined (witnesses)."
  },
  {
   "property": "C45",
   "status": "partial",
   "theorems": [
    "DRAMPower.C45_partial",
    "DRAMPower.C45_rank_counters",
    "DRAMPower.C45_ambles_never",
    "DRAMPower.C45_violation",
    "DRAMPower.C45_violation_ddr4",
    "DRAMPower.C45_violation_separate",
    "DRAMPower.C45_violation_ddr5"
   ],
   "note": "The full statement C45_statement is false: DDR4 counts pre/postambles with rank counters the simulator never fills (never charged, or the difference wraps), DDR5 ignores a missing termination for toggling rates. Proved for all statistics outside these cases."
  },
  {
   "property": "C46",
   "status": "partial",
   "theorems": [
    "DRAMPower.C46_nonneg",
    "DRAMPower.C46_zero",
    "DRAMPower.C46_add_partial",
    "DRAMPower.C46_mono_partial",
    "DRAMPower.C46_violation",
    "DRAMPower.C46_total"
   ],
   "note": "Sign, zero and total proved in general; additivity for all standards, for DDR4 only if no statistics has more gapless transfers than transfers of the ranks (C46_violation)."
  },
  {
   "property": "C47",
   "status": "partial",
   "theorems": [
    "DRAMPower.C47_partial",
    "DRAMPower.C47_edges",
    "DRAMPower.C47_violation",
    "DRAMPower.C47_violation_fraction",
    "DRAMPower.C47_violation_rate"
   ],
   "note": "Every accepted trace; queries after the last burst, even data rate dividing the burst lengths, DDR5 strobe rate equal to the data rate. Refuted otherwise."
  },
  {
   "property": "C48",
   "status": "partial",
   "theorems": [
    "DRAMPower.C48_partial",
    "DRAMPower.C48_beats",
    "DRAMPower.C48_violation"
   ],
   "note": "Every accepted trace and query of all five standards; only LPDDR4 activates with row bit 18 set are excluded (refuted)."
  },
  {
   "property": "C49",
   "status": "partial",
   "theorems": [
    "DRAMPower.C49_partial",
    "DRAMPower.C49_toggling",
    "DRAMPower.C49_violation"
   ],
   "note": "Every accepted trace and query of all five standards in both modes; only LPDDR6 with data bus inversion is excluded (refuted)."
  },
  {
   "property": "C50",
   "status": "partial",
   "theorems": [
    "DRAMPower.C50_partial",
    "DRAMPower.C50_dataClock_bursts_partial",
    "DRAMPower.C50_dataClock_exact",
    "DRAMPower.C50_inversion_exact",
    "DRAMPower.C50_rate",
    "DRAMPower.C50_strobe_partial",
    "DRAMPower.C50_violation_dataClock",
    "DRAMPower.C50_violation_stopped",
    "DRAMPower.C50_violation_inversion"
   ],
   "note": "Every accepted trace and query, all groups of signals; excluded and refuted: the data clock unless dataRate / WCK2CK = 2 * WCK2CK, inversion pins unless the data rate is 2. Strobes under the conditions of C47_partial."
  },
  {
   "property": "C51",
   "status": "partial",
   "theorems": [
    "DRAMPower.C51_partial",
    "DRAMPower.C51_ratio",
    "DRAMPower.C51_violation"
   ],
   "note": "All standards and accepted traces of full bursts that end with a clock; excluded and refuted: LPDDR5 and LPDDR6 with WCK2CK other than 1. Writes of LPDDR5 and LPDDR6 have no strobe and are not covered."
  },
  {
   "property": "C52",
   "status": "partial",
   "theorems": [
    "DRAMPower.C52_partial",
    "DRAMPower.C52_double_partial",
    "DRAMPower.C52_off",
    "DRAMPower.C52_violation",
    "DRAMPower.C52_violation_ddr4",
    "DRAMPower.C52_violation_rate"
   ],
   "note": "Every accepted trace and query under the hypothesis that no transfer whose last beat is flagged is followed by a gap and another transfer of its direction; time base 2 * t. The excluded cases are refuted: flags one beat late, DDR4 transfers refused, data rates other than 2."
  },
  {
   "property": "C53",
   "status": "partial",
   "theorems": [
    "DRAMPower.C53_partial",
    "DRAMPower.C53_ddr4",
    "DRAMPower.C53_noActivePowerDown",
    "DRAMPower.C53_core_partial",
    "DRAMPower.C53_interface",
    "DRAMPower.C53_figures",
    "DRAMPower.C53_nonneg",
    "DRAMPower.C53_violation"
   ],
   "note": "Interface half and non-negativity: every executed trace. Total: all legal DDR4 traces, all legal traces without active power-down, all tame traces; refuted for the remaining active power-down situations."
  },
  {
   "property": "C54",
   "status": "partial",
   "theorems": [
    "DRAMPower.C54_read",
    "DRAMPower.C54_partial",
    "DRAMPower.C54_number",
    "DRAMPower.C54_short",
    "DRAMPower.C54_payload",
    "DRAMPower.C54_violation",
    "DRAMPower.C54_violation_large",
    "DRAMPower.C54_violation_names",
    "DRAMPower.C54_violation_sign"
   ],
   "note": "Well formed rows with numbers below 2^63 are read exactly; the exact set of accepted rows is characterised; short rows and malformed payloads are reported. Refuted: malformed numbers throw, unknown names become NOP, numbers from 2^63 on are refused."
  },
  {
   "property": "C55",
   "status": "partial",
   "theorems": [
    "DRAMPower.C55_partial",
    "DRAMPower.C55_reports",
    "DRAMPower.C55_refused",
    "DRAMPower.C55_short",
    "DRAMPower.C55_violation",
    "DRAMPower.C55_violation_help",
    "DRAMPower.C55_violation_assertion"
   ],
   "note": "Every exit with status 0 reports the answer of the library for the commands read, every other exit reports nothing, and traces with an answer are reported. Refuted: exceptions and assertions terminate the process, help continues."
  },
  {
   "property": "C56",
   "status": "partial",
   "theorems": [
    "DRAMPower.C56_exact",
    "DRAMPower.C56_partial",
    "DRAMPower.C56_ddr5",
    "DRAMPower.C56_ddr4_x4",
    "DRAMPower.C56_ddr4_partial",
    "DRAMPower.C56_violation_enable",
    "DRAMPower.C56_violation_metadata",
    "DRAMPower.C56_violation_ddr4"
   ],
   "note": "Proved in full for DDR5; for the others if inversion was never on and metadata and enabling are as constructed (DDR4: also with inversion if the stream is readable). C56_exact describes the restored simulator for every history. Refuted for LPDDR4, LPDDR5, LPDDR6 (inverter and metadata not restored) and DDR4 (last beats)."
  },
  {
   "property": "C57",
   "status": "partial",
   "theorems": [
    "DRAMPower.C57_partial",
    "DRAMPower.C57_pins_partial",
    "DRAMPower.C57_restored_partial",
    "DRAMPower.C57_violation",
    "DRAMPower.C57_violation_restored"
   ],
   "note": "Proved for all sessions without restoring (LPDDR6: without inversion, whose bursts are wrong, see C49), and for sessions that are saved, restored and continued: DDR5 always, DDR4 if the stream is readable, the others if inversion was never on before saving. Refuted after restoring for LPDDR4 and LPDDR5."
  },
  {
   "property": "C58",
   "status": "partial",
   "theorems": [
    "DRAMPower.C58_separate_partial",
    "DRAMPower.C58_copies_partial",
    "DRAMPower.C58_ddr5",
    "DRAMPower.C58_violation_source",
    "DRAMPower.C58_violation_copy",
    "DRAMPower.C58_violation_pins",
    "DRAMPower.C58_violation_assign",
    "DRAMPower.C58_violation_destroyed"
   ],
   "note": "Proved in full for DDR5; for the others for programs without copies, and for programs with copies in which no call concerns inversion or metadata. Refuted otherwise: shared extension objects and captured sources."
  },
  {
   "property": "C59",
   "status": "partial",
   "theorems": [
    "DRAMPower.C59_partial",
    "DRAMPower.C59_chunks_partial",
    "DRAMPower.C59_mark",
    "DRAMPower.C59_commands",
    "DRAMPower.C59_commands_chunks",
    "DRAMPower.C59_violation",
    "DRAMPower.C59_violation_chunk",
    "DRAMPower.C59_violation_last",
    "DRAMPower.C59_violation_empty",
    "DRAMPower.C59_violation_long"
   ],
   "note": "Proved for files of one chunk with either line end and single empty lines, and for files of any size with Unix line ends and without empty lines. Refuted for other empty lines, for Windows line ends at the end of a chunk, for rows longer than a chunk, for an empty last value before blanks and for the empty file."
  },
  {
   "property": "C60",
   "status": "partial",
   "theorems": [
    "DRAMPower.C60_document",
    "DRAMPower.C60_printout",
    "DRAMPower.C60_printout_partial",
    "DRAMPower.C60_tool",
    "DRAMPower.C60_violation"
   ],
   "note": "Proved for the JSON document of all standards and the standard output of all but LPDDR6. Refuted for the standard output of LPDDR6, which leaves out the energy of dual-bank refreshes; everything else is printed (C60_printout_partial)."
  },
  {
   "property": "C61",
   "status": "proved",
   "theorems": [
    "DRAMPower.C61_double",
    "DRAMPower.C61_outcome",
    "DRAMPower.C61_bank",
    "DRAMPower.C61_shared",
    "DRAMPower.C61_total",
    "DRAMPower.C61_exact"
   ],
   "note": "For every rounding to 53 bits with unbounded exponent; C61_double shows that rounding to nearest is one."
  },
  {
   "property": "C62",
   "status": "partial",
   "theorems": [
    "DRAMPower.C62_partial",
    "DRAMPower.C62_violation"
   ],
   "note": "Refuted: with the default background factor the background energy of an active bank can be negative by rounding. Proved for all shared parts and the parts computed from currents of the specification directly."
  },
  {
   "property": "C63",
   "status": "partial",
   "theorems": [
    "DRAMPower.C63_partial",
    "DRAMPower.C63_violation"
   ],
   "note": "Refuted for symbolic links with a relative target in another directory and for links in a circle. Proved for paths that are no link, links in the current directory and links with an absolute target."
  },
  {
   "property": "C64",
   "status": "proved",
   "theorems": [
    "DRAMPower.C64",
    "DRAMPower.C64_needsActivation",
    "DRAMPower.C64_needsNotAtZero"
   ],
   "note": "Two further theorems show that the conditions on the trace are needed."
  },
  {
   "property": "C65",
   "status": "proved",
   "theorems": [
    "DRAMPower.C65_outcome",
    "DRAMPower.C65_close",
    "DRAMPower.C65_monotone",
    "DRAMPower.C65_exact"
   ],
   "note": ""
  },
  {
   "property": "C66",
   "status": "proved",
   "theorems": [
    "DRAMPower.C66_same_commands",
    "DRAMPower.C66_drop_other_banks",
    "DRAMPower.C66_power_down"
   ],
   "note": ""
  },
  {
   "property": "C67",
   "status": "partial",
   "theorems": [
    "DRAMPower.C67_partial",
    "DRAMPower.C67_ddr4",
    "DRAMPower.C67_noActivePowerDown",
    "DRAMPower.C67_waiting_partial",
    "DRAMPower.C67_violation"
   ],
   "note": "full statement C67_statement proved for DDR4 and for traces without active power-down; refuted for the other standards"
  },
  {
   "property": "C68",
   "status": "proved",
   "theorems": [
    "DRAMPower.C68",
    "DRAMPower.C68_count"
   ],
   "note": "the router is not used by the library"
  },
  {
   "property": "C69",
   "status": "proved",
   "theorems": [
    "DRAMPower.C69",
    "DRAMPower.C69_recorded",
    "DRAMPower.C69_others",
    "DRAMPower.C69_visit"
   ],
   "note": "functions callable any number of times"
  },
  {
   "property": "C70",
   "status": "partial",
   "theorems": [
    "DRAMPower.C70_partial",
    "DRAMPower.C70_claim_partial",
    "DRAMPower.C70_simulator_partial",
    "DRAMPower.C70_total_partial",
    "DRAMPower.C70_violation_ddr4",
    "DRAMPower.C70_violation_ddr5",
    "DRAMPower.C70_violation_lpddr4",
    "DRAMPower.C70_violation_dataClock"
   ],
   "note": "full statement C70_statement; restrictions collected in Spec.WiresFaithful, each due to a violation recorded with C45, C47, C48, C49, C50 or C52"
  },
  {
   "property": "C71",
   "status": "proved",
   "theorems": [
    "DRAMPower.C71_accepted",
    "DRAMPower.C71",
    "DRAMPower.C71_energy",
    "DRAMPower.C71_tame",
    "DRAMPower.C71_needsSymmetry"
   ],
   "note": "energies over exact rationals: in double the sums are formed in another order, C61 bounds the difference; C71_energy takes both simulator runs as accepted since the command encodings contain the numbers"
  },
  {
   "property": "C72",
   "status": "proved",
   "theorems": [
    "DRAMPower.C72",
    "DRAMPower.C72_outcome",
    "DRAMPower.C72_exact",
    "DRAMPower.C72_physical_partial"
   ],
   "note": "exponents of double are not bounded (as C61, C65); the last sentence holds for the traces to which C67_partial and C70_partial apply, with the rate the code gives the data clock (C72_physical_partial)"
  },
  {
   "property": "C73",
   "status": "partial",
   "theorems": [
    "DRAMPower.C73_core",
    "DRAMPower.C73_partial",
    "DRAMPower.C73_energy",
    "DRAMPower.C73_end_partial",
    "DRAMPower.C73_violation",
    "DRAMPower.C73_violation_refused"
   ],
   "note": "full statement C73_statement; proved for the core, for the wires unless something has been inverted before the marker, and for the marker as last command under the restrictions of C52"
  },
  {
   "property": "C74",
   "status": "partial",
   "theorems": [
    "DRAMPower.C74_partial",
    "DRAMPower.C74_legal",
    "DRAMPower.C74_ddr4",
    "DRAMPower.C74_noActivePowerDown",
    "DRAMPower.C74_repeated",
    "DRAMPower.C74_energy_partial",
    "DRAMPower.C74_energy",
    "DRAMPower.C74_repeated_energy",
    "DRAMPower.C74_violation"
   ],
   "note": "full statement C74_statement; proved in full for DDR4 and for all standards without active power-down; otherwise without the power-down situations of item 1"
  },
  {
   "property": "C75",
   "status": "partial",
   "theorems": [
    "DRAMPower.C75_loop_partial",
    "DRAMPower.C75_standing_partial",
    "DRAMPower.C75_burst_partial",
    "DRAMPower.C75_ddr4",
    "DRAMPower.C75_violation"
   ],
   "note": "full statements C75_loop_statement, C75_standing_statement, C75_burst_statement with any legal lead-in: proved for DDR4; otherwise for lead-ins without the active power-down situations of item 1 (C75_violation)"
  },
  {
   "property": "C76",
   "status": "proved",
   "theorems": [
    "DRAMPower.C76",
    "DRAMPower.C76_accepted",
    "DRAMPower.C76_conserved",
    "DRAMPower.C76_ddr4",
    "DRAMPower.C76_noActivePowerDown",
    "DRAMPower.C76_figures",
    "DRAMPower.C76_needsRange"
   ],
   "note": "the interface and the energies are not part of it"
  },
  {
   "property": "C77",
   "status": "proved",
   "theorems": [
    "DRAMPower.C77",
    "DRAMPower.C77_bound",
    "DRAMPower.C77_split",
    "DRAMPower.C77_monotone",
    "DRAMPower.C77_exact",
    "DRAMPower.C77_notTruncated"
   ],
   "note": ""
  },
  {
   "property": "C78",
   "status": "partial",
   "theorems": [
    "DRAMPower.C78_partial",
    "DRAMPower.C78_total_partial",
    "DRAMPower.C78_repeated_partial",
    "DRAMPower.C78_violation",
    "DRAMPower.C78_violation_ambles"
   ],
   "note": "full statement C78_statement for all accepted traces: refuted for toggling rates (C78_violation) and for DDR4 pre/postambles (C78_violation_ambles); proved when payloads are given, under the restrictions of C70 (WiresFaithful)"
  },
  {
   "property": "C79",
   "status": "partial",
   "theorems": [
    "DRAMPower.C79_bus_partial",
    "DRAMPower.C79_clock_partial",
    "DRAMPower.C79_toggle_partial",
    "DRAMPower.C79_pin_partial",
    "DRAMPower.C79_exact_partial",
    "DRAMPower.C79_load_refused",
    "DRAMPower.C79_toggle_refused",
    "DRAMPower.C79_toggle",
    "DRAMPower.C79_violation"
   ],
   "note": "Violated beyond 2^64 beats (DESIGN item 64): queries of buses and clocks overflow silently. Proved for all histories whose times in beats stay below 2^64; the toggling-rate model is exact without this condition on the query."
  },
  {
   "property": "C80",
   "status": "partial",
   "theorems": [
    "DRAMPower.C80_partial",
    "DRAMPower.C80_chunks_partial",
    "DRAMPower.C80_roundtrip",
    "DRAMPower.C80_commands_partial",
    "DRAMPower.C80_commands_chunks_partial",
    "DRAMPower.C80_violation",
    "DRAMPower.C80_violation_open",
    "DRAMPower.C80_violation_last",
    "DRAMPower.C80_violation_mark"
   ],
   "note": "Violated (DESIGN item 65): a blank behind a closing quotation mark swallows the rest of the file, a blank before an opening one makes it a part of the value, an empty last value is lost, a quotation mark behind two blanks is lost. Proved for all other ways to write values: files of one chunk with either line end, files of any size with Unix line ends and rows not longer than a chunk (C80_chunks_partial)."
  },
  {
   "property": "C81",
   "status": "proved",
   "theorems": [
    "DRAMPower.C81"
   ],
   "note": "All currents except the background currents IDD2N and IDD3N; bursts of whole data clock cycles; the precharge current configured where it or IDD0 is changed."
  },
  {
   "property": "C82",
   "status": "proved",
   "theorems": [
    "DRAMPower.C82_voltages",
    "DRAMPower.C82_currents",
    "DRAMPower.C82_clock",
    "DRAMPower.C82_devices",
    "DRAMPower.C82_domains",
    "DRAMPower.C82_defaults"
   ],
   "note": "Core energies in exact arithmetic."
  },
  {
   "property": "C83",
   "status": "partial",
   "theorems": [
    "DRAMPower.C83_statistics",
    "DRAMPower.C83_partial",
    "DRAMPower.C83_ddr4",
    "DRAMPower.C83_noActivePowerDown",
    "DRAMPower.C83_violation"
   ],
   "note": "Violated by the accounting of active power-down (same defect as C03, not DDR4); proved for all legal DDR4 traces, for all legal traces without active power-down and for all others outside the excluded situations; C83_statistics holds for all statistics."
  },
  {
   "property": "C84",
   "status": "partial",
   "theorems": [
    "DRAMPower.C84_noActivePowerDown",
    "DRAMPower.C84_partial",
    "DRAMPower.C84_violation"
   ],
   "note": "Violated by the accounting of active power-down (same defect as C03: DDR4 differs from the others); proved for all legal traces without active power-down and for all others outside the excluded situations. NOP is excluded (it is unaddressed in some standards only)."
  },
  {
   "property": "C85",
   "status": "proved",
   "theorems": [
    "DRAMPower.C85_roundtrip",
    "DRAMPower.C85_injective",
    "DRAMPower.C85",
    "DRAMPower.C85_refused",
    "DRAMPower.C85_document_status",
    "DRAMPower.C85_physical_partial"
   ],
   "note": "C85_physical_partial is an addition to the claim (restrictions of C67 and C70)."
  },
  {
   "property": "C86",
   "status": "partial",
   "theorems": [
    "DRAMPower.C86_figures",
    "DRAMPower.C86_energy",
    "DRAMPower.C86_accepted_partial",
    "DRAMPower.C86_toggling",
    "DRAMPower.C86_ddr5_lpddr6",
    "DRAMPower.C86_violation",
    "DRAMPower.C86_violation_long"
   ],
   "note": "Violated by DDR4, LPDDR4 and LPDDR5 with inversion: whether a trace is accepted depends on the bytes (C86_violation, C86_violation_long). Everything about the figures is proved for all standards; acceptance for DDR5, LPDDR6, toggling rates and sessions without inversion."
  },
  {
   "property": "C87",
   "status": "proved",
   "theorems": [
    "DRAMPower.C87",
    "DRAMPower.C87_energy"
   ],
   "note": ""
  },
  {
   "property": "C88",
   "status": "partial",
   "theorems": [
    "DRAMPower.C88_scaling",
    "DRAMPower.C88_simulator",
    "DRAMPower.C88_reads",
    "DRAMPower.C88_writes",
    "DRAMPower.C88_termination_partial",
    "DRAMPower.C88_ddr4",
    "DRAMPower.C88_unterminated",
    "DRAMPower.C88_violation",
    "DRAMPower.C88_violation_single"
   ],
   "note": "Violated by DDR4: rising edges of pre- and postambles are charged only if the strobe is terminated (C88_violation, C88_violation_single). DDR5 with toggling rates is charged without termination (C45_violation_ddr5)."
  },
  {
   "property": "C89",
   "status": "partial",
   "theorems": [
    "DRAMPower.C89_slots",
    "DRAMPower.C89_simulator",
    "DRAMPower.C89_sent",
    "DRAMPower.C89_order_partial",
    "DRAMPower.C89_lpddr4_partial",
    "DRAMPower.C89_tool_partial",
    "DRAMPower.C89_violation_order",
    "DRAMPower.C89_violation_wires"
   ],
   "note": "Violated by LPDDR4: power-down commands are not sent and their times not checked (C89_violation_order). Violated by all standards: reads and writes are separate busses, bursts of different directions may overlap (C89_violation_wires)."
  },
  {
   "property": "C90",
   "status": "partial",
   "theorems": [
    "DRAMPower.C90_session_partial",
    "DRAMPower.C90_halfway_partial",
    "DRAMPower.C90_ddr5",
    "DRAMPower.C90_violation",
    "DRAMPower.C90_violation_longer",
    "DRAMPower.C90_violation_end"
   ],
   "note": "Full claim for DDR5 and for toggling rates. Violated otherwise: bursts as long as an inversion line holds (C90_violation), payloads longer than one before (C90_violation_longer), data before an end given earlier (C90_violation_end); proved for all other traces."
  },
  {
   "property": "C91",
   "status": "partial",
   "theorems": [
    "DRAMPower.C91_partial",
    "DRAMPower.C91_ddr5",
    "DRAMPower.C91_uninverted",
    "DRAMPower.C91_getStats_partial",
    "DRAMPower.C91_energy_partial",
    "DRAMPower.C91_tool_partial",
    "DRAMPower.C91_violation_rate",
    "DRAMPower.C91_violation_short"
   ],
   "note": "Full claim for DDR5. Violated otherwise: inversion lines with more than two beats per cycle (C91_violation_rate), a write shorter than a beat to an LPDDR5 memory with a running data clock (C91_violation_short); proved for all other sessions."
  },
  {
   "property": "C92",
   "status": "partial",
   "theorems": [
    "DRAMPower.C92_partial",
    "DRAMPower.C92_ddr5",
    "DRAMPower.C92_energy_partial",
    "DRAMPower.C92_violation",
    "DRAMPower.C92_violation_beats",
    "DRAMPower.C92_violation_lpddr6"
   ],
   "note": "Full claim for DDR5. Violated during a transfer for DDR4, LPDDR4, LPDDR5 (C92_violation), by payloads that do not fill whole beats (C92_violation_beats) and after a transfer for LPDDR6 (C92_violation_lpddr6); proved for the other standards between transfers of whole beats."
  },
  {
   "property": "C93",
   "status": "proved",
   "theorems": [
    "DRAMPower.C93"
   ],
   "note": ""
  },
  {
   "property": "C94",
   "status": "partial",
   "theorems": [
    "DRAMPower.C94_partial",
    "DRAMPower.C94_violation_lpddr6"
   ],
   "note": "Full claim for DDR4, LPDDR4 and LPDDR5. Violated for LPDDR6 (C94_violation_lpddr6), whose decision looks at the wrong bytes."
  },
  {
   "property": "C95",
   "status": "proved",
   "theorems": [
    "DRAMPower.C95",
    "DRAMPower.C95_total",
    "DRAMPower.C95_order"
   ],
   "note": ""
  },
  {
   "property": "C96",
   "status": "partial",
   "theorems": [
    "DRAMPower.C96_partial",
    "DRAMPower.C96_ddr4",
    "DRAMPower.C96_noActivePowerDown",
    "DRAMPower.C96_pairs_partial",
    "DRAMPower.C96_energy_partial",
    "DRAMPower.C96_energy_pairs_partial",
    "DRAMPower.C96_violation_states",
    "DRAMPower.C96_violation_dataClock"
   ],
   "note": "Full claim for DDR4. The other standards: without the situations of C03 (active power-down after which a rank keeps the wrong state), and LPDDR5/LPDDR6 with a data clock that stops or has an even number of levels per cycle; violated otherwise (C96_violation_states, C96_violation_dataClock); with any data clock every two cycles add the same (C96_pairs_partial)."
  },
  {
   "property": "C97",
   "status": "partial",
   "theorems": [
    "DRAMPower.C97_partial",
    "DRAMPower.C97_ddr4",
    "DRAMPower.C97_noActivePowerDown",
    "DRAMPower.C97_energy_partial",
    "DRAMPower.C97_saves_partial",
    "DRAMPower.C97_violation"
   ],
   "note": "Statistics: full claim for DDR4; the other standards without the active power-down situations of C03, with which it is violated (C97_violation). Energies: for every standard without these situations (none for DDR4), both traces accepted by the whole simulator."
  },
  {
   "property": "C98",
   "status": "proved",
   "theorems": [
    "DRAMPower.C98",
    "DRAMPower.C98_adding",
    "DRAMPower.C98_energy"
   ],
   "note": "For C98_energy both traces are executed by the whole simulator (the interface refuses some traces, too)."
  },
  {
   "property": "C99",
   "status": "partial",
   "theorems": [
    "DRAMPower.C99_partial",
    "DRAMPower.C99_violation"
   ],
   "note": "As C04: without the active power-down situations of C03 and without the rank leaving an active power-down between the activation and the precharge; with it the claim is violated (C99_violation)."
  },
  {
   "property": "C100",
   "status": "proved",
   "theorems": [
    "DRAMPower.C100",
    "DRAMPower.C100_energy"
   ],
   "note": "For C100_energy both traces are executed by the whole simulator (the interface refuses some traces, too)."
  }
 ]
}