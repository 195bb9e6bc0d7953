import Verif.Lemmas.Pattern

/-!
# C25: the encoded word determines the coordinate bits named in the pattern

Full statement: for every registered command and every override setting two coordinates that differ
in a bit named by the pattern yield different words, and the word has the fixed H/L levels.

* `C25_fixed`: the fixed levels, for every pattern and every setting (all that is claimed).
* `C25_partial`: different words whenever the differing descriptor is not overridden; row bits from
  18 up are excluded.
* `C25_registered_partial`: the same for the registered patterns and every history of transfers.
* `C25_names`: the registered patterns name every coordinate bit the command has to carry, each at
  one position.
* `C25_lpddr6_fixed`, `C25_lpddr6_partial`: LPDDR6.
* `C25_violation_override`, `C25_violation_row`, `C25_violation_lpddr6`: the exclusions are needed.
-/

namespace DRAMPower

/-- The word agrees with the fixed bits of the pattern, whatever the settings and the history. -/
theorem C25_fixed (co : Coord) (p : List Desc) (s : Overrides) (last : BitVec 64) (hp : p ≠ [])
    (hl : p.length ≤ 64) : ∃ w, encode co p s last = .ok w ∧
      (∀ i, p[i]? = some .H → Spec.position w p.length i = true) ∧
      (∀ i, p[i]? = some .L → Spec.position w p.length i = false) := by
  obtain ⟨w, hw, hb, -⟩ := encode_bits co p s last hp hl
  refine ⟨w, hw, fun i hi => ?_, fun i hi => ?_⟩ <;>
  · obtain ⟨h, hi⟩ := List.getElem?_eq_some_iff.1 hi
    rw [Spec.position, hb i h, hi]
    rfl

example : (ddr4Patterns .RD)[2]? = some .H ∧ (ddr4Patterns .RD)[0]? = some .L
    ∧ (ddr4Patterns .RD).length ≤ 64 := by decide

/-- An unoverridden descriptor that names a coordinate bit transmits exactly that bit. -/
theorem encodeBit_named (co : Coord) (s : Overrides) (last : Bool) (d : Desc) (v : Bool)
    (h : Spec.named co d = some v) (hs : s.get d = .INVALID) (hr : ∀ i, d = .R i → i ≤ 17) :
    encodeBit co s last d = some v := by
  cases d <;> simp_all [Spec.named, encodeBit, Overrides.apply]

/-- Two coordinates that differ in a bit the pattern names are encoded differently, unless that
descriptor is overridden (or is one of the row bits the encoder does not know). -/
theorem C25_partial (p : List Desc) (hl : p.length ≤ 64) (s : Overrides) (last last' : BitVec 64)
    (a b : Coord) (d : Desc) (hd : d ∈ p) (hs : s.get d = .INVALID) (hr : ∀ i, d = .R i → i ≤ 17)
    (hne : Spec.named a d ≠ Spec.named b d) :
    ∃ wa wb, encode a p s last = .ok wa ∧ encode b p s last' = .ok wb ∧ wa ≠ wb := by
  have hp : p ≠ [] := List.ne_nil_of_mem hd
  obtain ⟨wa, ha, hba, -⟩ := encode_bits a p s last hp hl
  obtain ⟨wb, hb, hbb, -⟩ := encode_bits b p s last' hp hl
  refine ⟨wa, wb, ha, hb, fun hab => hne ?_⟩
  obtain ⟨i, hi, hid⟩ := List.getElem_of_mem hd
  have h1 := hba i hi
  rw [hab, hbb i hi, hid] at h1
  rcases hna : Spec.named a d with _ | va
  · cases d <;> simp_all [Spec.named]
  rcases hnb : Spec.named b d with _ | vb
  · cases d <;> simp_all [Spec.named]
  rw [encodeBit_named a s _ d va hna hs hr, encodeBit_named b s _ d vb hnb hs hr] at h1
  simpa using h1.symm

example : Desc.R 5 ∈ ddr5Patterns .ACT ∧ (caInit .ddr5).settings.get (.R 5) = .INVALID ∧
    Spec.named { row := 0 } (.R 5) ≠ Spec.named { row := 32 } (.R 5) := by decide

/-- All command types. -/
def allCommands : List CmdType :=
  [.NOP, .RD, .WR, .RDA, .WRA, .ACT, .PRE, .REFB, .REFP2B, .REFDB, .PRESB, .REFSB, .PREA, .REFA,
    .PDEA, .PDEP, .PDXA, .PDXP, .SREFEN, .SREFEX, .DSMEN, .DSMEX, .END_OF_SIMULATION, .COUNT]

theorem mem_allCommands (c : CmdType) : c ∈ allCommands := by cases c <;> decide

/-- Registered patterns have at most 64 positions and, but for one, no row bit above 17. -/
theorem patterns_wellformed (a : BankArch) (std : Std) (c : CmdType) :
    (patterns a std c).length ≤ 64 ∧ ∀ d ∈ patterns a std c, ∀ i, d = .R i →
      i ≤ 17 ∨ (std = .lpddr4 ∧ c = .ACT ∧ i = 18) := by
  have h : ∀ d ∈ patterns a std c,
      (match d with | .R i => decide (i ≤ 17 ∨ (std = .lpddr4 ∧ c = .ACT ∧ i = 18)) | _ => true)
        = true := by
    revert a std c
    intro a std c
    cases a <;> cases std <;> cases c <;> decide +kernel
  refine ⟨?_, fun d hd i hi => ?_⟩
  · cases a <;> cases std <;> cases c <;> decide +kernel
  · subst hi
    simpa using h _ hd

/-- Registered commands of DDR4, DDR5, LPDDR4 and LPDDR5, after any transfers: two coordinates that
differ in a named bit have different words, except for the low column bits that transfers fix, and
for row bit 18 of the LPDDR4 activate. -/
theorem C25_registered_partial (a : BankArch) (std : Std) (c : CmdType) (calls : List (Nat × Bool))
    (last last' : BitVec 64) (x y : Coord) (d : Desc) (hd : d ∈ patterns a std c)
    (hb : d ∉ Spec.burstBits std) (h18 : ¬ (std = .lpddr4 ∧ d = .R 18))
    (hne : Spec.named x d ≠ Spec.named y d) :
    ∃ wx wy, encode x (patterns a std c) (Spec.settingsAfter std calls) last = .ok wx ∧
      encode y (patterns a std c) (Spec.settingsAfter std calls) last' = .ok wy ∧ wx ≠ wy := by
  obtain ⟨hl, hr⟩ := patterns_wellformed a std c
  have hr' : ∀ i, d = .R i → i ≤ 17 := by
    intro i hi
    rcases hr d hd i hi with h | ⟨h1, _, h3⟩
    · exact h
    · exact absurd ⟨h1, h3 ▸ hi⟩ h18
  refine C25_partial _ hl _ _ _ _ _ d hd ?_ hr' hne
  rw [settingsAfter_get std calls d hb]
  cases d <;> cases std <;> simp_all [Spec.named] <;> try rfl
  all_goals
    rename_i i
    revert hb
    clear hne hd
    revert i
    decide

example : Desc.C 9 ∈ patterns .m16b .ddr4 .WRA ∧ Desc.C 9 ∉ Spec.burstBits .ddr4 ∧
    Spec.named { column := 512 } (.C 9) ≠ Spec.named {} (.C 9) := by decide

/-- The pattern of a command names every coordinate bit the command carries exactly once. -/
theorem C25_names :
    (∀ a std c, ∀ d ∈ Spec.carried a std c, (patterns a std c).count d = 1) ∧
    (∀ c, ∀ d ∈ Spec.carried6 c, (lpddr6Patterns c).count d = 1) := by
  have key : ∀ a ∈ [BankArch.m16b, .mbg, .m8b], ∀ std ∈ [Std.ddr4, .ddr5, .lpddr4, .lpddr5, .lpddr6],
      ∀ c ∈ allCommands, ∀ d ∈ Spec.carried a std c, (patterns a std c).count d = 1 := by
    decide +kernel
  have key6 : ∀ c ∈ allCommands, ∀ d ∈ Spec.carried6 c, (lpddr6Patterns c).count d = 1 := by
    decide +kernel
  exact ⟨fun a std c => key a (by cases a <;> decide) std (by cases std <;> decide) c
    (mem_allCommands c), fun c => key6 c (mem_allCommands c)⟩

example : (Spec.carried .m16b .ddr4 .ACT).length = 22 ∧ (Spec.carried6 .ACT).length = 22 := by decide

/-- After a read burst of eight DDR4 reads of columns 0 and 1 are the same word, although both name
column bit 0. -/
theorem C25_violation_override :
    Desc.C 0 ∈ patterns .m16b .ddr4 .RD ∧
    Spec.named { column := 0 } (.C 0) ≠ Spec.named { column := 1 } (.C 0) ∧
    encode { column := 0 } (patterns .m16b .ddr4 .RD) (Spec.settingsAfter .ddr4 [(8, true)]) 0#64
      = encode { column := 1 } (patterns .m16b .ddr4 .RD)
          (Spec.settingsAfter .ddr4 [(8, true)]) 0#64 := by decide +kernel

/-- LPDDR4 activates of rows 0 and 2^18 are the same word, although the pattern names row bit 18. -/
theorem C25_violation_row :
    Desc.R 18 ∈ patterns .m16b .lpddr4 .ACT ∧
    Spec.named { row := 0 } (.R 18) ≠ Spec.named { row := 2 ^ 18 } (.R 18) ∧
    encode { row := 0 } (patterns .m16b .lpddr4 .ACT) (Spec.settingsAfter .lpddr4 []) 0#64
      = encode { row := 2 ^ 18 } (patterns .m16b .lpddr4 .ACT)
          (Spec.settingsAfter .lpddr4 []) 0#64 := by decide +kernel

/-! ## LPDDR6 -/

/-- What the LPDDR6 encoder accepts: a second bank that is a multiple of the number of bank groups,
and for reads and writes a burst length of 24 or 48. -/
def Accepts6 (x : Extra6) (p : List Desc6) (co : Coord6) : Prop :=
  x.numberOfBankGroups ≠ 0 ∧ co.dbank % x.numberOfBankGroups = 0 ∧
    (Desc6.C 0 ∈ p → x.currentBurstLength = 24 ∨ x.currentBurstLength = 48)

theorem lpddr6_wellformed (c : CmdType) : (lpddr6Patterns c).length ≤ 64 ∧
    (lpddr6Patterns c)[2]? ≠ some .PAR ∧ (lpddr6Patterns c ≠ [] → 3 ≤ (lpddr6Patterns c).length) := by
  cases c <;> decide

/-- A registered LPDDR6 command that is accepted is encoded without any parity. -/
theorem encode6_registered (c : CmdType) (x : Extra6) (co : Coord6)
    (hc : lpddr6Patterns c ≠ []) (ha : Accepts6 x (lpddr6Patterns c) co) :
    encode6 co (lpddr6Patterns c) x = .ok (encodeLoop (fun _ => encodeBit6 co x) (lpddr6Patterns c)
      ((lpddr6Patterns c).length - 1) 0#64) := by
  obtain ⟨h1, h2, h3⟩ := ha
  obtain ⟨hl, hp, h3l⟩ := lpddr6_wellformed c
  have h3l := h3l hc
  generalize lpddr6Patterns c = p at *
  unfold encode6
  rw [if_neg h1, if_neg (by simpa using h2)]
  simp only [usub_one (show 0 < p.length by omega)]
  rw [if_neg (by omega), if_neg fun h => h.2 ((h3 h.1).imp Eq.symm Eq.symm)]
  split
  · rw [List.getElem?_eq_getElem (by omega)] at hp ⊢
    simp only [ne_eq, Option.some.injEq] at hp
    simp [hp]
  · rfl

theorem encode6_bits (c : CmdType) (x : Extra6) (co : Coord6) (hc : lpddr6Patterns c ≠ [])
    (ha : Accepts6 x (lpddr6Patterns c) co) : ∃ w, encode6 co (lpddr6Patterns c) x = .ok w ∧
      (∀ i, (h : i < (lpddr6Patterns c).length) →
        Spec.position w (lpddr6Patterns c).length i
          = (encodeBit6 co x (lpddr6Patterns c)[i]).getD false) ∧
      (∀ k, (lpddr6Patterns c).length ≤ k → w.getLsbD k = false) := by
  refine ⟨_, encode6_registered c x co hc ha, fun i h => ?_, fun k h => ?_⟩
  · have hl := (lpddr6_wellformed c).1
    rw [Spec.position, encodeLoop_bit _ _ hc hl, dif_pos (by omega)]
    have : (lpddr6Patterns c).length - 1 - ((lpddr6Patterns c).length - 1 - i) = i := by omega
    simp [this]
  · rw [encodeLoop_bit _ _ hc (lpddr6_wellformed c).1, dif_neg (by omega)]

/-- The fixed levels of the LPDDR6 commands. -/
theorem C25_lpddr6_fixed (c : CmdType) (x : Extra6) (co : Coord6) (hc : lpddr6Patterns c ≠ [])
    (ha : Accepts6 x (lpddr6Patterns c) co) : ∃ w, encode6 co (lpddr6Patterns c) x = .ok w ∧
      (∀ i, (lpddr6Patterns c)[i]? = some .H →
        Spec.position w (lpddr6Patterns c).length i = true) ∧
      (∀ i, (lpddr6Patterns c)[i]? = some .L →
        Spec.position w (lpddr6Patterns c).length i = false) := by
  obtain ⟨w, hw, hb, -⟩ := encode6_bits c x co hc ha
  refine ⟨w, hw, fun i hi => ?_, fun i hi => ?_⟩ <;>
  · obtain ⟨h, hi⟩ := List.getElem?_eq_some_iff.1 hi
    rw [hb i h, hi]
    rfl

theorem encodeBit6_named (co : Coord6) (x : Extra6) (d : Desc6) (v : Bool)
    (h : Spec.named6 x.numberOfBankGroups co d = some v)
    (h0 : d = .C 0 → x.currentBurstLength = 24) : encodeBit6 co x d = some v := by
  cases d with
  | C i =>
    by_cases hi0 : i = 0
    · subst hi0
      simpa [encodeBit6, Spec.named6, h0 rfl] using h
    · simpa [encodeBit6, Spec.named6, hi0] using h
  | SC =>
    rw [← h, Spec.named6, encodeBit6]
    exact congrArg some BEq.comm
  | _ => simpa [encodeBit6, Spec.named6] using h

theorem named6_none {g : Nat} {a : Coord6} {d : Desc6} (h : Spec.named6 g a d = none) (b : Coord6) :
    Spec.named6 g b d = none := by
  cases d <;> simp_all [Spec.named6]

/-- LPDDR6: different named bits, different words; the lowest column bit of a burst of 48 is the
exception. -/
theorem C25_lpddr6_partial (c : CmdType) (x : Extra6) (a b : Coord6) (d : Desc6)
    (hd : d ∈ lpddr6Patterns c)
    (ha : Accepts6 x (lpddr6Patterns c) a) (hb : Accepts6 x (lpddr6Patterns c) b)
    (h0 : d = .C 0 → x.currentBurstLength = 24)
    (hne : Spec.named6 x.numberOfBankGroups a d ≠ Spec.named6 x.numberOfBankGroups b d) :
    ∃ wa wb, encode6 a (lpddr6Patterns c) x = .ok wa ∧ encode6 b (lpddr6Patterns c) x = .ok wb ∧
      wa ≠ wb := by
  have hc := List.ne_nil_of_mem hd
  obtain ⟨wa, hwa, hba, -⟩ := encode6_bits c x a hc ha
  obtain ⟨wb, hwb, hbb, -⟩ := encode6_bits c x b hc hb
  refine ⟨wa, wb, hwa, hwb, fun hab => hne ?_⟩
  obtain ⟨i, hi, hid⟩ := List.getElem_of_mem hd
  have h1 := hba i hi
  rw [hab, hbb i hi, hid] at h1
  rcases hna : Spec.named6 x.numberOfBankGroups a d with _ | va
  · exact absurd (named6_none hna) fun h => hne (hna.trans (h b).symm)
  rcases hnb : Spec.named6 x.numberOfBankGroups b d with _ | vb
  · exact absurd (named6_none hnb) fun h => hne ((h a).trans hnb.symm)
  rw [encodeBit6_named a x d va hna h0, encodeBit6_named b x d vb hnb h0] at h1
  simpa using h1.symm

example : Desc6.DBG 1 ∈ lpddr6Patterns .REFDB ∧
    Accepts6 {} (lpddr6Patterns .REFDB) { dbank := 8 } ∧
    Accepts6 {} (lpddr6Patterns .REFDB) { dbank := 4 } ∧
    Spec.named6 4 { dbank := 8 } (.DBG 1) ≠ Spec.named6 4 { dbank := 4 } (.DBG 1) := by
  unfold Accepts6; decide

/-- A burst of 48 read from columns 0 and 1 is the same word although column bit 0 is named. -/
theorem C25_violation_lpddr6 :
    Desc6.C 0 ∈ lpddr6Patterns .RD ∧
    Spec.named6 4 { column := 0 } (.C 0) ≠ Spec.named6 4 { column := 1 } (.C 0) ∧
    encode6 { column := 0 } (lpddr6Patterns .RD) { currentBurstLength := 48 }
      = encode6 { column := 1 } (lpddr6Patterns .RD) { currentBurstLength := 48 } := by
  decide +kernel

end DRAMPower
