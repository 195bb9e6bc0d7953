import Verif.Lemmas.Separate

/-!
# C26: different commands are distinguishable on the command bus

Full statement: for two different commands of one standard that act differently on the device no
pair of coordinates is encoded to the same word.

* `C26_lpddr4`: LPDDR4 satisfies it for every pair of commands.
* `C26_partial`, `C26_lpddr6_partial`: in the other standards it holds for every pair that does not
  share an entry of the pattern table (`Spec.shared`).
* `C26_shared`, `C26_shared_lpddr6`: the pairs that share an entry are the same word for equal
  coordinates; `C26_violation` names pairs among them that act differently.
-/

namespace DRAMPower

/-- The level sent for `V` and `X`. -/
def vLevel : Std → Bool
  | .ddr4 | .ddr5 => true
  | _ => false

theorem settings_const (std : Std) (calls : List (Nat × Bool)) (co : Coord) (last : Bool) (d : Desc)
    (v : Bool) (h : constBit (vLevel std) d = some v) :
    (encodeBit co (Spec.settingsAfter std calls) last d).getD false = v := by
  have get := settingsAfter_get std calls
  cases d with
  | V =>
    simp only [encodeBit, Overrides.apply, get .V (by cases std <;> decide)]
    cases std <;> exact Option.some.inj h
  | X =>
    simp only [encodeBit, Overrides.apply, get .X (by cases std <;> decide)]
    cases std <;> exact Option.some.inj h
  | CID i =>
    simp only [encodeBit, Overrides.apply, get (.CID i) (by clear h; cases std <;> revert i <;> decide)]
    have : (caInit std).settings.get (.CID i) = .INVALID := by
      clear h
      cases std <;> revert i <;> decide
    simpa [constBit, this] using h
  | _ => simp_all [constBit, encodeBit]

theorem patterns_separate (a : BankArch) (std : Std) (c c' : CmdType) (hc : patterns a std c ≠ [])
    (hc' : patterns a std c' ≠ []) (hne : c ≠ c') (ht : Spec.together (Spec.shared a std) c c' = false) :
    separate (constBit (vLevel std)) (patterns a std c).reverse (patterns a std c').reverse = true := by
  have key : ∀ a ∈ [BankArch.m16b, .mbg, .m8b], ∀ std ∈ [Std.ddr4, .ddr5, .lpddr4, .lpddr5, .lpddr6],
      ∀ c ∈ allCommands, ∀ c' ∈ allCommands,
      ((patterns a std c).isEmpty || (patterns a std c').isEmpty || c == c' ||
        Spec.together (Spec.shared a std) c c' ||
        separate (constBit (vLevel std)) (patterns a std c).reverse (patterns a std c').reverse)
        = true := by decide +kernel
  have := key a (by cases a <;> decide) std (by cases std <;> decide) c (mem_allCommands c) c'
    (mem_allCommands c')
  simpa [hc, hc', hne, ht] using this

/-- Two commands that do not share a table entry are never the same word, for any two coordinates
and any two histories. -/
theorem C26_partial (a : BankArch) (std : Std) (c c' : CmdType) (hc : patterns a std c ≠ [])
    (hc' : patterns a std c' ≠ []) (hne : c ≠ c')
    (ht : Spec.together (Spec.shared a std) c c' = false)
    (calls calls' : List (Nat × Bool)) (last last' : BitVec 64) (x y : Coord) :
    ∃ w w', encode x (patterns a std c) (Spec.settingsAfter std calls) last = .ok w ∧
      encode y (patterns a std c') (Spec.settingsAfter std calls') last' = .ok w' ∧ w ≠ w' := by
  have hl := (patterns_wellformed a std c).1
  have hl' := (patterns_wellformed a std c').1
  refine ⟨_, _, encode_ok _ _ _ _ hc hl, encode_ok _ _ _ _ hc' hl', ?_⟩
  exact words_differ _ _ _ _ _ _ _ (encodeLoop_bit _ _ hc hl) (encodeLoop_bit _ _ hc' hl')
    (fun i d v h => settings_const std calls x _ d v h)
    (fun i d v h => settings_const std calls' y _ d v h)
    (patterns_separate a std c c' hc hc' hne ht)

example : patterns .mbg .lpddr5 .RD ≠ [] ∧ patterns .mbg .lpddr5 .RDA ≠ [] ∧
    Spec.together (Spec.shared .mbg .lpddr5) .RD .RDA = false := by decide

/-- Every two different LPDDR4 commands are distinguishable. -/
theorem C26_lpddr4 (c c' : CmdType) (hc : lpddr4Patterns c ≠ []) (hc' : lpddr4Patterns c' ≠ [])
    (hne : c ≠ c') (calls calls' : List (Nat × Bool)) (last last' : BitVec 64) (x y : Coord) :
    ∃ w w', encode x (lpddr4Patterns c) (Spec.settingsAfter .lpddr4 calls) last = .ok w ∧
      encode y (lpddr4Patterns c') (Spec.settingsAfter .lpddr4 calls') last' = .ok w' ∧ w ≠ w' :=
  C26_partial .m16b .lpddr4 c c' hc hc' hne rfl calls calls' last last' x y

example : lpddr4Patterns .PRE ≠ [] ∧ lpddr4Patterns .PREA ≠ [] := by decide

/-- Commands that share a table entry are sent as the same word. -/
theorem C26_shared (a : BankArch) (std : Std) (c c' : CmdType)
    (ht : Spec.together (Spec.shared a std) c c' = true) (s : Overrides) (last : BitVec 64)
    (x : Coord) : encode x (patterns a std c) s last = encode x (patterns a std c') s last := by
  have key : ∀ a ∈ [BankArch.m16b, .mbg, .m8b], ∀ std ∈ [Std.ddr4, .ddr5, .lpddr4, .lpddr5, .lpddr6],
      ∀ c ∈ allCommands, ∀ c' ∈ allCommands,
      (!Spec.together (Spec.shared a std) c c' || patterns a std c == patterns a std c')
        = true := by decide +kernel
  have := key a (by cases a <;> decide) std (by cases std <;> decide) c (mem_allCommands c) c'
    (mem_allCommands c')
  have e : patterns a std c = patterns a std c' := by simpa [ht] using this
  rw [e]

example : Spec.together (Spec.shared .m16b .ddr4) .REFA .SREFEN = true := by decide

/-! ## LPDDR6 -/

theorem constBit6_spec (co : Coord6) (x : Extra6) (d : Desc6) (v : Bool)
    (h : constBit6 d = some v) : (encodeBit6 co x d).getD false = v := by
  cases d <;> simp_all [constBit6, encodeBit6]

/-- LPDDR6: two commands that do not share a table entry are never the same word. -/
theorem C26_lpddr6_partial (c c' : CmdType) (hc : lpddr6Patterns c ≠ [])
    (hc' : lpddr6Patterns c' ≠ []) (hne : c ≠ c')
    (ht : Spec.together (Spec.shared .m16b .lpddr6) c c' = false) (x x' : Extra6) (a b : Coord6)
    (ha : Accepts6 x (lpddr6Patterns c) a) (hb : Accepts6 x' (lpddr6Patterns c') b) :
    ∃ w w', encode6 a (lpddr6Patterns c) x = .ok w ∧ encode6 b (lpddr6Patterns c') x' = .ok w' ∧
      w ≠ w' := by
  refine ⟨_, _, encode6_registered c x a hc ha, encode6_registered c' x' b hc' hb, ?_⟩
  have key : ∀ c ∈ allCommands, ∀ c' ∈ allCommands,
      ((lpddr6Patterns c).isEmpty || (lpddr6Patterns c').isEmpty || c == c' ||
        Spec.together (Spec.shared .m16b .lpddr6) c c' ||
        separate constBit6 (lpddr6Patterns c).reverse (lpddr6Patterns c').reverse)
        = true := by decide +kernel
  have hs := key c (mem_allCommands c) c' (mem_allCommands c')
  exact words_differ constBit6 _ _ _ _ _ _ (encodeLoop_bit _ _ hc (lpddr6_wellformed c).1)
    (encodeLoop_bit _ _ hc' (lpddr6_wellformed c').1)
    (fun _ d v h => constBit6_spec a x d v h) (fun _ d v h => constBit6_spec b x' d v h)
    (by simpa [hc, hc', hne, ht] using hs)

example : Accepts6 { currentBurstLength := 24 } (lpddr6Patterns .RD) {} ∧
    Accepts6 {} (lpddr6Patterns .ACT) { row := 5 } := by
  unfold Accepts6; decide

/-- LPDDR6 commands of one group are sent as the same word. -/
theorem C26_shared_lpddr6 (c c' : CmdType)
    (ht : Spec.together (Spec.shared .m16b .lpddr6) c c' = true) (x : Extra6) (a : Coord6)
    (h : a.dbank % x.numberOfBankGroups = 0) (h0 : x.numberOfBankGroups ≠ 0) :
    ∃ w, encode6 a (lpddr6Patterns c) x = .ok w ∧ encode6 a (lpddr6Patterns c') x = .ok w := by
  have key : ∀ c ∈ allCommands, ∀ c' ∈ allCommands,
      (!Spec.together (Spec.shared .m16b .lpddr6) c c' || (!(lpddr6Patterns c).isEmpty &&
        !(lpddr6Patterns c').isEmpty && !(lpddr6Patterns c).contains (.C 0) &&
        !(lpddr6Patterns c').contains (.C 0) &&
        (lpddr6Patterns c).map constBit6 == (lpddr6Patterns c').map constBit6 &&
        (lpddr6Patterns c).all fun d => (constBit6 d).isSome)) = true := by decide +kernel
  have hk := key c (mem_allCommands c) c' (mem_allCommands c')
  simp only [ht, Bool.not_true, Bool.false_or, Bool.and_eq_true, Bool.not_eq_true',
    List.isEmpty_eq_false_iff, List.contains_eq_mem, decide_eq_false_iff_not, beq_iff_eq] at hk
  obtain ⟨⟨⟨⟨⟨h1, h2⟩, h3⟩, h4⟩, h5⟩, h6⟩ := hk
  refine ⟨_, encode6_registered c x a h1 ⟨h0, h, fun hm => absurd hm h3⟩, ?_⟩
  rw [encode6_registered c' x a h2 ⟨h0, h, fun hm => absurd hm h4⟩]
  congr 1
  have hlen : (lpddr6Patterns c).length = (lpddr6Patterns c').length := by
    simpa using congrArg List.length h5
  refine BitVec.eq_of_getLsbD_eq fun i _ => ?_
  rw [encodeLoop_bit _ _ h1 (lpddr6_wellformed c).1, encodeLoop_bit _ _ h2 (lpddr6_wellformed c').1]
  by_cases hi : i < (lpddr6Patterns c).length
  · rw [dif_pos hi, dif_pos (hlen ▸ hi)]
    have hm : constBit6 ((lpddr6Patterns c)[(lpddr6Patterns c).length - 1 - i]'(by omega))
        = constBit6 ((lpddr6Patterns c')[(lpddr6Patterns c').length - 1 - i]'(by omega)) := by
      have := congrArg (fun l => l[(lpddr6Patterns c).length - 1 - i]?) h5
      simp only [List.getElem?_map] at this
      rw [List.getElem?_eq_getElem (by omega), List.getElem?_eq_getElem (by omega)] at this
      simp only [Option.map_some, Option.some.injEq] at this
      rw [this]
      simp only [hlen]
    have hs := List.all_eq_true.1 h6 _ (List.getElem_mem
      (show (lpddr6Patterns c).length - 1 - i < (lpddr6Patterns c).length by omega))
    obtain ⟨v, hv⟩ := Option.isSome_iff_exists.1 hs
    rw [constBit6_spec a x _ v hv, constBit6_spec a x _ v (hm ▸ hv)]
  · rw [dif_neg hi, dif_neg (hlen ▸ hi)]

example : Spec.together (Spec.shared .m16b .lpddr6) .NOP .PDXA = true ∧
    ({} : Coord6).dbank % ({} : Extra6).numberOfBankGroups = 0 := by decide

/-- The claim fails: DDR4 all-bank refresh and self-refresh entry, DDR4 power-down entry and exit,
DDR5 and LPDDR6 no-operation and power-down exit, LPDDR5 per-bank and per-two-bank refresh,
self-refresh exit and deep-sleep exit act differently and are the same word. -/
theorem C26_violation (s : Overrides) (last : BitVec 64) (x : Coord) :
    encode x (patterns .m16b .ddr4 .REFA) s last = encode x (patterns .m16b .ddr4 .SREFEN) s last ∧
    encode x (patterns .m16b .ddr4 .PDEA) s last = encode x (patterns .m16b .ddr4 .PDXA) s last ∧
    encode x (patterns .m16b .ddr5 .NOP) s last = encode x (patterns .m16b .ddr5 .PDXA) s last ∧
    encode x (patterns .mbg .lpddr5 .REFB) s last = encode x (patterns .mbg .lpddr5 .REFP2B) s last ∧
    encode x (patterns .mbg .lpddr5 .SREFEX) s last
      = encode x (patterns .mbg .lpddr5 .DSMEX) s last ∧
    encode6 {} (lpddr6Patterns .NOP) {} = encode6 {} (lpddr6Patterns .PDXA) {} :=
  ⟨rfl, rfl, rfl, rfl, rfl, by decide +kernel⟩

end DRAMPower
