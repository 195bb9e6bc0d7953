import Verif.Lemmas.Project
import Verif.Lemmas.BusTrace
import Verif.Props.C27

/-!
# The level a command puts on each position of its pattern

Whatever was sent before, the level is the one of `Spec.sentLevel`, which reads the command only.
-/

namespace DRAMPower
open Spec
variable {std : Std} {sp : IfSpec} {c : ICmd}

theorem settingsAfter_snoc (std : Std) (calls : List (Nat × Bool)) (n : Nat) (r : Bool) :
    settingsAfter std (calls ++ [(n, r)]) = handleOverrides (settingsAfter std calls) n r std := by
  unfold settingsAfter
  rw [List.foldl_append]; rfl

theorem forced_other (std : Std) (n : Nat) (r : Bool) (d : Desc) (h : d ∉ burstBits std) : forced std n r d = none := by
  cases d with
  | C i =>
    have h0 : ∀ k, .C k ∈ burstBits std → i ≠ k := by rintro k hk rfl; exact h hk
    cases std <;> simp only [forced]
    · have a := h0 0 (by decide); have b := h0 1 (by decide); have e := h0 2 (by decide)
      simp only [ne_eq, Fin.ext_iff] at a b e
      rw [if_neg (by simp at a b e; omega), if_neg (by simp at a b e; omega)]
    · have a := h0 0 (by decide); have b := h0 1 (by decide); have e := h0 2 (by decide); have f := h0 3 (by decide); have g := h0 10 (by decide)
      simp only [ne_eq, Fin.ext_iff] at a b e f g
      rw [if_neg (by simp at a b; omega), if_neg (by exact e), if_neg (by exact f), if_neg fun h => g h.1]
    · have a := h0 0 (by decide); have b := h0 1 (by decide); have e := h0 2 (by decide); have f := h0 3 (by decide); have g := h0 4 (by decide)
      simp only [ne_eq, Fin.ext_iff] at a b e f g
      rw [if_neg (by simp at a b e f; omega), if_neg fun h => g h.1]
    · have a := h0 0 (by decide)
      simp only [ne_eq, Fin.ext_iff] at a
      rw [if_neg fun h => a h.1]
  | BL =>
    cases std <;> first | rfl | exact absurd (by decide) h
  | _ => cases std <;> rfl

/-- The setting a level stands for. -/
def levelSpec : Option Bool → BitSpec → BitSpec
  | some true, _ => .H
  | some false, _ => .L
  | none, s => s

theorem keep_get (std : Std) (d : Desc) (hk : ∀ s n r, (handleOverrides s n r std).get d = s.get d) (calls : List (Nat × Bool)) :
    (settingsAfter std calls).get d = (caInit std).settings.get d := by
  unfold settingsAfter
  generalize (caInit std).settings = s
  induction calls generalizing s with
  | nil => rfl
  | cons c calls ih => rw [List.foldl_cons, ih, hk]

/-- After a transfer only the transfer itself decides the settings. -/
theorem forced_get (std : Std) (calls : List (Nat × Bool)) (n : Nat) (r : Bool) (d : Desc) :
    (settingsAfter std (calls ++ [(n, r)])).get d = levelSpec (forced std n r d) ((caInit std).settings.get d) := by
  by_cases hd : d ∈ burstBits std
  · rw [settingsAfter_snoc]
    have k0 : std = .ddr5 ∨ std = .lpddr4 → d = .C 0 ∨ d = .C 1 → ∀ s n r, (handleOverrides s n r std).get d = s.get d := by
      intro hs he s n r
      rcases hs with rfl | rfl <;> rcases he with rfl | rfl <;> simp only [handleOverrides] <;> repeat' split
      all_goals simp only [get_update, Overrides.get_erase]; rfl
    have hk : std = .ddr5 ∨ std = .lpddr4 → d = .C 0 ∨ d = .C 1 → (handleOverrides (settingsAfter std calls) n r std).get d = (caInit std).settings.get d :=
      fun a b => (k0 a b _ _ _).trans (keep_get std d (k0 a b) calls)
    clear k0
    generalize settingsAfter std calls = s at *
    cases std <;> simp only [burstBits, List.mem_cons, List.not_mem_nil, or_false] at hd
    · clear hk
      have f0 : forced .ddr4 n r (.C 0) = some (!r) := rfl
      have f1 : forced .ddr4 n r (.C 1) = some (!r) := rfl
      have f2 : forced .ddr4 n r (.C 2) = some (!r && n != 4) := rfl
      rcases hd with rfl | rfl | rfl <;> simp only [handleOverrides, f0, f1, f2] <;> cases r <;> by_cases h4 : n = 4 <;>
        simp [h4, get_update, levelSpec]
      rw [show (n != 4) = true by simp [h4]]
    · have f2 : forced .ddr5 n r (.C 2) = some (!r) := rfl
      have f3 : forced .ddr5 n r (.C 3) = some (!r && n != 8) := rfl
      have f10 : forced .ddr5 n r (.C 10) = if n = 32 then some false else none := by
        show (if 10 = 10 ∧ n = 32 then some false else none) = _
        simp
      rcases hd with rfl | rfl | rfl | rfl | rfl
      · rw [hk (.inl rfl) (.inl rfl)]; rfl
      · rw [hk (.inl rfl) (.inr rfl)]; rfl
      all_goals
        clear hk
        simp only [handleOverrides, f2, f3, f10]
        by_cases h8 : n = 8
        · subst h8; cases r <;> simp [get_update, Overrides.get_erase, levelSpec] <;> rfl
        · have e8 : (n != 8) = true := by simp [h8]
          rw [if_neg h8]
          by_cases h32 : n = 32
          · rw [if_pos h32]; cases r <;> simp [e8, h32, get_update, Overrides.get_erase, levelSpec]
          · rw [if_neg h32]; cases r <;> simp [e8, h32, get_update, Overrides.get_erase, levelSpec] <;> rfl
    · have f2 : forced .lpddr4 n r (.C 2) = some false := rfl
      have f3 : forced .lpddr4 n r (.C 3) = some false := rfl
      have f4 : forced .lpddr4 n r (.C 4) = if n = 32 then some false else none := by
        show (if 4 = 4 ∧ n = 32 then some false else none) = _
        simp
      have fb : forced .lpddr4 n r .BL = some (n == 32) := rfl
      rcases hd with rfl | rfl | rfl | rfl | rfl | rfl
      · rw [hk (.inr rfl) (.inl rfl)]; rfl
      · rw [hk (.inr rfl) (.inr rfl)]; rfl
      all_goals
        clear hk
        simp only [handleOverrides, f2, f3, f4, fb]
        by_cases h32 : n = 32
        · subst h32; simp [get_update, Overrides.get_erase, levelSpec]
        · have e32 : (n == 32) = false := by simp [h32]
          simp [e32, h32, get_update, Overrides.get_erase, levelSpec] <;> rfl
    · subst hd
      have f0 : forced .lpddr5 n r (.C 0) = if n = 32 then some false else none := by
        show (if 0 = 0 ∧ n = 32 then some false else none) = _
        simp
      simp only [handleOverrides, f0]
      by_cases h32 : n = 32
      · subst h32; simp [get_update, levelSpec]
      · simp [h32, Overrides.get_erase, levelSpec]; rfl
  · rw [settingsAfter_get _ _ _ hd, forced_other _ _ _ _ hd]; rfl

theorem init_column {n : Nat} {r : Bool} {i : Fin 17} (h : forced std n r (.C i) = none) : (caInit std).settings.get (.C i) = .INVALID := by
  have h01 : std = .ddr5 ∨ std = .lpddr4 → i ≠ 0 ∧ i ≠ 1 := by
    rintro (rfl | rfl) <;> constructor <;> rintro rfl <;> cases h
  clear h
  revert h01
  cases std <;> revert i <;> decide

/-- Without a forced level: the coordinate bit, or the constant level. -/
theorem level_init (h6 : std ≠ .lpddr6) {co : Coord} {s : Overrides} {last : Bool} {d : Desc} (hs : s.get d = (caInit std).settings.get d)
    (hc : ∀ i, d = .C i → (caInit std).settings.get (.C i) = .INVALID) (hrow : ∀ i, d = .R i → i ≤ 17 ∨ co.row.testBit i = false) : (encodeBit co s last d).getD false = (named co d).getD (fixedLevel std d) := by
  have inv : ∀ i, d = .C i ∨ d = .CID 0 ∨ d = .CID 1 ∨ d = .CID 2 ∨ d = .CID 3 ∨ d = .AP ∨ d = .BL → s.get d = .INVALID := by
    intro i hd
    rw [hs]
    rcases hd with rfl | rfl | rfl | rfl | rfl | rfl | rfl
    · exact hc i rfl
    all_goals cases std <;> rfl
  cases d with
  | C i =>
    simp only [encodeBit, Overrides.apply, inv i (.inl rfl)]
    split <;> rfl
  | CID i =>
    have : s.get (.CID i) = .INVALID := inv 0 (.inr (by clear hs hc inv hrow; revert i; decide))
    simp only [encodeBit, Overrides.apply, this]; rfl
  | AP => simp only [encodeBit, Overrides.apply, inv 0 (by simp)]; rfl
  | BL => simp only [encodeBit, Overrides.apply, inv 0 (by simp)]; rfl
  | V =>
    simp only [encodeBit, Overrides.apply, hs]
    cases std <;> first | rfl | exact absurd rfl h6
  | X =>
    simp only [encodeBit, Overrides.apply, hs]
    cases std <;> first | rfl | exact absurd rfl h6
  | R i =>
    simp only [encodeBit, named]
    split
    · rfl
    · rename_i hi
      have hz : co.row.testBit i = false := (hrow i rfl).resolve_left hi
      rw [hz]; rfl
  | _ => rfl

theorem other_bits (a : BankArch) (std : Std) (ty : CmdType) (h : direction ty = none) :
    ∀ d ∈ patterns a std ty, d ∉ burstBits std := by
  cases a <;> cases std <;> cases ty <;> first | (exact absurd h (by decide)) | decide +kernel

/-- The transfer a command makes, as seen by the settings. -/
def ownTransfer (std : Std) (sp : IfSpec) (c : ICmd) : List (Nat × Bool) :=
  match direction c.type with
  | some r => [(dataBeats std sp c, r)]
  | none => []

theorem sent_bit (h6 : std ≠ .lpddr6) (calls : List (Nat × Bool)) (last : Bool) {d : Desc} (hd : d ∈ patterns sp.arch std c.type)
    (hrow : std = .lpddr4 → c.type = .ACT → c.co.row.testBit 18 = false) :
    (encodeBit c.co (settingsAfter std (calls ++ ownTransfer std sp c)) last d).getD false = sentLevel std sp c d := by
  have hrow : ∀ i, d = .R i → i ≤ 17 ∨ c.co.row.testBit i = false := by
    intro i e
    rcases (patterns_wellformed sp.arch std c.type).2 d hd i e with h | ⟨h1, h2, h3⟩
    · exact .inl h
    · subst h3; exact .inr (hrow h1 h2)
  unfold ownTransfer sentLevel
  cases hdir : direction c.type with
  | none =>
    have h1 := other_bits _ _ _ hdir d hd
    exact level_init h6 (by rw [List.append_nil]; exact settingsAfter_get _ _ _ h1)
      (fun i e => init_column (n := 0) (r := true) (e ▸ forced_other _ _ _ _ h1)) hrow
  | some r =>
    have hg := forced_get std calls (dataBeats std sp c) r d
    dsimp only [Option.bind]
    revert hg
    generalize settingsAfter std (calls ++ [(dataBeats std sp c, r)]) = s
    intro hg
    cases hf : forced std (dataBeats std sp c) r d with
    | none =>
      rw [hf] at hg
      exact level_init h6 hg (fun i e => init_column (e ▸ hf)) hrow
    | some v =>
      rw [hf] at hg
      have ho : d ∈ overridable := by
        by_cases hb : d ∈ burstBits std
        · revert hb
          clear hg hf hd
          cases std <;> simp only [burstBits, List.mem_cons, List.not_mem_nil, or_false] <;> intro hb <;> try (exact hb.elim)
          · rcases hb with rfl | rfl | rfl <;> decide
          · rcases hb with rfl | rfl | rfl | rfl | rfl <;> decide
          · rcases hb with rfl | rfl | rfl | rfl | rfl | rfl <;> decide
          · subst hb; decide
        · rw [forced_other _ _ _ _ hb] at hf; cases hf
      rw [encodeBit_override _ _ _ _ ho]
      unfold Overrides.apply
      rw [hg]
      cases v <;> rfl

theorem other_bits6 (ty : CmdType) (h : direction ty = none) : ∀ d ∈ lpddr6Patterns ty, d ≠ .BL ∧ ∀ i, d ≠ .C i := by
  have key : ∀ d ∈ lpddr6Patterns ty, d ≠ .BL ∧ (match d with | .C _ => false | _ => true) = true := by
    cases ty <;> first | (exact absurd h (by decide)) | decide +kernel
  intro d hd
  obtain ⟨h1, h2⟩ := key d hd
  refine ⟨h1, ?_⟩
  rintro i rfl
  cases h2

theorem sent_bit6 {x : Extra6} (hg : x.numberOfBankGroups = sp.bankGroups)
    (hb : direction c.type ≠ none → x.currentBurstLength = dataBeats .lpddr6 sp c) {d : Desc6} (hd : d ∈ lpddr6Patterns c.type) :
    (encodeBit6 c.co6 x d).getD false = sentLevel6 sp c d := by
  have hbl : (d = .BL ∨ ∃ i, d = .C i) → x.currentBurstLength = dataBeats .lpddr6 sp c := by
    intro h
    refine hb fun hn => ?_
    obtain ⟨h1, h2⟩ := other_bits6 _ hn d hd
    rcases h with h | ⟨i, h⟩
    · exact h1 h
    · exact h2 i h
  cases d with
  | BL =>
    simp only [encodeBit6, sentLevel6, hbl (.inl rfl), Option.getD_some]
    exact BEq.comm
  | C i =>
    have e := hbl (.inr ⟨i, rfl⟩)
    simp only [encodeBit6, sentLevel6, e]
    by_cases hi : i = 0
    · subst hi
      by_cases h24 : dataBeats .lpddr6 sp c = 24
      · simp [h24]; rfl
      · simp [h24, Ne.symm h24]
    · have : (i.val != 0) = true := by
        rw [bne_iff_ne]; intro h; exact hi (Fin.ext h)
      simp only [if_neg hi, this, Bool.true_or, Bool.and_true]; rfl
  | DBG i => simp only [encodeBit6, sentLevel6, named6, hg]; rfl
  | SC =>
    simp only [encodeBit6, sentLevel6, named6, Option.getD_some]
    exact BEq.comm
  | _ => rfl

end DRAMPower
