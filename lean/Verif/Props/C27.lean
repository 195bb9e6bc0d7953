import Verif.Props.C25

/-!
# C27: the encoding is a function of command, coordinate, settings and last word

* `C27_width`, `C27_width_lpddr6`: no bits outside the pattern.
* `C27_history`: the previous word matters only where the setting is 'repeat last bit', and there
  the previous level is repeated.
* `C27_handler`: in the four standards that have overrides the word never depends on the history.
* `C27_settings`: the setting of a descriptor is decided by the last operation that touched it.
* `C27_override_partial`: changing the override of a descriptor changes no other position, and the
  descriptor's own positions take the overriding level. Full statement: for every descriptor. The
  second half is missing for the descriptors the encoder never overrides.
* `C27_override_violation`: an override of a bank bit is ignored.
-/

namespace DRAMPower

/-- A word has no bits outside its pattern; patterns that are empty or too long are rejected. -/
theorem C27_width (co : Coord) (p : List Desc) (s : Overrides) (last : BitVec 64)
    (hlen : p.length < 2 ^ 63) :
    (p ≠ [] ∧ p.length ≤ 64 ∧
      ∃ w, encode co p s last = .ok w ∧ ∀ k, p.length ≤ k → w.getLsbD k = false) ∨
    ((p = [] ∨ 64 < p.length) ∧ ∃ m, encode co p s last = .error (.assertion m)) := by
  by_cases hp : p = []
  · subst hp
    exact .inr ⟨.inl rfl, _, rfl⟩
  · have hpos := List.length_pos_iff.2 hp
    by_cases hl : p.length ≤ 64
    · obtain ⟨w, hw, -, hk⟩ := encode_bits co p s last hp hl
      exact .inl ⟨hp, hl, w, hw, hk⟩
    · refine .inr ⟨.inr (by omega), "n < 64", ?_⟩
      simp only [encode, usub_one hpos]
      rw [if_neg (by omega)]

example : (ddr4Patterns .SREFEX).length = 54 := by decide

/-- LPDDR6 words of registered commands have no bits outside their pattern. -/
theorem C27_width_lpddr6 (c : CmdType) (x : Extra6) (co : Coord6) (hc : lpddr6Patterns c ≠ [])
    (ha : Accepts6 x (lpddr6Patterns c) co) : ∃ w, encode6 co (lpddr6Patterns c) x = .ok w ∧
      ∀ k, (lpddr6Patterns c).length ≤ k → w.getLsbD k = false := by
  obtain ⟨w, hw, -, hk⟩ := encode6_bits c x co hc ha
  exact ⟨w, hw, hk⟩

example : lpddr6Patterns .WR ≠ [] ∧
    Accepts6 { currentBurstLength := 48 } (lpddr6Patterns .WR) { column := 3 } := by
  unfold Accepts6; decide

/-- The descriptors whose level can be overridden. -/
def overridable : List Desc :=
  [.V, .X, .AP, .BL, .CID 0, .CID 1, .CID 2, .CID 3, .C 0, .C 1, .C 2, .C 3, .C 4, .C 10]

/-- The level of a descriptor when nothing is overridden: a coordinate bit, or a constant, which is
high for the burst-length and chip-identifier bits. -/
def Spec.natural (co : Coord) (d : Desc) : Bool :=
  match Spec.named co d, d with
  | some v, _ => v
  | none, .H | none, .BL | none, .CID _ => true
  | none, _ => false

theorem natural_eq (co : Coord) (d : Desc) (h : d ∈ overridable) :
    (encodeBit co [] false d).getD false = Spec.natural co d := by
  simp only [overridable, List.mem_cons, List.not_mem_nil, or_false] at h
  rcases h with h | h | h | h | h | h | h | h | h | h | h | h | h | h <;> subst h <;> rfl

theorem encodeBit_other (co : Coord) (s : Overrides) (last : Bool) (d : Desc)
    (h : s.get d = .INVALID ∨ d ∉ overridable) :
    (encodeBit co s last d).getD false = (encodeBit co [] false d).getD false := by
  cases d with
  | C i =>
    by_cases hi : i ≤ 4 ∨ i = 10
    · have : Desc.C i ∈ overridable := by
        clear h; revert i; decide
      rcases h with h | h
      · simp only [encodeBit, if_pos hi, Overrides.apply, h]; rfl
      · exact absurd this h
    · simp only [encodeBit, if_neg hi]
  | CID i =>
    have : Desc.CID i ∈ overridable := by clear h; revert i; decide
    rcases h with h | h
    · simp only [encodeBit, Overrides.apply, h]; rfl
    · exact absurd this h
  | V | X | AP | BL =>
    rcases h with h | h
    · simp only [encodeBit, Overrides.apply, h]; rfl
    · exact absurd (by decide) h
  | _ => rfl

theorem encodeBit_override (co : Coord) (s : Overrides) (last : Bool) (d : Desc)
    (h : d ∈ overridable) :
    encodeBit co s last d = some (s.apply d last (Spec.natural co d)) := by
  simp only [overridable, List.mem_cons, List.not_mem_nil, or_false] at h
  rcases h with h | h | h | h | h | h | h | h | h | h | h | h | h | h <;> subst h <;> rfl

/-- The previous word is only looked at where the setting says so, and there its level is repeated
if the descriptor can be overridden at all. -/
theorem C27_history (co : Coord) (p : List Desc) (s : Overrides) (last last' : BitVec 64)
    (hp : p ≠ []) (hl : p.length ≤ 64) : ∃ w w', encode co p s last = .ok w ∧
      encode co p s last' = .ok w' ∧
      (∀ i d, p[i]? = some d → s.get d ≠ .LAST_BIT →
        Spec.position w p.length i = Spec.position w' p.length i) ∧
      (∀ i d, p[i]? = some d → s.get d = .LAST_BIT → d ∈ overridable →
        Spec.position w p.length i = Spec.position last p.length i) := by
  obtain ⟨w, hw, hb, -⟩ := encode_bits co p s last hp hl
  obtain ⟨w', hw', hb', -⟩ := encode_bits co p s last' hp hl
  refine ⟨w, w', hw, hw', fun i d hi hd => ?_, fun i d hi hd ho => ?_⟩
  · obtain ⟨h, rfl⟩ := List.getElem?_eq_some_iff.1 hi
    rw [Spec.position, Spec.position, hb i h, hb' i h]
    by_cases ho : p[i] ∈ overridable
    · rw [encodeBit_override _ _ _ _ ho, encodeBit_override _ _ _ _ ho]
      unfold Overrides.apply
      cases hg : s.get p[i] <;> simp_all
    · exact (encodeBit_other _ _ _ _ (.inr ho)).trans (encodeBit_other _ _ _ _ (.inr ho)).symm
  · obtain ⟨h, rfl⟩ := List.getElem?_eq_some_iff.1 hi
    rw [Spec.position, Spec.position, hb i h, encodeBit_override _ _ _ _ ho]
    simp [Overrides.apply, hd]

example : (ddr4Patterns .PRE)[9]? = some .V ∧
    (Overrides.ofList [(.V, .LAST_BIT)]).get .V = .LAST_BIT ∧ Desc.V ∈ overridable := by decide

theorem update_not_last (l : List (Desc × BitSpec)) (h : ∀ e ∈ l, e.2 ≠ .LAST_BIT) :
    ∀ s : Overrides, (∀ d, s.get d ≠ .LAST_BIT) → ∀ d, (s.update l).get d ≠ .LAST_BIT := by
  induction l with
  | nil => intro s hs; exact hs
  | cons e l ih =>
    intro s hs d
    have h1 : s.update (e :: l) = (s.set e.1 e.2).update l := rfl
    rw [h1]
    refine ih (fun x hx => h x (by simp [hx])) _ (fun d => ?_) d
    rw [Overrides.get_set]
    split
    · exact h e (by simp)
    · exact hs d

theorem settingsAfter_not_last (std : Std) (calls : List (Nat × Bool)) :
    ∀ d, (Spec.settingsAfter std calls).get d ≠ .LAST_BIT := by
  unfold Spec.settingsAfter
  have hi : ∀ d, (caInit std).settings.get d ≠ .LAST_BIT := by
    have h0 : ∀ l : Overrides, (∀ e ∈ l, e.2 ≠ .LAST_BIT) → ∀ d, l.get d ≠ .LAST_BIT := by
      intro l hl d
      unfold Overrides.get
      split
      · rename_i e he
        exact hl e (List.mem_of_find?_eq_some he)
      · simp
    exact h0 _ (by cases std <;> decide)
  revert hi
  generalize (caInit std).settings = s
  induction calls generalizing s with
  | nil => intro h; exact h
  | cons c calls ih =>
    intro h
    rw [List.foldl_cons]
    refine ih _ ?_
    have he : ∀ x d, (s.erase x).get d ≠ .LAST_BIT := by
      intro x d
      rw [Overrides.get_erase]
      split
      · simp
      · exact h d
    cases std <;> simp only [handleOverrides] <;> repeat' split
    all_goals first
      | exact update_not_last _ (by decide) _ h
      | exact update_not_last _ (by decide) _ (he _)
      | exact he _
      | exact h

/-- In every standard with overrides the word of a command is the same whatever was sent before. -/
theorem C27_handler (a : BankArch) (std : Std) (calls : List (Nat × Bool)) (h h' : CaHandler)
    (hs : h.settings = Spec.settingsAfter std calls)
    (hs' : h'.settings = Spec.settingsAfter std calls) (c : CmdType) (co : Coord) :
    (h.command (patterns a std) c co).map Prod.snd
      = (h'.command (patterns a std) c co).map Prod.snd := by
  unfold CaHandler.command
  split
  · rfl
  split
  · rfl
  rename_i hc
  have hl := (patterns_wellformed a std c).1
  rw [hs, hs']
  obtain ⟨w, w', hw, hw', hp, -⟩ := C27_history co (patterns a std c)
    (Spec.settingsAfter std calls) h.lastPattern h'.lastPattern hc hl
  have e : w = w' := by
    refine BitVec.eq_of_getLsbD_eq fun k _ => ?_
    obtain ⟨_, e1, hb, hz⟩ := encode_bits co _ (Spec.settingsAfter std calls) h.lastPattern hc hl
    obtain ⟨_, e1', hb', hz'⟩ := encode_bits co _ (Spec.settingsAfter std calls) h'.lastPattern hc hl
    rw [hw] at e1
    rw [hw'] at e1'
    obtain rfl := Except.ok.inj e1
    obtain rfl := Except.ok.inj e1'
    by_cases hk : k < (patterns a std c).length
    · have := hp ((patterns a std c).length - 1 - k) _ (List.getElem?_eq_getElem (by omega))
        (settingsAfter_not_last std calls _)
      have hkk : (patterns a std c).length - 1 - ((patterns a std c).length - 1 - k) = k := by omega
      simpa [Spec.position, hkk] using this
    · rw [hz k (by omega), hz' k (by omega)]
  rw [hw, hw', e]

example : (caInit .ddr4).settings = Spec.settingsAfter .ddr4 [] ∧
    ((caInit .ddr4).command (patterns .m16b .ddr4) .RD { column := 8 }).toOption.isSome = true := by
  decide +kernel

/-! ## Settings histories -/

/-- One operation on the settings. -/
inductive SettingOp
  | update (l : List (Desc × BitSpec))
  | remove (d : Desc)

/-- The settings after the operation. -/
def Overrides.step (s : Overrides) : SettingOp → Overrides
  | .update l => s.update l
  | .remove d => s.erase d

/-- What the operations, newest first, say about a descriptor: the last entry that mentions it. -/
def Spec.decided (d : Desc) (before : BitSpec) : List SettingOp → BitSpec
  | [] => before
  | .update l :: ops =>
    match l.reverse.find? fun e => e.1 = d with
    | some e => e.2
    | none => decided d before ops
  | .remove d' :: ops => if d' = d then .INVALID else decided d before ops

theorem get_update (l : List (Desc × BitSpec)) (s : Overrides) (d : Desc) :
    (s.update l).get d = match l.reverse.find? fun e => e.1 = d with
      | some e => e.2
      | none => s.get d := by
  induction l generalizing s with
  | nil => rfl
  | cons e l ih =>
    have h1 : s.update (e :: l) = (s.set e.1 e.2).update l := rfl
    rw [h1, ih, List.reverse_cons, List.find?_append]
    cases hf : l.reverse.find? fun e => decide (e.1 = d) with
    | some x => rfl
    | none =>
      rw [Overrides.get_set]
      by_cases he : e.1 = d
      · simp [he]
      · simp [he, Ne.symm he]

/-- Every history of settings: the last operation that mentions a descriptor decides. -/
theorem C27_settings (s : Overrides) (ops : List SettingOp) (d : Desc) :
    (ops.foldl Overrides.step s).get d = Spec.decided d (s.get d) ops.reverse := by
  rw [← List.foldr_reverse]
  generalize ops.reverse = l
  induction l with
  | nil => rfl
  | cons op l ih =>
    rw [List.foldr_cons]
    cases op with
    | update l' =>
      rw [Spec.decided, ← ih]
      exact get_update ..
    | remove d' =>
      rw [Spec.decided, ← ih]
      refine (Overrides.get_erase ..).trans ?_
      by_cases h : d = d'
      · simp [h]
      · simp [h, Ne.symm h]

example : ([SettingOp.update [(.C 10, .L), (.C 3, .H)], .remove (.C 10)].foldl Overrides.step []).get
    (.C 3) = .H := by decide

/-- Overriding a descriptor leaves every other position alone; its own positions take the level of
the override, and without an override their natural level. -/
theorem C27_override_partial (co : Coord) (p : List Desc) (s s' : Overrides) (last : BitVec 64)
    (d : Desc) (hsame : ∀ e, e ≠ d → s.get e = s'.get e) (hp : p ≠ []) (hl : p.length ≤ 64) :
    ∃ w w', encode co p s last = .ok w ∧ encode co p s' last = .ok w' ∧
      (∀ i e, p[i]? = some e → e ≠ d →
        Spec.position w p.length i = Spec.position w' p.length i) ∧
      (d ∈ overridable → ∀ i, p[i]? = some d → Spec.position w p.length i = match s.get d with
        | .L => false
        | .H => true
        | .LAST_BIT => Spec.position last p.length i
        | .INVALID => Spec.natural co d) := by
  obtain ⟨w, hw, hb, -⟩ := encode_bits co p s last hp hl
  obtain ⟨w', hw', hb', -⟩ := encode_bits co p s' last hp hl
  refine ⟨w, w', hw, hw', fun i e hi he => ?_, fun ho i hi => ?_⟩
  · obtain ⟨h, rfl⟩ := List.getElem?_eq_some_iff.1 hi
    rw [Spec.position, Spec.position, hb i h, hb' i h]
    by_cases ho : p[i] ∈ overridable
    · rw [encodeBit_override _ _ _ _ ho, encodeBit_override _ _ _ _ ho]
      simp only [Overrides.apply, hsame _ he]
    · exact (encodeBit_other _ _ _ _ (.inr ho)).trans (encodeBit_other _ _ _ _ (.inr ho)).symm
  · obtain ⟨h, hid⟩ := List.getElem?_eq_some_iff.1 hi
    rw [Spec.position, hb i h, hid, encodeBit_override _ _ _ _ ho]
    rfl

example : (∀ e, e ≠ .C 0 → Overrides.get [(.V, .H)] e = Overrides.get [(.C 0, .L), (.V, .H)] e) ∧
    Desc.C 0 ∈ overridable := by
  refine ⟨fun e he => ?_, by decide⟩
  rw [Overrides.get_cons (.C 0, .L), if_neg (Ne.symm he)]

/-- An override of a bank bit is accepted and ignored: the position keeps the coordinate's level. -/
theorem C27_override_violation :
    (Overrides.ofList [(.BA 0, .H)]).get (.BA 0) = .H ∧ (ddr4Patterns .PRE)[7]? = some (.BA 0) ∧
    ∃ w, encode {} (ddr4Patterns .PRE) (Overrides.ofList [(.BA 0, .H)]) 0#64 = .ok w ∧
      Spec.position w 27 7 = false := by
  refine ⟨by decide, by decide, _, rfl, by decide +kernel⟩

end DRAMPower
