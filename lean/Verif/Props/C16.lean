import Verif.Lemmas.RestoreRound

/-!
# C16: saving and restoring an interface is lossless

`Spec.watch` is what a user sees in a session of calls and queries: all answers (`getWindowStats`, `getLastCommandTime`) and
how the session ends. `Interface.Fits`: every number stored in the interface is below 2^64, as it always is in the code,
where these are `uint64_t` members, and the two rates of the toggling busses survive as `double`. `Codec` is what the language leaves open.
-/

namespace DRAMPower
open Spec

/-- The property: an interface brought into any state by any calls, saved and loaded into a freshly constructed interface:
exactly the bytes written are consumed, and every later session is answered like by the saved interface. -/
def C16_statement (std : Std) : Prop :=
  ∀ (N : Nat) (sp : IfSpec) (k : Codec) (before : List IfOp) (i0 i : Interface std N), Faithful k sp →
    Interface.init std N sp = .ok i0 → (∀ op ∈ before, offered std op) → i0.run sp before = .ok i → i.Fits k →
    ∃ j, i0.deserialize k (i.serialize k []) = some (j, []) ∧ ∀ later, defined sp i later → watch sp j later = watch sp i later

/-- What is common to the theorems. -/
theorem c16_core {std : Std} {N : Nat} {sp : IfSpec} {k : Codec} {before : List IfOp} {i0 i : Interface std N} (hk : Faithful k sp)
    (h0 : Interface.init std N sp = .ok i0) (ho : ∀ op ∈ before, offered std op) (hr : i0.run sp before = .ok i) (hf : i.Fits k)
    (hu : Unsaved i0 i) (hb : std = .ddr4 → i.dbi.Readable) (out : Bytes) :
    ∃ written, i.serialize k out = out ++ written ∧ ∀ rest, ∃ j, i0.deserialize k (written ++ rest) = some (j, rest) ∧
      ∀ later, defined sp i later → watch sp j later = watch sp i later := by
  have hk0 := Kept.init hk h0
  have hki := hk0.run hk ho hr
  obtain ⟨w, e, g⟩ := Interface.rt hk hki hk0 hf hb out
  exact ⟨w, e, fun rest => ⟨_, g rest, fun later hd => watch_alike (Interface.restored_alike hk hki hu) hd⟩⟩

theorem meta_other {std : Std} {sp : IfSpec} {before : List IfOp} (hs : std ≠ .lpddr6) (ho : ∀ op ∈ before, offered std op) :
    ∀ m b, before.foldl metaStep m = m ∧ before.foldl onStep b = b := by
  induction before with
  | nil => intro m b; exact ⟨rfl, rfl⟩
  | cons op ops ih =>
    intro m b
    have h1 := ho op (by simp)
    have h2 := ih (fun x hx => ho x (by simp [hx]))
    cases op with
    | cmd c => exact h2 m b
    | dbi e => exact h2 m b
    | metaData x y => exact absurd h1 hs
    | parity x => exact absurd h1 hs
    | enable t => exact absurd h1 hs
    | disable t => exact absurd h1 hs

/-- All standards, as long as DBI has not been enabled, no metadata other than the initial one is set, and the interface
is enabled or disabled as it was constructed. Missing from the property: interfaces for which one of these does not hold
(`C16_violation_*`; DDR4 with DBI: `C16_ddr4`). -/
theorem C16_partial {std : Std} {N : Nat} {sp : IfSpec} {k : Codec} {before : List IfOp} {i0 i : Interface std N} (hk : Faithful k sp)
    (h0 : Interface.init std N sp = .ok i0) (ho : ∀ op ∈ before, offered std op) (hr : i0.run sp before = .ok i) (hf : i.Fits k)
    (hdbi : IfOp.dbi true ∉ before) (hm : metaAfter before = (0, 0)) (hon : onAfter sp.enabled before = sp.enabled) (out : Bytes) :
    ∃ written, i.serialize k out = out ++ written ∧ ∀ rest, ∃ j, i0.deserialize k (written ++ rest) = some (j, rest) ∧
      ∀ later, defined sp i later → watch sp j later = watch sp i later := by
  obtain ⟨a1, a2, a3⟩ := DbiOff.start h0
  have hoff := a1.run (fun e he => by cases e with
    | false => rfl
    | true => exact absurd he hdbi) hr
  obtain ⟨m1, m2⟩ := meta_run hr
  rw [a2] at m1
  rw [a3] at m2
  refine c16_core hk h0 ho hr hf ⟨fun _ => hoff.dbi, fun _ => hoff.pinsRead, fun _ => hoff.pinsWrite, ?_, ?_⟩ (fun _ => ?_) out
  · rw [m1, a2]; exact hm
  · rw [m2, a3]; exact hon
  · have : i.dbi = { enable := false } := by
      rw [hoff.dbi]
      have h := h0
      unfold Interface.init at h
      obtain ⟨cb, _, h⟩ := bind_ok h
      obtain ⟨db, _, h⟩ := bind_ok h
      obtain ⟨d, hd, h⟩ := bind_ok h
      split at h
      · cases h
      rw [← pure_ok h]
      show d = _
      unfold Interface.initDbi at hd
      split at hd
      · exact (ok_inj hd).symm
      · unfold Dbi.init at hd
        split at hd
        · split at hd
          · exact (ok_inj hd).symm
          · cases hd
        · exact (ok_inj hd).symm
    rw [this]
    exact ⟨by simp, by simp⟩

/-- DDR5: the property holds. -/
theorem C16_ddr5 {N : Nat} {sp : IfSpec} {k : Codec} {before : List IfOp} {i0 i : Interface .ddr5 N} (hk : Faithful k sp)
    (h0 : Interface.init .ddr5 N sp = .ok i0) (ho : ∀ op ∈ before, offered .ddr5 op) (hr : i0.run sp before = .ok i) (hf : i.Fits k)
    (out : Bytes) :
    ∃ written, i.serialize k out = out ++ written ∧ ∀ rest, ∃ j, i0.deserialize k (written ++ rest) = some (j, rest) ∧
      ∀ later, defined sp i later → watch sp j later = watch sp i later :=
  C16_partial hk h0 ho hr hf (fun h => absurd rfl (ho _ h)) (meta_other (sp := sp) (by decide) ho _ true).1
    (meta_other (sp := sp) (by decide) ho (0, 0) _).2 out

theorem C16_ddr5_statement : C16_statement .ddr5 := by
  intro N sp k before i0 i hk h0 ho hr hf
  obtain ⟨w, e, g⟩ := C16_ddr5 hk h0 ho hr hf []
  obtain ⟨j, hj, hl⟩ := g []
  rw [List.nil_append] at e
  rw [List.append_nil] at hj
  exact ⟨j, by rw [e]; exact hj, hl⟩

/-- DDR4, whatever DBI did: if the stream can be restored at all, nothing is lost. The stream cannot be restored exactly
when one of the remembered last beats has a byte other than 0 and 1, which is then read into a `bool`. -/
theorem C16_ddr4_partial {N : Nat} {sp : IfSpec} {k : Codec} {before : List IfOp} {i0 i : Interface .ddr4 N} (hk : Faithful k sp)
    (h0 : Interface.init .ddr4 N sp = .ok i0) (ho : ∀ op ∈ before, offered .ddr4 op) (hr : i0.run sp before = .ok i) (hf : i.Fits k)
    (out : Bytes) :
    ∃ written, i.serialize k out = out ++ written ∧ ∀ rest,
      ((i0.deserialize k (written ++ rest)).isSome ↔ ∀ read, ∀ b ∈ (i.dbi.last read).lastbeat, b = 0 ∨ b = 1) ∧
      ∀ j rest', i0.deserialize k (written ++ rest) = some (j, rest') → rest' = rest ∧
        ∀ later, defined sp i later → watch sp j later = watch sp i later := by
  obtain ⟨_, a2, a3⟩ := DbiOff.start h0
  obtain ⟨m1, m2⟩ := meta_run hr
  have hu : Unsaved i0 i := by
    refine ⟨fun h => absurd rfl h, fun h => absurd rfl h, fun h => absurd rfl h, ?_, ?_⟩
    · rw [m1]; exact (meta_other (sp := sp) (by decide) ho _ true).1
    · rw [m2]; exact (meta_other (sp := sp) (by decide) ho (0, 0) _).2
  have hiff : i.dbi.Readable ↔ ∀ read, ∀ b ∈ (i.dbi.last read).lastbeat, b = 0 ∨ b = 1 :=
    ⟨fun h read => match read with | true => h.1 | false => h.2, fun h => ⟨h true, h false⟩⟩
  by_cases hb : i.dbi.Readable
  · obtain ⟨w, e, g⟩ := c16_core hk h0 ho hr hf hu (fun _ => hb) out
    refine ⟨w, e, fun rest => ?_⟩
    obtain ⟨j, hj, hl⟩ := g rest
    rw [hj]
    refine ⟨⟨fun _ => hiff.1 hb, fun _ => rfl⟩, fun j' rest' h => ?_⟩
    injection h with h
    injection h with h h'
    subst h
    exact ⟨h'.symm, hl⟩
  · have hk0 := Kept.init hk h0
    obtain ⟨w, e, g⟩ := Interface.rt_none hk (hk0.run hk ho hr) hk0 hf rfl hb out
    refine ⟨w, e, fun rest => ?_⟩
    rw [g rest]
    exact ⟨⟨fun h => (by simp at h), fun h => absurd (hiff.2 h) hb⟩, fun j' rest' h => (by simp at h)⟩

/-! ## What is lost -/

/-- Run, save, restore, compare a later session. -/
def c16Lost (std : Std) (N : Nat) (sp : IfSpec) (k : Codec) (before : List IfOp) (later : List Use) : Bool :=
  match Interface.init std N sp with
  | .error _ => false
  | .ok i0 => match i0.run sp before with
    | .error _ => false
    | .ok i => decide (∀ op ∈ before, offered std op) && decide (i.Fits k) && match i0.deserialize k (i.serialize k []) with
      | none => true
      | some (j, _) => decide (watch sp j later ≠ watch sp i later) &&
          (match (watch sp i later).2 with | some (.ub _) => false | _ => true)

theorem c16Lost_spec {std N sp k before later} (hk : Faithful k sp) (h : c16Lost std N sp k before later = true) : ¬ C16_statement std := by
  intro hs
  unfold c16Lost at h
  split at h
  · simp at h
  rename_i i0 h0
  split at h
  · simp at h
  rename_i i hi
  simp only [Bool.and_eq_true, decide_eq_true_eq] at h
  obtain ⟨⟨ho, hf⟩, h⟩ := h
  obtain ⟨j, hj, hl⟩ := hs N sp k before i0 i hk h0 ho hi hf
  rw [hj] at h
  simp only [Bool.and_eq_true, decide_eq_true_eq] at h
  refine h.1 (hl later fun m hm => ?_)
  rw [hm] at h
  exact absurd h.2 (by simp)

/-- A concrete codec: a rate as two 32 bit numbers, the overrides backwards, no spare room. -/
def c16Codec : Codec where
  pad := fun _ => 0xaa
  rate := fun r => Ser.le 4 r.num ++ Ser.le 4 r.den
  toRate := fun b =>
    let n := Ser.fromLe (b.take 4)
    let d := Ser.fromLe (b.drop 4)
    if h : 0 < d ∧ n ≤ d then some ⟨n, d, h.1, h.2⟩ else none
  order := List.reverse
  reserve := id

def c16Spec (std : Std) : IfSpec :=
  { dataRate := 2, burstLength := if std = .lpddr6 then 24 else 8, bitWidth := if std = .lpddr6 then 12 else 8, devices := 1 }

theorem c16_faithful (std : Std) : Faithful c16Codec (c16Spec std) where
  order := fun s => List.reverse_perm s
  enough := fun _ => Nat.le_refl _
  zero := rfl
  atMost := fun _ _ => Nat.le_max_left _ _

/-- A burst. -/
def c16Data (std : Std) (t : Nat) (ty : CmdType) (x : UInt8) : IfOp :=
  .cmd (if std = .lpddr6 then { t, type := ty, nBits := 256, data := some (List.replicate 32 x) }
        else { t, type := ty, nBits := 64, data := some (List.replicate 8 x) })

/-- DDR4: two bursts back to back with DBI leave a stream that cannot be restored. -/
theorem C16_violation_ddr4 : ¬ C16_statement .ddr4 :=
  c16Lost_spec (N := 16) (c16_faithful .ddr4) (before := [.dbi true, c16Data .ddr4 10 .WR 0x12, c16Data .ddr4 14 .WR 0x12]) (later := [])
    (by decide +kernel)

/-- LPDDR4 and LPDDR5: the statistics of the DBI pins are lost. -/
theorem C16_violation_pins : ¬ C16_statement .lpddr4 ∧ ¬ C16_statement .lpddr5 :=
  ⟨c16Lost_spec (N := 16) (c16_faithful .lpddr4) (before := [.dbi true, c16Data .lpddr4 10 .WR 0xff]) (later := [.call (.dbi true), .query 40])
    (by decide +kernel),
   c16Lost_spec (N := 16) (c16_faithful .lpddr5) (before := [.dbi true, c16Data .lpddr5 10 .WR 0xff]) (later := [.call (.dbi true), .query 40])
    (by decide +kernel)⟩

/-- LPDDR4, LPDDR5 and LPDDR6: whether DBI is enabled is lost, later bursts are no longer inverted. -/
theorem C16_violation_enable (std : Std) (h : std = .lpddr4 ∨ std = .lpddr5 ∨ std = .lpddr6) : ¬ C16_statement std := by
  rcases h with h | h | h <;> subst h
  · exact c16Lost_spec (N := 16) (c16_faithful .lpddr4) (before := [.dbi true]) (later := [.call (c16Data .lpddr4 10 .WR 0xff), .query 40])
      (by decide +kernel)
  · exact c16Lost_spec (N := 16) (c16_faithful .lpddr5) (before := [.dbi true]) (later := [.call (c16Data .lpddr5 10 .WR 0xff), .query 40])
      (by decide +kernel)
  · exact c16Lost_spec (N := 16) (c16_faithful .lpddr6) (before := [.dbi true]) (later := [.call (c16Data .lpddr6 10 .WR 0xff), .query 40])
      (by decide +kernel)

/-- LPDDR6: the metadata is lost, later bursts differ. -/
theorem C16_violation_metadata : ¬ C16_statement .lpddr6 :=
  c16Lost_spec (N := 16) (c16_faithful .lpddr6) (before := [.metaData 0xffff 0]) (later := [.call (c16Data .lpddr6 10 .WR 0), .query 40])
    (by decide +kernel)

/-- LPDDR6: whether the interface is enabled is lost; the clock of a disabled interface cannot be started again. -/
theorem C16_violation_disabled : ¬ C16_statement .lpddr6 :=
  c16Lost_spec (N := 16) (c16_faithful .lpddr6) (before := [.disable 10]) (later := [.call (.enable 20), .query 40])
    (by decide +kernel)

/-! ## The hypotheses can be met -/

/-- Read and write back to back, activate, query in the middle of a burst. -/
def c16Before (std : Std) : List IfOp :=
  [.cmd { t := 0, type := .ACT, co := { row := 5 } }, c16Data std 10 .RD 0x5a, c16Data std 22 .WR 0xff]

/-- Run, save, restore: the sessions agree, and how many statistics are not zero. -/
def c16Same (std : Std) (N : Nat) (sp : IfSpec) (k : Codec) (before : List IfOp) (later : List Use) : Bool :=
  match Interface.init std N sp with
  | .error _ => false
  | .ok i0 => match i0.run sp before with
    | .error _ => false
    | .ok i => decide (∀ op ∈ before, offered std op) && decide (i.Fits k) && match i0.deserialize k (i.serialize k []) with
      | none => false
      | some (j, _) => decide (watch sp j later = watch sp i later ∧ j ≠ i0 ∧ (watch sp i later).2 = none)

/-- All standards. -/
example : ∀ std ∈ [Std.ddr4, .ddr5, .lpddr4, .lpddr5, .lpddr6],
    c16Same std 16 (c16Spec std) c16Codec (c16Before std) [.query 24, .call (c16Data std 40 .WR 3), .query 60] = true ∧
    metaAfter (c16Before std) = (0, 0) ∧ onAfter true (c16Before std) = true := by decide +kernel

/-- DDR4 with DBI. -/
example : c16Same .ddr4 16 (c16Spec .ddr4) c16Codec (.dbi true :: c16Before .ddr4)
    [.query 24, .call (c16Data .ddr4 40 .WR 0x12), .query 60] = true := by decide +kernel

/-- The theorem applies. -/
example : ∃ i0 i, Interface.init .lpddr5 16 (c16Spec .lpddr5) = .ok i0 ∧ i0.run (c16Spec .lpddr5) (c16Before .lpddr5) = .ok i ∧
    i.Fits c16Codec ∧ (∀ op ∈ c16Before .lpddr5, offered .lpddr5 op) ∧ IfOp.dbi true ∉ c16Before .lpddr5 := by
  have : (match Interface.init .lpddr5 16 (c16Spec .lpddr5) with
      | .error _ => false
      | .ok i0 => match i0.run (c16Spec .lpddr5) (c16Before .lpddr5) with
        | .error _ => false
        | .ok i => decide (i.Fits c16Codec)) = true := by decide +kernel
  split at this
  · simp at this
  rename_i i0 h0
  split at this
  · simp at this
  rename_i i hi
  refine ⟨i0, i, h0, hi, of_decide_eq_true this, fun op _ => ?_, fun h => ?_⟩
  · rename_i hm
    simp only [c16Before, c16Data, List.mem_cons, List.not_mem_nil, or_false] at hm
    rcases hm with rfl | rfl | rfl <;> trivial
  · simp [c16Before, c16Data] at h

end DRAMPower
