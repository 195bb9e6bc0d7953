import Verif.Lemmas.Energy
import Verif.Lemmas.EnergyExample

/-! # C36: CLI result indexing -/

namespace DRAMPower
open Spec

theorem cliOffset_eq (B D r d b : Nat) : cliOffset B D r d b = (r * D + d) * B + b := by
  unfold cliOffset; rw [Nat.add_mul, Nat.mul_assoc, Nat.mul_comm B D, Nat.mul_assoc]

/-- The offset is in range. -/
theorem C36_range (R D B r d b : Nat) (hr : r < R) (hd : d < D) (hb : b < B) : cliOffset B D r d b < R * B * D := by
  rw [cliOffset_eq, show R * B * D = R * D * B by rw [Nat.mul_assoc, Nat.mul_comm B, ← Nat.mul_assoc]]
  exact mul_add_lt (mul_add_lt hr hd) hb

/-- The offset is injective. -/
theorem C36_injective (D B r d b r' d' b' : Nat) (hd : d < D) (hb : b < B) (hd' : d' < D) (hb' : b' < B)
    (h : cliOffset B D r d b = cliOffset B D r' d' b') : r = r' ∧ d = d' ∧ b = b' := by
  rw [cliOffset_eq, cliOffset_eq] at h
  obtain ⟨h1, h2⟩ := mul_add_inj hb hb' h
  obtain ⟨h3, h4⟩ := mul_add_inj hd hd' h1
  exact ⟨h3, h4, h2⟩

/-- Every entry is listed. -/
theorem C36_surjective (R D B i : Nat) (h : i < R * B * D) : ∃ r d b, r < R ∧ d < D ∧ b < B ∧ cliOffset B D r d b = i := by
  have h : i < R * D * B := by rw [Nat.mul_assoc, Nat.mul_comm D, ← Nat.mul_assoc]; exact h
  obtain ⟨r, d, b, h1, h2, h3, h4⟩ := PowerSpec.energyIndex_surj { exampleSpec with ranks := R, devices := D, banks := B } h
  exact ⟨r, d, b, h1, h2, h3, by rw [cliOffset_eq, ← h4, PowerSpec.energyIndex_eq]⟩

/-- Two ranks of two devices of four banks. -/
example : cliOffset 4 2 1 1 3 = 15 ∧ cliOffset 4 2 1 0 3 = 11 := by decide

/-- A loop that keeps succeeding. -/
theorem foldlM_hit {σ α : Type} {step : σ → Nat → Except Err σ} (g : σ → Option α) (I : σ → Prop) {k0 : Nat} {v : α} (n : Nat)
    (ok : ∀ l k, I l → k < n → ∃ l', step l k = .ok l' ∧ I l' ∧ (k = k0 → g l' = some v) ∧ (k ≠ k0 → g l' = g l)) (l : σ) (hI : I l) :
    ∃ l', (List.range n).foldlM step l = .ok l' ∧ I l' ∧ g l' = if k0 < n then some v else g l := by
  induction n with
  | zero => exact ⟨l, rfl, hI, rfl⟩
  | succ n ih =>
    obtain ⟨l1, h1, h2, h3⟩ := ih fun l k hI h => ok l k hI (by omega)
    obtain ⟨l2, h4, h5, h6, h7⟩ := ok l1 n h2 (by omega)
    refine ⟨l2, ?_, h5, ?_⟩
    · rw [List.range_succ, List.foldlM_append, h1]
      show List.foldlM step l1 [n] = _
      rw [List.foldlM_cons, h4]; rfl
    · by_cases h : n = k0
      · rw [h6 h, if_pos (by omega)]
      · rw [h7 h, h3]
        by_cases h' : k0 < n
        · rw [if_pos h', if_pos (by omega)]
        · rw [if_neg h', if_neg (by omega)]

/-- The entry of every rank, device and bank is labelled with that rank, device and bank. -/
theorem C36_labels (R D B : Nat) (l : List (Option (Nat × Nat × Nat))) (hl : l.length = R * B * D) :
    ∃ l', cliLabels R D B l = .ok l' ∧ l'.length = R * B * D ∧
      ∀ r d b, r < R → d < D → b < B → l'[cliOffset B D r d b]? = some (some (r, d, b)) := by
  have key : ∀ r d b, r < R → d < D → b < B → ∃ l', cliLabels R D B l = .ok l' ∧ l'.length = R * B * D ∧
      l'[cliOffset B D r d b]? = some (some (r, d, b)) := by
    intro r d b hr hd hb
    have hB : ∀ (l : List (Option (Nat × Nat × Nat))) r' d', l.length = R * B * D → r' < R → d' < D →
        ∃ l', ((List.range B).foldlM (fun l b =>
          let i := cliOffset B D r' d' b
          if i < l.length then .ok (l.set i (some (r', d', b))) else .error (.exception "at")) l : Except Err _) = .ok l' ∧
          l'.length = R * B * D ∧ (r' = r ∧ d' = d → l'[cliOffset B D r d b]? = some (some (r, d, b))) ∧
          (¬ (r' = r ∧ d' = d) → l'[cliOffset B D r d b]? = l[cliOffset B D r d b]?) := by
      intro l r' d' hl hr' hd'
      by_cases he : r' = r ∧ d' = d
      · obtain ⟨rfl, rfl⟩ := he
        obtain ⟨l', h1, h2, h3⟩ := foldlM_hit (step := fun l b =>
            let i := cliOffset B D r' d' b
            if i < l.length then .ok (l.set i (some (r', d', b))) else .error (.exception "at"))
          (fun l : List (Option (Nat × Nat × Nat)) => l[cliOffset B D r' d' b]?) (fun l => l.length = R * B * D) (k0 := b)
          (v := some (r', d', b)) B (fun l k hI hk => by
            have hlt := C36_range R D B r' d' k hr hd hk
            refine ⟨_, if_pos (by rw [hI]; exact hlt), by rw [List.length_set, hI], fun h => ?_, fun h => ?_⟩
            · subst h; rw [List.getElem?_set_self (by rw [hI]; exact hlt)]
            · rw [List.getElem?_set_ne]
              intro h'
              exact h (C36_injective D B _ _ _ _ _ _ hd hk hd hb h').2.2) l hl
        exact ⟨l', h1, h2, fun _ => by rw [h3, if_pos hb], fun h => absurd ⟨rfl, rfl⟩ h⟩
      · obtain ⟨l', h1, h2, h3⟩ := foldlM_hit (step := fun l b =>
            let i := cliOffset B D r' d' b
            if i < l.length then .ok (l.set i (some (r', d', b))) else .error (.exception "at"))
          (fun l : List (Option (Nat × Nat × Nat)) => l[cliOffset B D r d b]?) (fun l => l.length = R * B * D) (k0 := B)
          (v := some (r, d, b)) B (fun l k hI hk => by
            have hlt := C36_range R D B r' d' k hr' hd' hk
            refine ⟨_, if_pos (by rw [hI]; exact hlt), by rw [List.length_set, hI], fun h => absurd h (by omega), fun h => ?_⟩
            rw [List.getElem?_set_ne]
            intro h'
            obtain ⟨h1, h2, -⟩ := C36_injective D B _ _ _ _ _ _ hd' hk hd hb h'
            exact he ⟨h1, h2⟩) l hl
        exact ⟨l', h1, h2, fun h => absurd h he, fun _ => by rw [h3, if_neg (by omega)]⟩
    have hD : ∀ (l : List (Option (Nat × Nat × Nat))) r', l.length = R * B * D → r' < R →
        ∃ l', ((List.range D).foldlM (fun l d => (List.range B).foldlM (fun l b =>
          let i := cliOffset B D r' d b
          if i < l.length then .ok (l.set i (some (r', d, b))) else .error (.exception "at")) l) l : Except Err _) = .ok l' ∧
          l'.length = R * B * D ∧ (r' = r → l'[cliOffset B D r d b]? = some (some (r, d, b))) ∧
          (r' ≠ r → l'[cliOffset B D r d b]? = l[cliOffset B D r d b]?) := by
      intro l r' hl hr'
      obtain ⟨l', h1, h2, h3⟩ := foldlM_hit (fun l : List (Option (Nat × Nat × Nat)) => l[cliOffset B D r d b]?)
        (fun l => l.length = R * B * D) (k0 := if r' = r then d else D) (v := some (r, d, b)) D (fun l k hI hk => by
          obtain ⟨l', h1, h2, h3, h4⟩ := hB l r' k hI hr' hk
          refine ⟨l', h1, h2, fun h => ?_, fun h => ?_⟩
          · split at h
            · next he => exact h3 ⟨he, h⟩
            · omega
          · split at h
            · next he => exact h4 fun h' => h h'.2
            · next he => exact h4 fun h' => he h'.1) l hl
      refine ⟨l', h1, h2, fun h => ?_, fun h => ?_⟩
      · rw [h3, if_pos h, if_pos hd]
      · rw [h3, if_neg h, if_neg (by omega)]
    obtain ⟨l', h1, h2, h3⟩ := foldlM_hit (fun l : List (Option (Nat × Nat × Nat)) => l[cliOffset B D r d b]?)
      (fun l => l.length = R * B * D) (k0 := r) (v := some (r, d, b)) R (fun l k hI hk => hD l k hI hk) l hl
    exact ⟨l', h1, h2, by rw [h3, if_pos hr]⟩
  by_cases h0 : 0 < R ∧ 0 < D ∧ 0 < B
  · obtain ⟨l', h1, h2, -⟩ := key 0 0 0 h0.1 h0.2.1 h0.2.2
    refine ⟨l', h1, h2, fun r d b hr hd hb => ?_⟩
    obtain ⟨l'', h3, -, h4⟩ := key r d b hr hd hb
    rw [h1] at h3
    injection h3 with h3
    rw [h3]; exact h4
  · have hno : ∀ r d b, r < R → d < D → b < B → False := fun r d b h1 h2 h3 => h0 ⟨by omega, by omega, by omega⟩
    refine ⟨l, ?_, hl, fun r d b h1 h2 h3 => (hno r d b h1 h2 h3).elim⟩
    unfold cliLabels
    have h1 : ∀ (L : List Nat) (l : List (Option (Nat × Nat × Nat))) (f : List (Option (Nat × Nat × Nat)) → Nat → Except Err _),
        (∀ l k, k ∈ L → f l k = .ok l) → L.foldlM f l = .ok l := by
      intro L
      induction L with
      | nil => intro l f _; rfl
      | cons k L ih => intro l f h; rw [List.foldlM_cons, h l k (by simp)]; exact ih l f fun l k hk => h l k (by simp [hk])
    refine h1 _ _ _ fun l r hr => h1 _ _ _ fun l d hd => h1 _ _ _ fun l b hb => ?_
    exact (hno r d b (List.mem_range.1 hr) (List.mem_range.1 hd) (List.mem_range.1 hb)).elim

/-- The array of 16 entries of two ranks of two devices of four banks. -/
example : (cliLabels 2 2 4 (List.replicate 16 none)).map (fun l => l[11]?) = .ok (some (some (1, 0, 3))) := by decide +kernel

/-- The entry listed for a bank of a device of a rank is the energy of that bank: summed over the voltage domains, the energy
of the statistics of the bank (and of its rank), and nothing else. -/
theorem C36_energy (std : Std) (s : PowerSpec) (stats : SimStats) (e : Energy) (h : s.calcEnergy std stats = .ok e) :
    e.bank.length = s.ranks * s.banks * s.devices ∧
    ∀ r d b, r < s.ranks → d < s.devices → b < s.banks → ∀ c : Component,
      entry e (cliOffset s.banks s.devices r d b) c =
        (s.domains.map fun dom =>
          c.of (s.bankEnergy std dom (stats.bank.getD (r * s.banks + b) {}) (stats.rankTotal.getD r {}))).sum := by
  have hc := PowerSpec.calc_closed h
  refine ⟨by rw [hc.length, Nat.mul_assoc, Nat.mul_comm s.devices, ← Nat.mul_assoc], fun r d b hr hd hb c => ?_⟩
  have := hc.bank r d b hr hd hb c
  rw [PowerSpec.energyIndex_eq, ← cliOffset_eq] at this
  exact this

/-- In particular an entry does not depend on the statistics of other banks and ranks. -/
theorem C36_isolated (std : Std) (s : PowerSpec) (stats stats' : SimStats) (e e' : Energy) (h : s.calcEnergy std stats = .ok e)
    (h' : s.calcEnergy std stats' = .ok e') (r d b : Nat) (hr : r < s.ranks) (hd : d < s.devices) (hb : b < s.banks)
    (h1 : stats.bank[r * s.banks + b]? = stats'.bank[r * s.banks + b]?) (h2 : stats.rankTotal[r]? = stats'.rankTotal[r]?)
    (c : Component) :
    entry e (cliOffset s.banks s.devices r d b) c = entry e' (cliOffset s.banks s.devices r d b) c := by
  rw [(C36_energy std s stats e h).2 r d b hr hd hb, (C36_energy std s stats' e' h').2 r d b hr hd hb,
    List.getD_eq_getElem?_getD, List.getD_eq_getElem?_getD, List.getD_eq_getElem?_getD, List.getD_eq_getElem?_getD, h1, h2]

/-- The second bank of the second device of `exampleStats`. -/
example : ((exampleSpec.calcEnergy .lpddr5 exampleStats).map fun e => entry e (cliOffset 2 2 0 1 1) .wra) = .ok 512 := by
  decide +kernel

end DRAMPower
