import Verif.Spec.Energy
import Mathlib.Tactic.Ring
import Mathlib.Tactic.Linarith
import Mathlib.Tactic.Positivity
import Mathlib.Tactic.FieldSimp
import Mathlib.Algebra.Order.Field.Rat
import Mathlib.Algebra.BigOperators.Group.List.Basic

/-! # Lemmas on the core energy calculation -/

namespace DRAMPower
open Spec

/-- A loop whose step `k` acts on the observed value only for `k = k0`. -/
theorem fold_hit {σ α : Type} {step : σ → Nat → σ} (g : σ → Option α) {k0 : Nat} {f : α → α} (n : Nat)
    (hit : ∀ l, g (step l k0) = (g l).map f) (miss : ∀ l k, k < n → k ≠ k0 → g (step l k) = g l) (l : σ) :
    g ((List.range n).foldl step l) = if k0 < n then (g l).map f else g l := by
  induction n with
  | zero => rfl
  | succ n ih =>
    have ih := ih fun l k h => miss l k (by omega)
    rw [List.range_succ, List.foldl_append, List.foldl_cons, List.foldl_nil]
    by_cases h : n = k0
    · subst h
      rw [hit, ih, if_neg (Nat.lt_irrefl n), if_pos (Nat.lt_succ_self n)]
    · rw [miss _ _ (Nat.lt_succ_self n) h, ih]
      by_cases h' : k0 < n
      · rw [if_pos h', if_pos (by omega)]
      · rw [if_neg h', if_neg (by omega)]

theorem fold_miss {σ α : Type} {step : σ → Nat → σ} (g : σ → Option α) (n : Nat)
    (miss : ∀ l k, k < n → g (step l k) = g l) (l : σ) : g ((List.range n).foldl step l) = g l := by
  induction n with
  | zero => rfl
  | succ n ih =>
    rw [List.range_succ, List.foldl_append, List.foldl_cons, List.foldl_nil, miss _ _ (Nat.lt_succ_self n)]
    exact ih fun l k h => miss l k (by omega)

theorem mul_add_inj {B a b a' b' : Nat} (hb : b < B) (hb' : b' < B) (h : a * B + b = a' * B + b') : a = a' ∧ b = b' := by
  have h1 : (a * B + b) / B = a := by rw [Nat.mul_comm, Nat.mul_add_div (by omega), Nat.div_eq_of_lt hb, Nat.add_zero]
  have h2 : (a' * B + b') / B = a' := by rw [Nat.mul_comm, Nat.mul_add_div (by omega), Nat.div_eq_of_lt hb', Nat.add_zero]
  have e : a = a' := by rw [← h1, h, h2]
  subst e
  exact ⟨rfl, by omega⟩

theorem mul_add_lt {B A a b : Nat} (ha : a < A) (hb : b < B) : a * B + b < A * B := by
  have := Nat.mul_le_mul_right B (show a + 1 ≤ A by omega)
  rw [Nat.add_mul, Nat.one_mul] at this
  omega

namespace PowerSpec

theorem energyIndex_eq (s : PowerSpec) (r d b : Nat) : s.energyIndex r d b = (r * s.devices + d) * s.banks + b := by
  unfold energyIndex; rw [Nat.add_mul]

theorem energyIndex_inj (s : PowerSpec) {r d b r' d' b' : Nat} (hd : d < s.devices) (hd' : d' < s.devices) (hb : b < s.banks)
    (hb' : b' < s.banks) (h : s.energyIndex r d b = s.energyIndex r' d' b') : r = r' ∧ d = d' ∧ b = b' := by
  rw [energyIndex_eq, energyIndex_eq] at h
  obtain ⟨h1, h2⟩ := mul_add_inj hb hb' h
  obtain ⟨h3, h4⟩ := mul_add_inj hd hd' h1
  exact ⟨h3, h4, h2⟩

/-- What the domain `dom` adds to entry `(r, d, b)`. -/
def contrib (std : Std) (s : PowerSpec) (stats : SimStats) (r b : Nat) (dom : Domain) : EnergyInfo :=
  s.bankEnergy std dom (stats.bank.getD (s.statsIndex r b) {}) (stats.rankTotal.getD r {})

theorem bankLoop_hit (std : Std) (s : PowerSpec) (dom : Domain) (stats : SimStats) {r d b : Nat} (hd : d < s.devices)
    (hb : b < s.banks) (l : List EnergyInfo) :
    (s.bankLoop std dom stats r d l)[s.energyIndex r d b]? = l[s.energyIndex r d b]?.map fun e => e.add (s.contrib std stats r b dom) := by
  unfold bankLoop
  rw [fold_hit (fun l : List EnergyInfo => l[s.energyIndex r d b]?) (k0 := b) (f := fun e => e.add (s.contrib std stats r b dom)),
    if_pos hb]
  · intro l; simp only [List.getElem?_modify_eq]; rfl
  · intro l k _ hk
    rw [List.getElem?_modify_ne]
    intro h
    unfold energyIndex at h
    omega

theorem bankLoop_miss (std : Std) (s : PowerSpec) (dom : Domain) (stats : SimStats) {r d b r' d' : Nat} (hd : d < s.devices)
    (hb : b < s.banks) (hd' : d' < s.devices) (hne : ¬ (r' = r ∧ d' = d)) (l : List EnergyInfo) :
    (s.bankLoop std dom stats r' d' l)[s.energyIndex r d b]? = l[s.energyIndex r d b]? := by
  unfold bankLoop
  refine fold_miss (fun l : List EnergyInfo => l[s.energyIndex r d b]?) _ (fun l k hk => ?_) l
  rw [List.getElem?_modify_ne]
  intro h
  obtain ⟨h1, h2, -⟩ := s.energyIndex_inj hd' hd hk hb h
  exact hne ⟨h1, h2⟩

theorem rankStep_hit (std : Std) (s : PowerSpec) (dom : Domain) (stats : SimStats) {r d b : Nat} (hd : d < s.devices)
    (hb : b < s.banks) (e : Energy) :
    (s.rankStep std dom stats e r).bank[s.energyIndex r d b]? =
      e.bank[s.energyIndex r d b]?.map fun e => e.add (s.contrib std stats r b dom) := by
  unfold rankStep
  simp only []
  rw [fold_hit (fun l : List EnergyInfo => l[s.energyIndex r d b]?) (k0 := d) (f := fun e => e.add (s.contrib std stats r b dom)),
    if_pos hd]
  · intro l; exact bankLoop_hit std s dom stats hd hb l
  · intro l k h hk; exact bankLoop_miss std s dom stats hd hb h (fun h' => hk h'.2) l

theorem rankStep_miss (std : Std) (s : PowerSpec) (dom : Domain) (stats : SimStats) {r d b r' : Nat} (hd : d < s.devices)
    (hb : b < s.banks) (hne : r' ≠ r) (e : Energy) :
    (s.rankStep std dom stats e r').bank[s.energyIndex r d b]? = e.bank[s.energyIndex r d b]? := by
  unfold rankStep
  simp only []
  exact fold_miss (fun l : List EnergyInfo => l[s.energyIndex r d b]?) _ (fun l k hk => bankLoop_miss std s dom stats hd hb hk (fun h => hne h.1) l) e.bank

theorem rankStep_length (std : Std) (s : PowerSpec) (dom : Domain) (stats : SimStats) (e : Energy) (r : Nat) :
    (s.rankStep std dom stats e r).bank.length = e.bank.length := by
  unfold rankStep bankLoop
  simp only []
  generalize List.range s.devices = L
  induction L generalizing e with
  | nil => rfl
  | cons d L ih =>
    rw [List.foldl_cons]
    refine (ih { e with bank := _ }).trans ?_
    simp only []
    generalize List.range s.banks = K
    generalize e.bank = l
    induction K generalizing l with
    | nil => rfl
    | cons b K ih => rw [List.foldl_cons, ih, List.length_modify]

/-- The step of the loop over the voltage domains. -/
def domainStep (std : Std) (s : PowerSpec) (stats : SimStats) (e : Energy) (dom : Domain) : Energy :=
  (List.range s.ranks).foldl (s.rankStep std dom stats) e

theorem domainStep_length (std : Std) (s : PowerSpec) (stats : SimStats) (e : Energy) (dom : Domain) :
    (s.domainStep std stats e dom).bank.length = e.bank.length := by
  unfold domainStep
  generalize List.range s.ranks = L
  induction L generalizing e with
  | nil => rfl
  | cons r L ih => rw [List.foldl_cons, ih, rankStep_length]

theorem domainStep_get (std : Std) (s : PowerSpec) (stats : SimStats) (e : Energy) (dom : Domain) {r d b : Nat} (hr : r < s.ranks)
    (hd : d < s.devices) (hb : b < s.banks) :
    (s.domainStep std stats e dom).bank[s.energyIndex r d b]? =
      e.bank[s.energyIndex r d b]?.map fun e => e.add (s.contrib std stats r b dom) := by
  unfold domainStep
  rw [fold_hit (fun e : Energy => e.bank[s.energyIndex r d b]?) (k0 := r) (f := fun e => e.add (s.contrib std stats r b dom)), if_pos hr]
  · intro e; exact rankStep_hit std s dom stats hd hb e
  · intro e k _ hk; exact rankStep_miss std s dom stats hd hb hk e

end PowerSpec

theorem Component.of_add (c : Component) (a b : EnergyInfo) : c.of (a.add b) = c.of a + c.of b := by cases c <;> rfl

theorem SharedComponent.of_add (c : SharedComponent) (a b : SharedEnergy) : c.of (a.add b) = c.of a + c.of b := by cases c <;> rfl

theorem Component.of_zero (c : Component) : c.of {} = 0 := by cases c <;> rfl

theorem SharedComponent.of_zero (c : SharedComponent) : c.of {} = 0 := by cases c <;> rfl

namespace PowerSpec

theorem domainStep_shared (std : Std) (s : PowerSpec) (stats : SimStats) (e : Energy) (dom : Domain) (c : SharedComponent) :
    c.of (s.domainStep std stats e dom).shared = c.of e.shared +
      ((List.range s.ranks).map fun r => c.of (s.rankEnergy std dom (stats.rankTotal.getD r {}))).sum := by
  unfold domainStep
  generalize List.range s.ranks = L
  induction L generalizing e with
  | nil => simp
  | cons r L ih =>
    rw [List.foldl_cons, ih, List.map_cons, List.sum_cons, ← add_assoc]
    unfold rankStep
    simp only [SharedComponent.of_add]

/-- Closed form of a successful calculation. -/
structure Closed (std : Std) (s : PowerSpec) (stats : SimStats) (e : Energy) : Prop where
  length : e.bank.length = s.ranks * s.devices * s.banks
  bank : ∀ r d b, r < s.ranks → d < s.devices → b < s.banks → ∀ c : Component,
    entry e (s.energyIndex r d b) c = (s.domains.map fun dom => c.of (s.contrib std stats r b dom)).sum
  shared : ∀ c : SharedComponent, c.of e.shared =
    (s.domains.map fun dom => ((List.range s.ranks).map fun r => c.of (s.rankEnergy std dom (stats.rankTotal.getD r {}))).sum).sum

theorem energyIndex_lt (s : PowerSpec) {r d b : Nat} (hr : r < s.ranks) (hd : d < s.devices) (hb : b < s.banks) :
    s.energyIndex r d b < s.ranks * s.devices * s.banks := by
  rw [energyIndex_eq]; exact mul_add_lt (mul_add_lt hr hd) hb

theorem calc_closed {std : Std} {s : PowerSpec} {stats : SimStats} {e : Energy} (h : s.calcEnergy std stats = .ok e) :
    Closed std s stats e := by
  unfold calcEnergy at h
  split at h
  · cases h
  split at h
  · cases h
  injection h with h
  subst h
  change Closed std s stats (s.domains.foldl (s.domainStep std stats) _)
  have key : ∀ (L : List Domain) (e : Energy), e.bank.length = s.ranks * s.devices * s.banks →
      (L.foldl (s.domainStep std stats) e).bank.length = s.ranks * s.devices * s.banks ∧
      (∀ r d b, r < s.ranks → d < s.devices → b < s.banks → ∀ c : Component,
        entry (L.foldl (s.domainStep std stats) e) (s.energyIndex r d b) c =
          entry e (s.energyIndex r d b) c + (L.map fun dom => c.of (s.contrib std stats r b dom)).sum) ∧
      ∀ c : SharedComponent, c.of (L.foldl (s.domainStep std stats) e).shared = c.of e.shared +
        (L.map fun dom => ((List.range s.ranks).map fun r => c.of (s.rankEnergy std dom (stats.rankTotal.getD r {}))).sum).sum := by
    intro L
    induction L with
    | nil => intro e he; exact ⟨he, by simp, by simp⟩
    | cons dom L ih =>
      intro e he
      obtain ⟨h1, h2, h3⟩ := ih (s.domainStep std stats e dom) (by rw [domainStep_length, he])
      refine ⟨h1, fun r d b hr hd hb c => ?_, fun c => ?_⟩
      · rw [List.foldl_cons, h2 r d b hr hd hb, List.map_cons, List.sum_cons, ← add_assoc]
        congr 1
        have hlt : s.energyIndex r d b < e.bank.length := by rw [he]; exact s.energyIndex_lt hr hd hb
        unfold entry
        rw [List.getD_eq_getElem?_getD, List.getD_eq_getElem?_getD, domainStep_get std s stats e dom hr hd hb,
          List.getElem?_eq_getElem hlt]
        simp only [Option.map_some, Option.getD_some, Component.of_add]
      · rw [List.foldl_cons, h3, domainStep_shared, List.map_cons, List.sum_cons, ← add_assoc]
  obtain ⟨h1, h2, h3⟩ := key s.domains { bank := List.replicate (s.banks * s.ranks * s.devices) {} }
    (by rw [List.length_replicate, Nat.mul_assoc, Nat.mul_comm])
  refine ⟨h1, fun r d b hr hd hb c => ?_, fun c => ?_⟩
  · rw [h2 r d b hr hd hb]
    unfold entry
    rw [List.getD_eq_getElem?_getD]
    simp only [List.getElem?_replicate]
    split <;> simp [Component.of_zero]
  · rw [h3, SharedComponent.of_zero, zero_add]

/-- Every entry is that of some rank, device and bank. -/
theorem energyIndex_surj (s : PowerSpec) {i : Nat} (h : i < s.ranks * s.devices * s.banks) :
    ∃ r d b, r < s.ranks ∧ d < s.devices ∧ b < s.banks ∧ s.energyIndex r d b = i := by
  have hB : 0 < s.banks := Nat.pos_of_ne_zero fun h0 => by rw [h0, Nat.mul_zero] at h; omega
  have h1 : i / s.banks < s.ranks * s.devices := Nat.div_lt_of_lt_mul (by rw [Nat.mul_comm]; exact h)
  have hD : 0 < s.devices := Nat.pos_of_ne_zero fun h0 => by rw [h0, Nat.mul_zero] at h1; exact absurd h1 (Nat.not_lt_zero _)
  have h2 : i / s.banks / s.devices < s.ranks := Nat.div_lt_of_lt_mul (by rw [Nat.mul_comm]; exact h1)
  refine ⟨i / s.banks / s.devices, i / s.banks % s.devices, i % s.banks, h2, Nat.mod_lt _ hD, Nat.mod_lt _ hB, ?_⟩
  rw [energyIndex_eq, Nat.mul_comm (i / s.banks / s.devices), Nat.div_add_mod, Nat.mul_comm, Nat.div_add_mod]

end PowerSpec

end DRAMPower
