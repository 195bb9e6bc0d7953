import Verif.Lemmas.Currents
import Verif.Lemmas.Sums

/-! # Closed form of the total energy -/

namespace DRAMPower
open Spec

theorem sum_range_mul (A B : Nat) (f : Nat → Rat) :
    ((List.range (A * B)).map f).sum = ((List.range A).map fun a => ((List.range B).map fun b => f (a * B + b)).sum).sum := by
  induction A with
  | zero => simp
  | succ A ih =>
    rw [Nat.succ_mul, List.range_add, List.map_append, List.sum_append, ih, List.range_succ, List.map_append, List.sum_append,
      List.map_map]
    simp [Function.comp_def]

theorem sum_const {α : Type} (L : List α) (x : Rat) : (L.map fun _ => x).sum = (L.length : Rat) * x := by
  induction L with
  | nil => simp
  | cons a L ih => rw [List.map_cons, List.sum_cons, ih, List.length_cons]; push_cast; ring

theorem sum_comm {α β : Type} (L : List α) (K : List β) (f : α → β → Rat) :
    (L.map fun a => (K.map fun b => f a b).sum).sum = (K.map fun b => (L.map fun a => f a b).sum).sum := by
  induction L with
  | nil => simp
  | cons a L ih => simp only [List.map_cons, List.sum_cons]; rw [ih, ← List.sum_map_add]

theorem sum_mul_left {α : Type} (L : List α) (x : Rat) (f : α → Rat) : (L.map fun a => x * f a).sum = x * (L.map f).sum := by
  induction L with
  | nil => simp
  | cons a L ih => simp only [List.map_cons, List.sum_cons]; rw [ih]; ring

/-- The energy a domain needs for a rank. -/
def PowerSpec.rankSum (std : Std) (s : PowerSpec) (stats : SimStats) (r : Nat) (dom : Domain) : Rat :=
  (s.devices : Rat) * ((List.range s.banks).map fun b => bankTotal (s.contrib std stats r b dom)).sum +
    sharedTotal (s.rankEnergy std dom (stats.rankTotal.getD r {}))

theorem bankTotal_sum (s : PowerSpec) (f : Domain → EnergyInfo) (e : EnergyInfo)
    (h : ∀ c : Component, c.of e = (s.domains.map fun dom => c.of (f dom)).sum) :
    bankTotal e = (s.domains.map fun dom => bankTotal (f dom)).sum := by
  unfold bankTotal
  rw [sum_comm]
  congr 1
  exact List.map_congr_left fun c _ => h c

theorem PowerSpec.total_closed {std : Std} {s : PowerSpec} {stats : SimStats} {e : Energy} (h : s.calcEnergy std stats = .ok e) :
    e.total = (s.domains.map fun dom => ((List.range s.ranks).map fun r => s.rankSum std stats r dom).sum).sum := by
  have hc := calc_closed h
  have hbank : (e.bank.map bankTotal).sum = ((List.range (s.ranks * s.devices * s.banks)).map fun i => bankTotal (e.bank.getD i {})).sum := by
    rw [← hc.length]
    congr 1
    refine List.ext_getElem (by simp) fun i h1 h2 => ?_
    have hi : i < e.bank.length := by simpa using h1
    simp only [List.getElem_map, List.getElem_range, List.getD_eq_getElem?_getD, List.getElem?_eq_getElem hi, Option.getD_some]
  have hsh : sharedTotal e.shared =
      (s.domains.map fun dom => ((List.range s.ranks).map fun r => sharedTotal (s.rankEnergy std dom (stats.rankTotal.getD r {}))).sum).sum := by
    unfold sharedTotal
    rw [show (SharedComponent.all.map fun c => c.of e.shared) = SharedComponent.all.map fun c => _ from
      List.map_congr_left fun c _ => hc.shared c]
    rw [sum_comm]
    congr 1
    refine List.map_congr_left fun dom _ => ?_
    rw [sum_comm]
  rw [Energy.total_eq, hbank, hsh, sum_range_mul, sum_range_mul]
  have hb : ((List.range s.ranks).map fun a => ((List.range s.devices).map fun b =>
      ((List.range s.banks).map fun b' => bankTotal (e.bank.getD ((a * s.devices + b) * s.banks + b') {})).sum).sum).sum =
      (s.domains.map fun dom => ((List.range s.ranks).map fun r =>
        (s.devices : Rat) * ((List.range s.banks).map fun b => bankTotal (s.contrib std stats r b dom)).sum).sum).sum := by
    rw [sum_comm s.domains]
    congr 1
    refine List.map_congr_left fun r hr => ?_
    have hin : ∀ d ∈ List.range s.devices, ((List.range s.banks).map fun b' =>
        bankTotal (e.bank.getD ((r * s.devices + d) * s.banks + b') {})).sum =
        (s.domains.map fun dom => ((List.range s.banks).map fun b => bankTotal (s.contrib std stats r b dom)).sum).sum := by
      intro d hd
      rw [sum_comm s.domains]
      congr 1
      refine List.map_congr_left fun b hb => ?_
      refine bankTotal_sum s _ _ fun c => ?_
      have := hc.bank r d b (List.mem_range.1 hr) (List.mem_range.1 hd) (List.mem_range.1 hb) c
      rw [energyIndex_eq] at this
      exact this
    rw [List.map_congr_left hin, sum_const, List.length_range, sum_mul_left]
  rw [hb, ← List.sum_map_add]
  congr 1
  refine List.map_congr_left fun dom _ => ?_
  rw [← List.sum_map_add]
  rfl

/-- Statistics of one rank: the first `k` banks alike, the others alike. -/
def Spec.loopStats (banks k : Nat) (on off rank : CycleStats) : SimStats where
  bank := List.replicate k on ++ List.replicate (banks - k) off
  rankTotal := [rank]

theorem sum_range_split (B k : Nat) (hk : k ≤ B) (f : Nat → Rat) (x y : Rat) (hx : ∀ i, i < k → f i = x)
    (hy : ∀ i, k ≤ i → i < B → f i = y) : ((List.range B).map f).sum = (k : Rat) * x + ((B : Rat) - (k : Rat)) * y := by
  obtain ⟨m, rfl⟩ := Nat.exists_eq_add_of_le hk
  rw [List.range_add, List.map_append, List.sum_append, List.map_map]
  have h1 : (List.range k).map f = (List.range k).map fun _ => x := List.map_congr_left fun i hi => hx i (List.mem_range.1 hi)
  have h2 : (List.range m).map (f ∘ fun x => k + x) = (List.range m).map fun _ => y :=
    List.map_congr_left fun i hi => hy (k + i) (by omega) (by have := List.mem_range.1 hi; omega)
  rw [h1, h2, sum_const, sum_const, List.length_range, List.length_range]
  push_cast
  ring

theorem PowerSpec.loop_total {std : Std} {s : PowerSpec} {k : Nat} {on off rank : CycleStats} {e : Energy} (hR : s.ranks = 1)
    (hk : k ≤ s.banks) (h : s.calcEnergy std (loopStats s.banks k on off rank) = .ok e) :
    e.total = (s.domains.map fun dom => (s.devices : Rat) * ((k : Rat) * bankTotal (s.bankEnergy std dom on rank) +
      ((s.banks : Rat) - (k : Rat)) * bankTotal (s.bankEnergy std dom off rank)) + sharedTotal (s.rankEnergy std dom rank)).sum := by
  rw [total_closed h, hR]
  congr 1
  refine List.map_congr_left fun dom _ => ?_
  show (s.rankSum std _ 0 dom) + 0 = _
  rw [add_zero]
  unfold rankSum
  rw [sum_range_split s.banks k hk _ (bankTotal (s.bankEnergy std dom on rank)) (bankTotal (s.bankEnergy std dom off rank))]
  · rfl
  · intro i hi
    unfold contrib statsIndex loopStats
    rw [Nat.zero_mul, Nat.zero_add, List.getD_eq_getElem?_getD, List.getElem?_append_left (by simpa using hi),
      List.getElem?_replicate, if_pos hi]
    rfl
  · intro i hi hi'
    unfold contrib statsIndex loopStats
    rw [Nat.zero_mul, Nat.zero_add, List.getD_eq_getElem?_getD, List.getElem?_append_right (by simpa using hi),
      List.getElem?_replicate, if_pos (by simp; omega)]
    rfl

/-- Such statistics are accepted by every specification of one rank without vanishing divisors. -/
theorem PowerSpec.loop_ok {std : Std} {s : PowerSpec} {k : Nat} (on off rank : CycleStats) (hR : s.ranks = 1) (hk : k ≤ s.banks)
    (hdiv : 0 ∉ s.divisors std) : ∃ e, s.calcEnergy std (loopStats s.banks k on off rank) = .ok e := by
  unfold calcEnergy
  rw [if_neg hdiv, if_neg]
  · exact ⟨_, rfl⟩
  · simp only [loopStats, List.length_append, List.length_replicate, List.length_singleton, hR]
    omega

end DRAMPower
