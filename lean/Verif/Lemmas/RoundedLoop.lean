import Verif.Lemmas.Energy
import Verif.Lemmas.Sums
import Verif.Model.Rounded

/-! # Closed form of the energy calculation for every arithmetic -/

namespace DRAMPower
open Spec

namespace Arith

variable (A : Arith)

/-- What the domain `dom` adds to entry `(r, d, b)`. -/
def contrib (std : Std) (s : PowerSpec) (stats : SimStats) (r b : Nat) (dom : Domain) : EnergyInfo :=
  A.bankEnergy std s dom (stats.bank.getD (s.statsIndex r b) {}) (stats.rankTotal.getD r {})

theorem bankLoop_hit (std : Std) (s : PowerSpec) (dom : Domain) (stats : SimStats) {r d b : Nat} (hb : b < s.banks) (l : List EnergyInfo) :
    (A.bankLoop std s dom stats r d l)[s.energyIndex r d b]? = l[s.energyIndex r d b]?.map fun e => A.addInfo e (A.contrib std s stats r b dom) := by
  unfold bankLoop
  rw [fold_hit (fun l : List EnergyInfo => l[s.energyIndex r d b]?) (k0 := b) (f := fun e => A.addInfo e (A.contrib std s stats r b dom)),
    if_pos hb]
  · intro l; simp only [List.getElem?_modify_eq]; rfl
  · intro l k _ hk
    rw [List.getElem?_modify_ne]
    intro h
    unfold PowerSpec.energyIndex at h
    omega

theorem bankLoop_miss (std : Std) (s : PowerSpec) (dom : Domain) (stats : SimStats) {r d b r' d' : Nat} (hd : d < s.devices)
    (hb : b < s.banks) (hd' : d' < s.devices) (hne : ¬ (r' = r ∧ d' = d)) (l : List EnergyInfo) :
    (A.bankLoop std s dom stats r' d' l)[s.energyIndex r d b]? = l[s.energyIndex r d b]? := by
  unfold bankLoop
  refine fold_miss (fun l : List EnergyInfo => l[s.energyIndex r d b]?) _ (fun l k hk => ?_) l
  rw [List.getElem?_modify_ne]
  intro h
  obtain ⟨h1, h2, -⟩ := s.energyIndex_inj hd' hd hk hb h
  exact hne ⟨h1, h2⟩

theorem rankStep_hit (std : Std) (s : PowerSpec) (dom : Domain) (stats : SimStats) {r d b : Nat} (hd : d < s.devices)
    (hb : b < s.banks) (e : Energy) :
    (A.rankStep std s dom stats e r).bank[s.energyIndex r d b]? =
      e.bank[s.energyIndex r d b]?.map fun e => A.addInfo e (A.contrib std s stats r b dom) := by
  unfold rankStep
  simp only []
  rw [fold_hit (fun l : List EnergyInfo => l[s.energyIndex r d b]?) (k0 := d) (f := fun e => A.addInfo e (A.contrib std s stats r b dom)),
    if_pos hd]
  · intro l; exact A.bankLoop_hit std s dom stats hb l
  · intro l k h hk; exact A.bankLoop_miss std s dom stats hd hb h (fun h' => hk h'.2) l

theorem rankStep_miss (std : Std) (s : PowerSpec) (dom : Domain) (stats : SimStats) {r d b r' : Nat} (hd : d < s.devices)
    (hb : b < s.banks) (hne : r' ≠ r) (e : Energy) :
    (A.rankStep std s dom stats e r').bank[s.energyIndex r d b]? = e.bank[s.energyIndex r d b]? := by
  unfold rankStep
  simp only []
  exact fold_miss (fun l : List EnergyInfo => l[s.energyIndex r d b]?) _
    (fun l k hk => A.bankLoop_miss std s dom stats hd hb hk (fun h => hne h.1) l) e.bank

theorem rankStep_length (std : Std) (s : PowerSpec) (dom : Domain) (stats : SimStats) (e : Energy) (r : Nat) :
    (A.rankStep std s dom stats e r).bank.length = e.bank.length := by
  unfold rankStep bankLoop
  simp only []
  generalize List.range s.devices = L
  induction L generalizing e with
  | nil => rfl
  | cons d L ih =>
    rw [List.foldl_cons]
    refine (ih { e with bank := _ }).trans ?_
    simp only []
    generalize List.range s.banks = K
    generalize e.bank = l
    induction K generalizing l with
    | nil => rfl
    | cons b K ih => rw [List.foldl_cons, ih, List.length_modify]

/-- The step of the loop over the voltage domains. -/
def domainStep (std : Std) (s : PowerSpec) (stats : SimStats) (e : Energy) (dom : Domain) : Energy :=
  (List.range s.ranks).foldl (A.rankStep std s dom stats) e

theorem domainStep_length (std : Std) (s : PowerSpec) (stats : SimStats) (e : Energy) (dom : Domain) :
    (A.domainStep std s stats e dom).bank.length = e.bank.length := by
  unfold domainStep
  generalize List.range s.ranks = L
  induction L generalizing e with
  | nil => rfl
  | cons r L ih => rw [List.foldl_cons, ih, rankStep_length]

theorem domainStep_get (std : Std) (s : PowerSpec) (stats : SimStats) (e : Energy) (dom : Domain) {r d b : Nat} (hr : r < s.ranks)
    (hd : d < s.devices) (hb : b < s.banks) :
    (A.domainStep std s stats e dom).bank[s.energyIndex r d b]? =
      e.bank[s.energyIndex r d b]?.map fun e => A.addInfo e (A.contrib std s stats r b dom) := by
  unfold domainStep
  rw [fold_hit (fun e : Energy => e.bank[s.energyIndex r d b]?) (k0 := r) (f := fun e => A.addInfo e (A.contrib std s stats r b dom)), if_pos hr]
  · intro e; exact A.rankStep_hit std s dom stats hd hb e
  · intro e k _ hk; exact A.rankStep_miss std s dom stats hd hb hk e

theorem of_addInfo (c : Component) (a b : EnergyInfo) : c.of (A.addInfo a b) = A.add (c.of a) (c.of b) := by cases c <;> rfl

theorem of_addShared (c : SharedComponent) (a b : SharedEnergy) : c.of (A.addShared a b) = A.add (c.of a) (c.of b) := by cases c <;> rfl

/-- The pairs of a voltage domain and a rank in the order of the loops. -/
def visits (s : PowerSpec) (L : List Domain) : List (Domain × Nat) := L.flatMap fun dom => (List.range s.ranks).map fun r => (dom, r)

theorem domainStep_shared (std : Std) (s : PowerSpec) (stats : SimStats) (e : Energy) (dom : Domain) (c : SharedComponent) :
    c.of (A.domainStep std s stats e dom).shared =
      ((List.range s.ranks).map fun r => (dom, r)).foldl (fun x p => A.add x (c.of (A.rankEnergy std s p.1 (stats.rankTotal.getD p.2 {})))) (c.of e.shared) := by
  unfold domainStep
  generalize List.range s.ranks = L
  induction L generalizing e with
  | nil => rfl
  | cons r L ih =>
    rw [List.foldl_cons, ih, List.map_cons, List.foldl_cons]
    unfold rankStep
    simp only [of_addShared]

/-- Closed form of a successful calculation. -/
structure Closed (std : Std) (s : PowerSpec) (stats : SimStats) (e : Energy) : Prop where
  length : e.bank.length = s.ranks * s.devices * s.banks
  bank : ∀ r d b, r < s.ranks → d < s.devices → b < s.banks → ∀ c : Component,
    entry e (s.energyIndex r d b) c = s.domains.foldl (fun x dom => A.add x (c.of (A.contrib std s stats r b dom))) 0
  shared : ∀ c : SharedComponent, c.of e.shared =
    (visits s s.domains).foldl (fun x p => A.add x (c.of (A.rankEnergy std s p.1 (stats.rankTotal.getD p.2 {})))) 0

theorem calc_closed {std : Std} {s : PowerSpec} {stats : SimStats} {e : Energy} (h : A.calcEnergy std s stats = .ok e) :
    A.Closed std s stats e := by
  unfold calcEnergy at h
  split at h
  · cases h
  split at h
  · cases h
  injection h with h
  subst h
  change A.Closed std s stats (s.domains.foldl (A.domainStep std s stats) _)
  have key : ∀ (L : List Domain) (e : Energy), e.bank.length = s.ranks * s.devices * s.banks →
      (L.foldl (A.domainStep std s stats) e).bank.length = s.ranks * s.devices * s.banks ∧
      (∀ r d b, r < s.ranks → d < s.devices → b < s.banks → ∀ c : Component,
        entry (L.foldl (A.domainStep std s stats) e) (s.energyIndex r d b) c =
          L.foldl (fun x dom => A.add x (c.of (A.contrib std s stats r b dom))) (entry e (s.energyIndex r d b) c)) ∧
      ∀ c : SharedComponent, c.of (L.foldl (A.domainStep std s stats) e).shared =
        (visits s L).foldl (fun x p => A.add x (c.of (A.rankEnergy std s p.1 (stats.rankTotal.getD p.2 {})))) (c.of e.shared) := by
    intro L
    induction L with
    | nil => intro e he; exact ⟨he, fun _ _ _ _ _ _ _ => rfl, fun _ => rfl⟩
    | cons dom L ih =>
      intro e he
      obtain ⟨h1, h2, h3⟩ := ih (A.domainStep std s stats e dom) (by rw [domainStep_length, he])
      refine ⟨h1, fun r d b hr hd hb c => ?_, fun c => ?_⟩
      · rw [List.foldl_cons, h2 r d b hr hd hb, List.foldl_cons]
        congr 1
        have hlt : s.energyIndex r d b < e.bank.length := by rw [he]; exact s.energyIndex_lt hr hd hb
        unfold entry
        rw [List.getD_eq_getElem?_getD, List.getD_eq_getElem?_getD, A.domainStep_get std s stats e dom hr hd hb,
          List.getElem?_eq_getElem hlt]
        simp only [Option.map_some, Option.getD_some, of_addInfo]
      · rw [List.foldl_cons, h3, domainStep_shared]
        unfold visits
        rw [List.flatMap_cons, List.foldl_append]
  obtain ⟨h1, h2, h3⟩ := key s.domains { bank := List.replicate (s.banks * s.ranks * s.devices) {} }
    (by rw [List.length_replicate, Nat.mul_assoc, Nat.mul_comm])
  refine ⟨h1, fun r d b hr hd hb c => ?_, fun c => ?_⟩
  · rw [h2 r d b hr hd hb]
    congr 1
    unfold entry
    rw [List.getD_eq_getElem?_getD]
    simp only [List.getElem?_replicate]
    split <;> simp [Component.of_zero]
  · rw [h3, SharedComponent.of_zero]

theorem foldl_of_info (l : List EnergyInfo) (a : EnergyInfo) (c : Component) :
    c.of (l.foldl A.addInfo a) = l.foldl (fun x e => A.add x (c.of e)) (c.of a) := by
  induction l generalizing a with
  | nil => rfl
  | cons x l ih => rw [List.foldl_cons, ih, of_addInfo, List.foldl_cons]

end Arith

end DRAMPower
