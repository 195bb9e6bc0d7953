import Verif.Props.C01
import Verif.Props.C02

/-!
# Cores left alone

From some time on every bank and every rank stays in its state, and nothing is counted any more.
-/

namespace DRAMPower
open Spec

variable {std : Std} {ms : MemSpec}

/-- A function of time that is constant from some time on. -/
def Settles {α : Type} (f : Nat → α) : Prop := ∃ T k, ∀ τ, T ≤ τ → f τ = k

theorem bound_exists (g : Nat → Nat) : ∀ n, ∃ T, ∀ i < n, g i ≤ T
  | 0 => ⟨0, fun i h => absurd h (Nat.not_lt_zero i)⟩
  | n + 1 => by
    obtain ⟨T, h⟩ := bound_exists g n
    refine ⟨max T (g n), fun i hi => ?_⟩
    by_cases e : i = n
    · rw [e]; exact Nat.le_max_right _ _
    · exact Nat.le_trans (h i (by omega)) (Nat.le_max_left _ _)

theorem list_bound {α : Type} (g : α → Nat) : ∀ l : List α, ∃ T, ∀ a ∈ l, g a ≤ T
  | [] => ⟨0, fun a h => absurd h (List.not_mem_nil)⟩
  | a :: l => by
    obtain ⟨T, h⟩ := list_bound g l
    refine ⟨max T (g a), fun b hb => ?_⟩
    rcases List.mem_cons.1 hb with e | hb
    · rw [e]; exact Nat.le_max_right _ _
    · exact Nat.le_trans (h b hb) (Nat.le_max_left _ _)

namespace Settles

theorem const {α : Type} {f : Nat → α} (k : α) (h : ∀ τ, f τ = k) : Settles f := ⟨0, k, fun τ _ => h τ⟩

theorem below (p : Nat) : Settles fun τ => decide (τ < p) := ⟨p, false, fun τ h => decide_eq_false (by omega)⟩

theorem map {α β : Type} {f : Nat → α} (h : Settles f) (g : α → β) : Settles fun τ => g (f τ) := by
  obtain ⟨T, k, h⟩ := h
  exact ⟨T, g k, fun τ hτ => by simp only [h τ hτ]⟩

theorem map₂ {α β γ : Type} {f : Nat → α} {f' : Nat → β} (h : Settles f) (h' : Settles f') (g : α → β → γ) : Settles fun τ => g (f τ) (f' τ) := by
  obtain ⟨T, k, h⟩ := h
  obtain ⟨T', k', h'⟩ := h'
  exact ⟨max T T', g k k', fun τ hτ => by simp only [h τ (show T ≤ τ by omega), h' τ (show T' ≤ τ by omega)]⟩

/-- Finitely many functions settle together. -/
theorem all {α : Type} {f : Nat → Nat → α} (h : ∀ i, Settles (f i)) (n : Nat) : ∃ T, ∃ k : Nat → α, ∀ i < n, ∀ τ, T ≤ τ → f i τ = k i := by
  obtain ⟨T, hT⟩ := bound_exists (fun i => Classical.choose (h i)) n
  refine ⟨T, fun i => Classical.choose (Classical.choose_spec (h i)), fun i hi τ hτ => ?_⟩
  exact Classical.choose_spec (Classical.choose_spec (h i)) τ (Nat.le_trans (hT i hi) hτ)

end Settles

theorem isOpen_settles (b : BankS) : Settles b.isOpen := by
  unfold BankS.isOpen
  cases b.status with
  | idle => exact .const false fun _ => rfl
  | opened o => cases o with
    | none => exact .const true fun _ => rfl
    | some p => exact .below p
  | refreshing u => exact .below u

theorem low_settles (m : Mode) : Settles m.low := by
  cases m with
  | normal => exact .const none fun _ => rfl
  | pd a e x =>
    cases x with
    | none =>
      refine ⟨e, some (if a then .pda else .pdp), fun τ h => ?_⟩
      show (if _ then _ else _) = _
      exact if_pos ⟨h, fun y hy => by cases hy⟩
    | some y =>
      refine ⟨y, none, fun τ h => ?_⟩
      show (if _ then _ else _) = _
      refine if_neg fun hc => ?_
      have := hc.2 y rfl
      omega
  | sref s => exact ⟨s, some .sref, fun τ h => if_pos h⟩
  | dsm => exact .const (some .dsm) fun _ => rfl

theorem stateAt_settles (std : Std) (ms : MemSpec) (h : List Cmd) : Settles (stateAt std ms h) := by
  obtain ⟨T, hT⟩ := list_bound Cmd.t h
  refine ⟨T, h.foldl (apply std ms) {}, fun τ hτ => ?_⟩
  unfold stateAt
  rw [List.filter_eq_self.2 fun c hc => decide_eq_true (Nat.le_trans (hT c hc) hτ)]

theorem bankCat_settles (s : State) (b : Nat) : Settles (bankCat s b) :=
  (low_settles s.mode).map₂ (isOpen_settles (s.bank b)) fun l o => l.getD (if o then .act else .pre)

theorem rankCat_settles (n : Nat) (s : State) : Settles (rankCat n s) := by
  obtain ⟨T, k, h⟩ := Settles.all (fun b => isOpen_settles (s.bank b)) n
  have ho : Settles fun τ => decide (∃ b < n, (s.bank b).isOpen τ = true) := by
    refine ⟨T, decide (∃ b < n, k b = true), fun τ hτ => decide_eq_decide.2 ⟨fun ⟨b, hb, e⟩ => ⟨b, hb, ?_⟩, fun ⟨b, hb, e⟩ => ⟨b, hb, ?_⟩⟩⟩
    · rw [← h b hb τ hτ]; exact e
    · rw [h b hb τ hτ]; exact e
  obtain ⟨T, k, q⟩ := (low_settles s.mode).map₂ ho fun l o => l.getD (if o = true then .act else .pre)
  refine ⟨T, k, fun τ hτ => ?_⟩
  rw [← q τ hτ]
  unfold rankCat
  simp only [decide_eq_true_eq]

theorem diagonal {α : Type} {f : Nat → State} {g : State → Nat → α} (hf : Settles f) (hg : ∀ s, Settles (g s)) : Settles fun τ => g (f τ) τ := by
  obtain ⟨T, s, h⟩ := hf
  obtain ⟨T', k, h'⟩ := hg s
  exact ⟨max T T', k, fun τ hτ => by simp only [h τ (show T ≤ τ by omega), h' τ (show T' ≤ τ by omega)]⟩

theorem category_settles (std : Std) (ms : MemSpec) (h : List Cmd) (b : Nat) : Settles (category std ms h b) :=
  diagonal (stateAt_settles std ms h) fun s => bankCat_settles s b

theorem rankCategory_settles (std : Std) (ms : MemSpec) (h : List Cmd) : Settles (rankCategory std ms h) :=
  diagonal (stateAt_settles std ms h) fun s => rankCat_settles _ s

theorem count_tail {f : Nat → Cat} {T : Nat} {k0 : Cat} (h : ∀ τ, T ≤ τ → f τ = k0) (k : Cat) : ∀ n,
    (List.range (T + n)).countP (fun τ => f τ = k) = (List.range T).countP (fun τ => f τ = k) + if k0 = k then n else 0
  | 0 => by simp
  | n + 1 => by
    rw [← Nat.add_assoc, List.range_succ, List.countP_append, count_tail h k n, List.countP_singleton, h _ (by omega)]
    by_cases e : k0 = k
    · simp [e]; omega
    · simp [e]

theorem processQ_all {t t' : Nat} : ∀ {q : List QEntry} {ranks : Nat → Rank} {last : Nat}, (∀ e ∈ q, e.t ≤ t) → t ≤ t' →
    processQ std t' ranks last q = processQ std t ranks last q
  | [], _, _, _, _ => rfl
  | e :: q, ranks, last, h, ht => by
    have h1 : e.t ≤ t := h e List.mem_cons_self
    unfold processQ
    rw [if_pos h1, if_pos (Nat.le_trans h1 ht)]
    exact processQ_all (fun x hx => h x (List.mem_cons_of_mem _ hx)) ht

/-- The core figures from time `T` on: nothing is counted, and every bank and rank stays in its state. -/
structure CoreSteady (std : Std) (ms : MemSpec) (c : Core) (T : Nat) (cb : Nat → Nat → Counters) (yb : Nat → Nat → Cat → Nat) (kb : Nat → Nat → Cat)
    (yr : Nat → Cat → Nat) (kr : Nat → Cat) : Prop where
  bank : ∀ n, ∀ i < ms.numberOfRanks, ∀ j < ms.numberOfBanks, (c.getWindowStats std ms (T + n)).2.bank[i * ms.numberOfBanks + j]? =
    some { counter := cb i j, cycles := cycles fun k => yb i j k + if kb i j = k then n else 0 }
  rank : ∀ n, ∀ i < ms.numberOfRanks, (c.getWindowStats std ms (T + n)).2.rankTotal[i]? =
    some (cycles fun k => yr i k + if kr i = k then n else 0)

theorem core_steady {cmds : List Cmd} {c : Core} (hv : ValidSpec std ms) (ht : TameTrace std ms cmds)
    (hr : (Core.init ms).run std ms cmds = .ok c) : ∃ T0, ∀ T, T0 ≤ T → ∃ cb yb kb yr kr, CoreSteady std ms c T cb yb kb yr kr := by
  obtain ⟨T1, h1⟩ := list_bound Cmd.t cmds
  obtain ⟨T2, h2⟩ := list_bound QEntry.t c.queue
  obtain ⟨T3, kr, h3⟩ := Settles.all (fun i => rankCategory_settles std ms (forRank std i cmds)) ms.numberOfRanks
  have h4 := fun i => Settles.all (fun b => category_settles std ms (forRank std i cmds) b) ms.numberOfBanks
  obtain ⟨T4, h5⟩ := bound_exists (fun i => Classical.choose (h4 i)) ms.numberOfRanks
  refine ⟨T1 + T2 + T3 + T4, fun T hT => ?_⟩
  refine ⟨fun i j => (((c.process std T).ranks i).banks j).counter, fun i j k => bankTime std ms (forRank std i cmds) j k T,
    fun i => Classical.choose (Classical.choose_spec (h4 i)), fun i k => rankTime std ms (forRank std i cmds) k T, kr, ?_, ?_⟩
  · intro n i hi j hj
    have a := C01_partial std ms cmds hv ht c hr (T + n) (fun x hx => by have := h1 x hx; omega) i hi j hj
    rw [stats_bank hi hj] at a ⊢
    have a := Option.some.inj a
    have hp : c.process std (T + n) = c.process std T := processQ_all (fun e he => by have := h2 e he; omega) (by omega)
    have hb : ∀ τ, T ≤ τ → category std ms (forRank std i cmds) j τ = Classical.choose (Classical.choose_spec (h4 i)) j := fun τ hτ =>
      Classical.choose_spec (Classical.choose_spec (h4 i)) j hj τ (by have := h5 i hi; omega)
    have e : ∀ k, bankTime std ms (forRank std i cmds) j k (T + n) = bankTime std ms (forRank std i cmds) j k T +
        if Classical.choose (Classical.choose_spec (h4 i)) j = k then n else 0 := fun k => count_tail hb k n
    have a' : (bankStats std ((c.process std (T + n)).ranks i) (T + n) j).cycles = cycles fun k => bankTime std ms (forRank std i cmds) j k T +
        if Classical.choose (Classical.choose_spec (h4 i)) j = k then n else 0 := by
      rw [← funext e]
      exact a
    refine congrArg some ?_
    rw [← a']
    show bankStats _ _ _ _ = { counter := _, cycles := _ }
    rw [← hp]
    rfl
  · intro n i hi
    rw [C02_partial std ms cmds hv ht c hr (T + n) (fun x hx => by have := h1 x hx; omega) i hi]
    have e : ∀ k, rankTime std ms (forRank std i cmds) k (T + n) = rankTime std ms (forRank std i cmds) k T + if kr i = k then n else 0 :=
      fun k => count_tail (fun τ hτ => h3 i hi τ (by omega)) k n
    rw [funext e]

end DRAMPower
