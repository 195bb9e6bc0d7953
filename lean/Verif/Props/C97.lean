import Verif.Spec.PowerDown
import Verif.Props.C04
import Verif.Props.C03
import Verif.Props.C67

/-!
# C97: a precharge power-down moves standby cycles to power-down cycles and changes nothing else
-/

namespace DRAMPower
open Spec

variable {std : Std} {ms : MemSpec}

/-- The full statement. -/
def C97_statement (std : Std) : Prop :=
  ∀ ms l1 m l3 E X, ValidSpec std ms → Naps std E X m → LegalTrace std ms (l1 ++ E :: (m ++ X :: l3)) →
  ∀ c', (Core.init ms).run std ms (l1 ++ E :: (m ++ X :: l3)) = .ok c' → ∃ c, (Core.init ms).run std ms (l1 ++ (m ++ l3)) = .ok c ∧
  ∀ t, NotBefore (l1 ++ E :: (m ++ X :: l3)) t → ∀ i < ms.numberOfRanks,
    (∃ x y, (c.getWindowStats std ms t).2.rankTotal[i]? = some x ∧ (c'.getWindowStats std ms t).2.rankTotal[i]? = some y ∧
      Moved (if i = E.rank then asleep std ms l1 E X t else 0) x y) ∧
    ∀ b < ms.numberOfBanks, ∃ x y, (c.getWindowStats std ms t).2.bank[i * ms.numberOfBanks + b]? = some x ∧
      (c'.getWindowStats std ms t).2.bank[i * ms.numberOfBanks + b]? = some y ∧ y.counter = x.counter ∧
      Moved (if i = E.rank then asleep std ms l1 E X t else 0) x.cycles y.cycles

/-! ## One rank -/

theorem isOpen_stays {b : BankS} {e τ : Nat} (h : b.isOpen e = false) (ht : e ≤ τ) : b.isOpen τ = false := by
  unfold BankS.isOpen at h ⊢
  split at h
  · rfl
  · cases h
  · simp only [decide_eq_false_iff_not] at h ⊢; omega
  · simp only [decide_eq_false_iff_not] at h ⊢; omega

theorem tame_swap {x y y' : List Cmd} : ∀ {s now}, TameFrom std ms s now (x ++ y) →
    (∀ now', TameFrom std ms (x.foldl (apply std ms) s) now' y → TameFrom std ms (x.foldl (apply std ms) s) now' y') →
    TameFrom std ms s now (x ++ y') := by
  induction x with
  | nil => intro s now h f; exact f now h
  | cons c x ih => intro s now h f; exact ⟨h.1, h.2.1, ih h.2.2 f⟩

theorem tame_tail {x y : List Cmd} : ∀ {s now}, TameFrom std ms s now (x ++ y) → ∃ now', TameFrom std ms (x.foldl (apply std ms) s) now' y := by
  induction x with
  | nil => intro s now h; exact ⟨now, h⟩
  | cons c x ih => intro s now h; exact ih h.2.2

/-- Nothing is legal between the request of the exit and the exit. -/
theorem legal_awake {s : State} {a : Bool} {e x : Nat} {c : Cmd} (hm : s.mode = .pd a e (some x)) : ¬ legalCmd std ms s c := by
  rintro ⟨_, _, h⟩
  cases hc : c.type <;> simp [hc, hm, Mode.selfRefreshing, Mode.inPd] at h

/-- After the two commands. -/
theorem nap_state {S : State} {E X : Cmd} (hE : E.type = .PDEP) (hX : X.type = .PDXP) (ht : E.t ≤ X.t) :
    apply std ms (apply std ms S E) X =
      { mode := .pd false (pdTime std ms (S.settle E.t) E.t) (some (pdTime std ms (S.settle X.t) X.t)), bank := (S.settle X.t).bank } := by
  have e : (S.settle E.t).settle X.t = S.settle X.t := State.settle_settle ht S
  have e1 : apply std ms S E = { S.settle E.t with mode := .pd false (pdTime std ms (S.settle E.t) E.t) none } := by simp only [apply, hE]
  have e2 : (apply std ms S E).settle X.t = { S.settle X.t with mode := .pd false (pdTime std ms (S.settle E.t) E.t) none } := by
    rw [e1, ← e]; rfl
  have e3 : ∀ T : State, T.settle X.t = { S.settle X.t with mode := .pd false (pdTime std ms (S.settle E.t) E.t) none } → apply std ms T X =
      { mode := .pd false (pdTime std ms (S.settle E.t) E.t) (some (pdTime std ms (S.settle X.t) X.t)), bank := (S.settle X.t).bank } := by
    intro T hT
    simp only [apply, hX, hT]
    rfl
  exact e3 _ e2

/-- The next command finds the rank as without the power-down. -/
theorem nap_over {S : State} {E X c : Cmd} (hE : E.type = .PDEP) (hX : X.type = .PDXP) (ht : E.t ≤ X.t) (hc : X.t ≤ c.t)
    (hn : (S.settle E.t).mode = .normal) (hl : legalCmd std ms ((apply std ms (apply std ms S E) X).settle c.t) c) :
    (apply std ms (apply std ms S E) X).settle c.t = S.settle c.t ∧ pdTime std ms (S.settle X.t) X.t ≤ c.t := by
  rw [nap_state hE hX ht] at hl ⊢
  by_cases hx : pdTime std ms (S.settle X.t) X.t ≤ c.t
  · refine ⟨?_, hx⟩
    have e : (S.settle X.t).settle c.t = S.settle c.t := State.settle_settle hc S
    have e' : (S.settle E.t).settle c.t = S.settle c.t := State.settle_settle (by omega) S
    have hm : (S.settle c.t).mode = .normal := by
      rw [← e']
      show ((S.settle E.t).mode).settle c.t = _
      rw [hn]; rfl
    have hb : (S.settle c.t).bank = ((S.settle X.t).settle c.t).bank := by rw [e]
    show State.mk _ _ = _
    cases hS : S.settle c.t with
    | mk m b =>
      rw [hS] at hm hb
      simp only at hm hb
      rw [hm, hb]
      simp only [State.mk.injEq]
      refine ⟨?_, rfl⟩
      show (if _ then _ else _) = _
      rw [if_pos hx]
  · exact absurd hl (legal_awake (a := false) (by
      show (if _ then _ else _) = _
      rw [if_neg hx]))

/-- How the timelines of the rank differ. -/
structure Slept (n : Nat) (s s' : State) (e x τ : Nat) : Prop where
  open' : ∀ b, (s'.bank b).isOpen τ = (s.bank b).isOpen τ
  inside : e ≤ τ → τ < x → s'.mode.low τ = some .pdp ∧ s.mode.low τ = none ∧ ∀ b < n, (s.bank b).isOpen τ = false
  outside : ¬ (e ≤ τ ∧ τ < x) → s'.mode.low τ = s.mode.low τ

theorem Slept.same {n : Nat} {s : State} {e x τ : Nat} (h : ¬ (e ≤ τ ∧ τ < x)) : Slept n s s e x τ :=
  ⟨fun _ => rfl, fun h1 h2 => absurd ⟨h1, h2⟩ h, fun _ => rfl⟩

theorem rank_nap {h1 h3 : List Cmd} {E X : Cmd} (hE : E.type = .PDEP) (hX : X.type = .PDXP) (ht : Tame std ms (h1 ++ E :: X :: h3))
    (hord : Ordered (h1 ++ E :: X :: h3)) :
    let S := h1.foldl (apply std ms) {}
    Tame std ms (h1 ++ h3) ∧
    (∀ τ, Slept ms.numberOfBanks (stateAt std ms (h1 ++ h3) τ) (stateAt std ms (h1 ++ E :: X :: h3) τ) (pdTime std ms (S.settle E.t) E.t)
      (pdTime std ms (S.settle X.t) X.t) τ) ∧
    ∀ t b, X.t ≤ t → (((h1 ++ E :: X :: h3).foldl (apply std ms) {}).settle t).bank b = (((h1 ++ h3).foldl (apply std ms) {}).settle t).bank b := by
  intro S
  have he : E.t ≤ pdTime std ms (S.settle E.t) E.t := Nat.le_max_left ..
  have hx : X.t ≤ pdTime std ms (S.settle X.t) X.t := Nat.le_max_left ..
  obtain ⟨now, h⟩ := tame_tail ht
  change TameFrom std ms S now (E :: X :: h3) at h
  obtain ⟨_, hle, hEX, _, hrest⟩ := h
  have hlE := hle.1
  unfold legalCmd at hlE
  rw [hE] at hlE
  obtain ⟨_, _, hn, hclosed⟩ := hlE
  have hord2 := (List.pairwise_append.1 hord)
  have t1 : ∀ c ∈ h1, c.t ≤ E.t := fun c hc => hord2.2.2 c hc E (by simp)
  have t3 : ∀ c ∈ h3, X.t ≤ c.t := fun c hc => by
    have := (List.pairwise_cons.1 hord2.2.1).2
    exact (List.pairwise_cons.1 this).1 c hc
  have hh3 : h3.Pairwise (·.t ≤ ·.t) := (List.pairwise_cons.1 (List.pairwise_cons.1 hord2.2.1).2).2
  have key : ∀ c h3', h3 = c :: h3' → apply std ms (apply std ms (apply std ms S E) X) c = apply std ms S c ∧ pdTime std ms (S.settle X.t) X.t ≤ c.t ∧
      (apply std ms (apply std ms S E) X).settle c.t = S.settle c.t := by
    rintro c h3' rfl
    obtain ⟨k1, k2⟩ := nap_over hE hX hEX hrest.1 hn hrest.2.1.1
    refine ⟨?_, k2, k1⟩
    rw [← apply_settle (Nat.le_refl c.t), k1, apply_settle (Nat.le_refl c.t)]
  have low0 : ∀ τ, E.t ≤ τ → S.mode.low τ = none := fun τ hτ => by
    have : view (S.settle E.t) τ = view S τ := view_settle hτ
    have h2 := congrArg Prod.fst this
    change (S.settle E.t).mode.low τ = S.mode.low τ at h2
    rw [← h2, hn]; rfl
  have open0 : ∀ t τ b, t ≤ τ → ((S.settle t).bank b).isOpen τ = (S.bank b).isOpen τ := fun t τ b hτ => by
    have : view (S.settle t) τ = view S τ := view_settle hτ
    exact congrFun (congrArg Prod.snd this) b
  have closed : ∀ τ, pdTime std ms (S.settle E.t) E.t ≤ τ → ∀ b < ms.numberOfBanks, (S.bank b).isOpen τ = false := fun τ hτ b hb => by
    rw [← open0 E.t τ b (by omega)]
    exact isOpen_stays (hclosed b hb) hτ
  refine ⟨tame_swap ht fun now' hh => ?_, fun τ => ?_, fun t b hXt => ?_⟩
  · obtain ⟨g1, _, g2, _, g3⟩ := hh
    cases hc : h3 with
    | nil => trivial
    | cons c h3' =>
      rw [hc] at g3
      obtain ⟨k1, _, k3⟩ := key c h3' hc
      obtain ⟨u1, u2, u3⟩ := g3
      change tameCmd std ms ((apply std ms (apply std ms S E) X).settle c.t) c at u2
      change TameFrom std ms (apply std ms (apply std ms (apply std ms S E) X) c) c.t h3' at u3
      rw [k3] at u2
      rw [k1] at u3
      exact ⟨by omega, u2, u3⟩
  · have es : ∀ h, stateAt std ms h τ = stateFrom std ms {} h τ := fun _ => rfl
    rw [es, es, stateFrom_append, stateFrom_append]
    by_cases c1 : τ < E.t
    · rw [stateFrom_none (x := E :: X :: h3) (by
        intro c hc
        simp only [List.mem_cons] at hc
        rcases hc with rfl | rfl | hc
        · exact c1
        · omega
        · have := t3 c hc; omega), stateFrom_none (x := h3) (by intro c hc; have := t3 c hc; omega)]
      exact .same (by omega)
    · have eS : stateFrom std ms {} h1 τ = S := stateFrom_all fun c hc => by have := t1 c hc; omega
      rw [eS]
      by_cases c2 : τ < X.t
      · have e1 : stateFrom std ms S (E :: X :: h3) τ = apply std ms S E := by
          rw [show E :: X :: h3 = [E] ++ (X :: h3) from rfl, stateFrom_append, stateFrom_all (x := [E]) (by simp; omega),
            stateFrom_none (x := X :: h3) (by
              intro c hc
              simp only [List.mem_cons] at hc
              rcases hc with rfl | hc
              · exact c2
              · have := t3 c hc; omega)]
          rfl
        have e2 : apply std ms S E = { S.settle E.t with mode := .pd false (pdTime std ms (S.settle E.t) E.t) none } := by simp only [apply, hE]
        rw [e1, e2, stateFrom_none (x := h3) (by intro c hc; have := t3 c hc; omega)]
        refine ⟨fun b => open0 _ _ _ (by omega), fun h _ => ⟨?_, low0 τ (by omega), closed τ h⟩, fun h => ?_⟩
        · show (if _ then _ else _) = _
          rw [if_pos ⟨h, fun y hy => by cases hy⟩]; rfl
        · rw [low0 τ (by omega)]
          show (if _ then _ else _) = _
          rw [if_neg (fun hh => h ⟨hh.1, by omega⟩)]
      · have e1 : stateFrom std ms S (E :: X :: h3) τ = stateFrom std ms (apply std ms (apply std ms S E) X) h3 τ := by
          rw [show E :: X :: h3 = [E, X] ++ h3 from rfl, stateFrom_append, stateFrom_all (x := [E, X]) (by simp; omega)]
          rfl
        rw [e1]
        have idle : Slept ms.numberOfBanks S (apply std ms (apply std ms S E) X) (pdTime std ms (S.settle E.t) E.t) (pdTime std ms (S.settle X.t) X.t) τ := by
          rw [nap_state hE hX hEX]
          refine ⟨fun b => open0 _ _ _ (by omega), fun h h' => ⟨?_, low0 τ (by omega), closed τ h⟩, fun h => ?_⟩
          · show (if _ then _ else _) = _
            rw [if_pos ⟨h, fun y hy => by cases hy; exact h'⟩]; rfl
          · rw [low0 τ (by omega)]
            show (if _ then _ else _) = _
            rw [if_neg (fun hh => h ⟨hh.1, hh.2 _ rfl⟩)]
        cases hc : h3 with
        | nil => exact idle
        | cons c h3' =>
          obtain ⟨k1, k2, _⟩ := key c h3' hc
          by_cases c3 : τ < c.t
          · have : ∀ d ∈ c :: h3', τ < d.t := by
              rw [hc] at hh3
              intro d hd
              rcases List.mem_cons.1 hd with rfl | hd
              · exact c3
              · exact Nat.lt_of_lt_of_le c3 ((List.pairwise_cons.1 hh3).1 d hd)
            rw [stateFrom_none this, stateFrom_none this]
            exact idle
          · unfold stateFrom
            rw [List.filter_cons_of_pos (by simpa using Nat.le_of_not_lt c3), List.foldl_cons, List.foldl_cons, k1]
            exact .same (by omega)
  · rw [List.foldl_append, List.foldl_append, List.foldl_cons, List.foldl_cons]
    change ((h3.foldl (apply std ms) (apply std ms (apply std ms S E) X)).settle t).bank b = ((h3.foldl (apply std ms) S).settle t).bank b
    cases hc : h3 with
    | nil =>
      rw [List.foldl_nil, List.foldl_nil, nap_state hE hX hEX]
      have e : (S.settle X.t).settle t = S.settle t := State.settle_settle hXt S
      rw [← e]
      rfl
    | cons c h3' => rw [List.foldl_cons, List.foldl_cons, (key c h3' hc).1]

/-! ## Counting -/

theorem count_nap {f g : Nat → Cat} {e x : Nat} (hin : ∀ τ, e ≤ τ → τ < x → g τ = .pdp ∧ f τ = .pre)
    (hout : ∀ τ, ¬ (e ≤ τ ∧ τ < x) → g τ = f τ) (t : Nat) :
    Moved (min t x - e) (cycles fun k => (List.range t).countP fun τ => f τ = k) (cycles fun k => (List.range t).countP fun τ => g τ = k) := by
  induction t with
  | zero => constructor <;> simp [cycles]
  | succ t ih =>
    obtain ⟨i1, i2, i3, i4, i5, i6⟩ := ih
    simp only [cycles] at i1 i2 i3 i4 i5 i6
    by_cases c : e ≤ t ∧ t < x
    · obtain ⟨a, b⟩ := hin t c.1 c.2
      constructor <;> simp only [cycles, List.range_succ, List.countP_append, List.countP_cons, List.countP_nil, a, b, i3, i4, i5, i6] <;> simp <;> omega
    · have a := hout t c
      have n : min (t + 1) x - e = min t x - e := by omega
      rw [n]
      constructor <;> simp only [cycles, List.range_succ, List.countP_append, List.countP_cons, List.countP_nil, a, i3, i4, i5, i6] <;> omega

theorem Spec.Moved.refl (x : Cycles) : Moved 0 x x := ⟨rfl, rfl, rfl, rfl, rfl, rfl⟩

theorem slept_bank {n b : Nat} {s s' : State} {e x τ : Nat} (h : Slept n s s' e x τ) (hb : b < n) :
    (e ≤ τ → τ < x → bankCat s' b τ = .pdp ∧ bankCat s b τ = .pre) ∧ (¬ (e ≤ τ ∧ τ < x) → bankCat s' b τ = bankCat s b τ) := by
  unfold bankCat
  refine ⟨fun h1 h2 => ?_, fun h1 => ?_⟩
  · obtain ⟨a, b', c⟩ := h.inside h1 h2
    rw [a, b', c b hb]
    exact ⟨rfl, rfl⟩
  · rw [h.outside h1, h.open']

theorem slept_rank {n : Nat} {s s' : State} {e x τ : Nat} (h : Slept n s s' e x τ) :
    (e ≤ τ → τ < x → rankCat n s' τ = .pdp ∧ rankCat n s τ = .pre) ∧ (¬ (e ≤ τ ∧ τ < x) → rankCat n s' τ = rankCat n s τ) := by
  unfold rankCat
  refine ⟨fun h1 h2 => ?_, fun h1 => ?_⟩
  · obtain ⟨a, b', c⟩ := h.inside h1 h2
    rw [a, b']
    exact ⟨rfl, if_neg (by rintro ⟨b, hb, ho⟩; rw [c b hb] at ho; cases ho)⟩
  · simp only [h.outside h1, h.open']

/-! ## All ranks -/

theorem forRank_others {m : List Cmd} {i : Nat} (h : ∀ c ∈ m, c.rank ≠ i ∨ unaddressed std c.type = true) : forRank std i m = [] := by
  unfold forRank
  refine List.filter_eq_nil_iff.2 fun c hc => ?_
  rcases h c hc with h | h <;> simp [h]

/-- Missing from the full statement: the active power-down situations excluded by `benignCmd` (not DDR4), before, after or
on another rank than the precharge power-down. -/
theorem C97_partial (std : Std) (ms : MemSpec) (l1 m l3 : List Cmd) (E X : Cmd) (hv : ValidSpec std ms) (hn : Naps std E X m)
    (ht : TameTrace std ms (l1 ++ E :: (m ++ X :: l3))) (c' : Core) (hr' : (Core.init ms).run std ms (l1 ++ E :: (m ++ X :: l3)) = .ok c') :
    TameTrace std ms (l1 ++ (m ++ l3)) ∧ ∃ c, (Core.init ms).run std ms (l1 ++ (m ++ l3)) = .ok c ∧
    ∀ t, NotBefore (l1 ++ E :: (m ++ X :: l3)) t → ∀ i < ms.numberOfRanks,
      (∃ x y, (c.getWindowStats std ms t).2.rankTotal[i]? = some x ∧ (c'.getWindowStats std ms t).2.rankTotal[i]? = some y ∧
        Moved (if i = E.rank then asleep std ms l1 E X t else 0) x y) ∧
      ∀ b < ms.numberOfBanks, ∃ x y, (c.getWindowStats std ms t).2.bank[i * ms.numberOfBanks + b]? = some x ∧
        (c'.getWindowStats std ms t).2.bank[i * ms.numberOfBanks + b]? = some y ∧ y.counter = x.counter ∧
        Moved (if i = E.rank then asleep std ms l1 E X t else 0) x.cycles y.cycles := by
  have uE : unaddressed std E.type = false := by unfold unaddressed; simp [hn.entry]
  have uX : unaddressed std X.type = false := by unfold unaddressed; simp [hn.exit]
  have sub : List.Sublist (l1 ++ (m ++ l3)) (l1 ++ E :: (m ++ X :: l3)) :=
    List.Sublist.append_left ((List.Sublist.append_left (List.sublist_cons_self ..) m).cons E) l1
  have eq1 : forRank std E.rank (l1 ++ E :: (m ++ X :: l3)) = forRank std E.rank l1 ++ E :: X :: forRank std E.rank l3 := by
    rw [forRank_append, forRank_cons_pos rfl uE, forRank_append, forRank_others hn.others, forRank_cons_pos hn.rank uX, List.nil_append]
  have eq2 : forRank std E.rank (l1 ++ (m ++ l3)) = forRank std E.rank l1 ++ forRank std E.rank l3 := by
    rw [forRank_append, forRank_append, forRank_others hn.others, List.nil_append]
  have eq3 : ∀ i, i ≠ E.rank → forRank std i (l1 ++ E :: (m ++ X :: l3)) = forRank std i (l1 ++ (m ++ l3)) := fun i hi => by
    rw [forRank_append, forRank_cons_neg (Ne.symm hi), forRank_append, forRank_cons_neg (by rw [hn.rank]; exact Ne.symm hi), forRank_append, forRank_append]
  have hrk : E.rank < ms.numberOfRanks := by
    rcases ht.ranks E (by simp) with h | h
    · rw [uE] at h; cases h
    · exact h
  have hordR : Ordered (forRank std E.rank l1 ++ E :: X :: forRank std E.rank l3) := by
    rw [← eq1]; exact List.Pairwise.sublist List.filter_sublist ht.ordered
  have htR := ht.tame _ hrk
  rw [eq1] at htR
  obtain ⟨n1, n2, n3⟩ := rank_nap hn.entry hn.exit htR hordR
  have ht0 : TameTrace std ms (l1 ++ (m ++ l3)) := by
    refine ⟨List.Pairwise.sublist sub ht.ordered, fun c hc => ht.ranks c (sub.subset hc), fun i hi => ?_⟩
    by_cases h : i = E.rank
    · subst h; rw [eq2]; exact n1
    · rw [← eq3 i h]; exact ht.tame i hi
  obtain ⟨c, hr⟩ := tame_ok hv ht0
  refine ⟨ht0, c, hr, fun t hT i hi => ?_⟩
  have hT0 : NotBefore (l1 ++ (m ++ l3)) t := fun d hd => hT d (sub.subset hd)
  have hXt : X.t ≤ t := hT X (by simp)
  have r1 := C02_partial std ms _ hv ht0 c hr t hT0 i hi
  have r2 := C02_partial std ms _ hv ht c' hr' t hT i hi
  refine ⟨⟨_, _, r1, r2, ?_⟩, fun b hb => ⟨_, _, stats_bank hi hb, stats_bank hi hb, ?_, ?_⟩⟩
  · by_cases h : i = E.rank
    · subst h
      rw [if_pos rfl, eq1, eq2]
      exact count_nap (fun τ => (slept_rank (n2 τ)).1) (fun τ => (slept_rank (n2 τ)).2) t
    · rw [if_neg h, eq3 i h]; exact .refl _
  · have r1 := C09 std ms _ hv.groups (tame_twoBanks ht0) c hr t i hi b hb
    have r2 := C09 std ms _ hv.groups (tame_twoBanks ht) c' hr' t i hi b hb
    have p1 := C09_pre_partial std ms _ hv ht0 c hr t hT0 i hi b hb
    have p2 := C09_pre_partial std ms _ hv ht c' hr' t hT i hi b hb
    rw [stats_bank hi hb, Option.map_some, Option.some_inj] at r1 r2 p1 p2
    have et : tally ms (forRank std i (l1 ++ E :: (m ++ X :: l3))) b = tally ms (forRank std i (l1 ++ (m ++ l3))) b := by
      by_cases h : i = E.rank
      · subst h
        have tE : tally ms [E] b = {} := by simp [tally, hits, hn.entry]
        have tX : tally ms [X] b = {} := by simp [tally, hits, hn.exit]
        rw [eq1, eq2, tally_append, tally_append, tally_cons ms E, tally_cons ms X, tE, tX]
        simp [Counters.plus]
      · rw [eq3 i h]
    have ep : ((((forRank std i (l1 ++ E :: (m ++ X :: l3))).foldl (apply std ms) {}).settle t).bank b).pres =
        ((((forRank std i (l1 ++ (m ++ l3))).foldl (apply std ms) {}).settle t).bank b).pres := by
      by_cases h : i = E.rank
      · subst h
        rw [eq1, eq2, n3 t b hXt]
      · rw [eq3 i h]
    rw [et, ← r1] at r2
    rw [ep, ← p1] at p2
    generalize (bankStats std ((c.process std t).ranks i) t b).counter = x at *
    generalize (bankStats std ((c'.process std t).ranks i) t b).counter = y at *
    obtain ⟨x1, x2, x3, x4, x5, x6, x7, x8, x9, x10, x11⟩ := x
    obtain ⟨y1, y2, y3, y4, y5, y6, y7, y8, y9, y10, y11⟩ := y
    simp only [Counters.noPre, Counters.mk.injEq] at r2 p2 ⊢
    omega
  · have r1 := C01_partial std ms _ hv ht0 c hr t hT0 i hi b hb
    have r2 := C01_partial std ms _ hv ht c' hr' t hT i hi b hb
    rw [stats_bank hi hb, Option.map_some, Option.some_inj] at r1 r2
    rw [r1, r2]
    by_cases h : i = E.rank
    · subst h
      rw [if_pos rfl, eq1, eq2]
      exact count_nap (fun τ => (slept_bank (n2 τ) hb).1) (fun τ => (slept_bank (n2 τ) hb).2) t
    · rw [if_neg h, eq3 i h]; exact .refl _

/-- DDR4: the full statement. -/
theorem C97_ddr4 : C97_statement .ddr4 := by
  intro ms l1 m l3 E X hv hn hl c' hr'
  exact (C97_partial .ddr4 ms l1 m l3 E X hv hn (legal_tame_ddr4 hl) c' hr').2

/-- All standards: every legal trace without active power-down. -/
theorem C97_noActivePowerDown (std : Std) (ms : MemSpec) (l1 m l3 : List Cmd) (E X : Cmd) (hv : ValidSpec std ms) (hn : Naps std E X m)
    (hl : LegalTrace std ms (l1 ++ E :: (m ++ X :: l3))) (ha : ∀ c ∈ l1 ++ E :: (m ++ X :: l3), c.type ≠ .PDEA) (c' : Core)
    (hr' : (Core.init ms).run std ms (l1 ++ E :: (m ++ X :: l3)) = .ok c') :
    ∃ c, (Core.init ms).run std ms (l1 ++ (m ++ l3)) = .ok c ∧
    ∀ t, NotBefore (l1 ++ E :: (m ++ X :: l3)) t → ∀ i < ms.numberOfRanks,
      (∃ x y, (c.getWindowStats std ms t).2.rankTotal[i]? = some x ∧ (c'.getWindowStats std ms t).2.rankTotal[i]? = some y ∧
        Moved (if i = E.rank then asleep std ms l1 E X t else 0) x y) ∧
      ∀ b < ms.numberOfBanks, ∃ x y, (c.getWindowStats std ms t).2.bank[i * ms.numberOfBanks + b]? = some x ∧
        (c'.getWindowStats std ms t).2.bank[i * ms.numberOfBanks + b]? = some y ∧ y.counter = x.counter ∧
        Moved (if i = E.rank then asleep std ms l1 E X t else 0) x.cycles y.cycles :=
  (C97_partial std ms l1 m l3 E X hv hn (legal_tame_noPda hl ha) c' hr').2

/-! ## Energy -/

section energy

variable {N : Nat} {sp : IfSpec} {ps : PowerSpec}

/-- What the energy calculation reads of the statistics. -/
theorem rank_figures {s s1 : Simulator std N} {t : Nat} {e : Energy} (hk : ps.ranks = ms.numberOfRanks)
    (he : s.calcCoreEnergy ms sp ps t = .ok (s1, e)) :
    ∃ x, ps.calcEnergy std x = .ok e ∧ x.bank = (s.core.getWindowStats std ms t).2.toSim.bank ∧
      ∀ i < ms.numberOfRanks, (x.rankTotal.getD i {}).cycles = ((s.core.getWindowStats std ms t).2.rankTotal[i]?).getD {} := by
  unfold Simulator.calcCoreEnergy at he
  obtain ⟨⟨a, x⟩, ha, he⟩ := bind_ok he
  obtain ⟨ea, hea, he⟩ := bind_ok he
  cases pure_ok he
  obtain ⟨bx, rx⟩ := window_lists (simulator_stats ha)
  have hlen := ranks_of_ok hea
  refine ⟨x, hea, bx, fun i hi => ?_⟩
  have hc : (((s.core.getWindowStats std ms t).2.toSim.rankTotal.getD i {}).cycles) = ((s.core.getWindowStats std ms t).2.rankTotal[i]?).getD {} := by
    rw [List.getD_eq_getElem?_getD]
    simp only [CoreStats.toSim, List.getElem?_map]
    cases (s.core.getWindowStats std ms t).2.rankTotal[i]? <;> rfl
  rw [← hc, rx]
  split
  · unfold Interface.rankTotals
    rw [List.getD_eq_getElem?_getD, List.getD_eq_getElem?_getD, List.getElem?_mapIdx]
    have hl : i < s.interface.ranks.length := by
      rw [rx] at hlen
      split at hlen
      · simp only [Interface.rankTotals, List.length_mapIdx] at hlen
        omega
      · contradiction
    rw [List.getElem?_eq_getElem hl, List.getD_eq_getElem?_getD]
    rfl
  · rfl

/-- The core energy saved: the difference of the standby and the power-down current during the power-down. Missing from the full
statement: as for `C97_partial`. -/
theorem C97_energy_partial {l1 m l3 : List ICmd} {E X : ICmd} {s0 s s' q q' : Simulator std N} {t : Nat} {e e' : Energy} (hv : ValidSpec std ms)
    (hn : Naps std E.core X.core (m.map ICmd.core)) (ht : TameTrace std ms ((l1 ++ E :: (m ++ X :: l3)).map ICmd.core))
    (hk : ps.ranks = ms.numberOfRanks) (hb : ps.banks = ms.numberOfBanks) (hi : Simulator.init std N ms sp = .ok s0)
    (hr : s0.run ms sp (l1 ++ (m ++ l3)) = .done s) (hr' : s0.run ms sp (l1 ++ E :: (m ++ X :: l3)) = .done s')
    (hT : ∀ c ∈ l1 ++ E :: (m ++ X :: l3), c.t ≤ t) (he : s.calcCoreEnergy ms sp ps t = .ok (q, e))
    (he' : s'.calcCoreEnergy ms sp ps t = .ok (q', e')) :
    e.total - e'.total = (asleep std ms (l1.map ICmd.core) E.core X.core t : Rat) * ps.tCK * ps.devices *
      (ps.domains.map fun d => d.v * (d.i2n - d.i2p)).sum := by
  obtain ⟨hc, _⟩ := simulator_init hi
  obtain ⟨hr, _⟩ := run_halves _ hr
  obtain ⟨hr', _⟩ := run_halves _ hr'
  rw [hc] at hr hr'
  simp only [List.map_append, List.map_cons] at hr hr' ht
  obtain ⟨_, c, hcr, h⟩ := C97_partial std ms _ _ _ _ _ hv hn ht _ hr'
  cases ok_inj (hr.symm.trans hcr)
  have h := h t (by
    intro d hd
    have : d ∈ (l1 ++ E :: (m ++ X :: l3)).map ICmd.core := by simpa only [List.map_append, List.map_cons] using hd
    obtain ⟨k, hk, rfl⟩ := List.mem_map.1 this
    exact hT k hk)
  obtain ⟨x, hx, bx, rx⟩ := rank_figures hk he
  obtain ⟨y, hy, by', ry⟩ := rank_figures hk he'
  have hB : (ps.banks : Rat) ≠ 0 := PowerSpec.banks_ne (PowerSpec.divisors_of_ok hx)
  have hrank : E.core.rank < ms.numberOfRanks := by
    rcases ht.ranks E.core (by simp) with h | h
    · unfold unaddressed at h; simp [hn.entry] at h
    · exact h
  generalize asleep std ms (l1.map ICmd.core) E.core X.core t = n at *
  have key : ∀ i < ms.numberOfRanks, ∀ d : Domain, ps.rankSum std x i d = ps.rankSum std y i d +
      (if i = E.core.rank then (n : Rat) * ps.tCK * ps.devices * (d.v * (d.i2n - d.i2p)) else 0) := by
    intro i hi d
    obtain ⟨⟨u, v, hu, hv', hm⟩, hbk⟩ := h i hi
    have rx := rx i hi
    have ry := ry i hi
    rw [hu, Option.getD_some] at rx
    rw [hv', Option.getD_some] at ry
    generalize hn' : (if i = E.core.rank then n else 0) = k at hm hbk
    have e1 : ∀ b ∈ List.range ms.numberOfBanks, bankTotal (ps.bankEnergy std d (x.bank.getD (i * ms.numberOfBanks + b) {}) (x.rankTotal.getD i {})) =
        bankTotal (ps.bankEnergy std d (y.bank.getD (i * ms.numberOfBanks + b) {}) (y.rankTotal.getD i {})) +
        (1 / (ps.banks : Rat)) * d.v * d.i2n * ((k : Rat) * ps.tCK) := by
      intro b hb
      obtain ⟨f, g, hf, hg, hcnt, hcyc⟩ := hbk b (List.mem_range.1 hb)
      have hxf : x.bank.getD (i * ms.numberOfBanks + b) {} = f.toCycle := by
        rw [bx, List.getD_eq_getElem?_getD]
        simp only [CoreStats.toSim, List.getElem?_map, hf]
        rfl
      have hyg : y.bank.getD (i * ms.numberOfBanks + b) {} = g.toCycle := by
        rw [by', List.getD_eq_getElem?_getD]
        simp only [CoreStats.toSim, List.getElem?_map, hg]
        rfl
      have c1 : g.toCycle.counter = f.toCycle.counter := hcnt
      have c2 : g.toCycle.cycles.act = f.toCycle.cycles.act := hcyc.act
      rw [hxf, hyg, PowerSpec.bankTotal_bankEnergy, PowerSpec.bankTotal_bankEnergy, c1, c2, rx, ry, hm.pre]
      unfold E_BG_pre
      push_cast
      ring
    have e2 : sharedTotal (ps.rankEnergy std d (x.rankTotal.getD i {})) + d.v * d.i2p * (k : Rat) * ps.tCK * (ps.devices : Rat) =
        sharedTotal (ps.rankEnergy std d (y.rankTotal.getD i {})) := by
      rw [PowerSpec.sharedTotal_rankEnergy, PowerSpec.sharedTotal_rankEnergy, rx, ry, hm.powerDownPre, hm.act, hm.powerDownAct, hm.selfRefresh,
        hm.deepSleepMode]
      push_cast
      ring
    unfold PowerSpec.rankSum PowerSpec.contrib PowerSpec.statsIndex
    rw [hb, List.map_congr_left e1, List.sum_map_add, sum_const, List.length_range, ← e2, ← hb]
    have e3 : (if i = E.core.rank then (n : Rat) * ps.tCK * ps.devices * (d.v * (d.i2n - d.i2p)) else 0) =
        (k : Rat) * ps.tCK * ps.devices * (d.v * (d.i2n - d.i2p)) := by
      subst hn'
      split <;> simp
    rw [e3]
    field_simp
    ring
  rw [PowerSpec.total_closed hx, PowerSpec.total_closed hy, sub_eq_iff_eq_add, ← sum_mul_left, ← List.sum_map_add]
  congr 1
  refine List.map_congr_left fun d _ => ?_
  rw [hk, List.map_congr_left fun i hi => key i (List.mem_range.1 hi) d, List.sum_map_add, add_comm]
  congr 1
  rw [List.sum_map_ite_eq]
  rw [List.count_eq_one_of_mem List.nodup_range (List.mem_range.2 hrank), sum_const]
  simp

/-- A power-down saves core energy whenever its current is not larger than the standby current. -/
theorem C97_saves_partial {l1 m l3 : List ICmd} {E X : ICmd} {s0 s s' q q' : Simulator std N} {t : Nat} {e e' : Energy} (hv : ValidSpec std ms)
    (hn : Naps std E.core X.core (m.map ICmd.core)) (ht : TameTrace std ms ((l1 ++ E :: (m ++ X :: l3)).map ICmd.core))
    (hk : ps.ranks = ms.numberOfRanks) (hb : ps.banks = ms.numberOfBanks) (hi : Simulator.init std N ms sp = .ok s0)
    (hr : s0.run ms sp (l1 ++ (m ++ l3)) = .done s) (hr' : s0.run ms sp (l1 ++ E :: (m ++ X :: l3)) = .done s')
    (hT : ∀ c ∈ l1 ++ E :: (m ++ X :: l3), c.t ≤ t) (he : s.calcCoreEnergy ms sp ps t = .ok (q, e))
    (he' : s'.calcCoreEnergy ms sp ps t = .ok (q', e')) (htck : 0 ≤ ps.tCK) (hcur : ∀ d ∈ ps.domains, 0 ≤ d.v ∧ d.i2p ≤ d.i2n) :
    e'.total ≤ e.total := by
  have h := C97_energy_partial hv hn ht hk hb hi hr hr' hT he he'
  have hs : 0 ≤ (ps.domains.map fun d => d.v * (d.i2n - d.i2p)).sum := by
    have := sum_le_of_le (L := ps.domains) (f := fun _ => 0) (g := fun d => d.v * (d.i2n - d.i2p)) fun d hd =>
      mul_nonneg (hcur d hd).1 (sub_nonneg.2 (hcur d hd).2)
    rwa [sum_const, mul_zero] at this
  have : 0 ≤ e.total - e'.total := by
    rw [h]
    exact mul_nonneg (mul_nonneg (mul_nonneg (Nat.cast_nonneg _) htck) (Nat.cast_nonneg _)) hs
  exact sub_nonneg.1 this

end energy

/-! ## The full statement is false -/

/-- Entry and exit after an active power-down that has left a bank counted as open. -/
def c97Entry : Cmd := { t := 50, type := .PDEP }
def c97Exit : Cmd := { t := 80, type := .PDXP }

/-- DDR5, LPDDR4, LPDDR5, LPDDR6: false in general. Without the power-down bank 0 reports 10 cycles precharged; with it the
30 cycles are taken from these 10. -/
theorem C97_violation (std : Std) (hs : std ≠ .ddr4) : ¬ C97_statement std := by
  intro h
  have hw : bank0At std Ex.ms (Ex.refreshThenPd ++ c97Entry :: ([] ++ c97Exit :: [])) 200 =
      some { act := 178, pre := 2 ^ 64 - 20, powerDownAct := 12, powerDownPre := 30 } := by
    cases std <;> first | exact absurd rfl hs | decide +kernel
  have hw0 : bank0At std Ex.ms (Ex.refreshThenPd ++ ([] ++ [])) 200 = some { act := 178, pre := 10, powerDownAct := 12 } := by
    cases std <;> first | exact absurd rfl hs | decide +kernel
  unfold bank0At at hw hw0
  split at hw
  · rename_i c' hc'
    obtain ⟨c, hc, h⟩ := h Ex.ms Ex.refreshThenPd [] [] c97Entry c97Exit (by cases std <;> decide +kernel) ⟨rfl, rfl, rfl, by simp⟩
      (by cases std <;> decide +kernel) c' hc'
    rw [hc] at hw0
    simp only at hw0
    obtain ⟨x, y, hx, hy, -, hm⟩ := (h 200 (by decide +kernel) 0 (by decide)).2 0 (by decide)
    simp only [show 0 * Ex.ms.numberOfBanks + 0 = 0 from rfl] at hx hy
    rw [hx, Option.map_some, Option.some_inj] at hw0
    rw [hy, Option.map_some, Option.some_inj] at hw
    rw [hw, hw0] at hm
    have := hm.pre
    simp only at this
    omega
  · simp at hw

/-! ## Examples -/

/-- Rank 0 sleeps while rank 1 is refreshed. -/
def c97Before : List Cmd :=
  [ { t := 0, type := .ACT, bank := 0 }, { t := 1, type := .ACT, bank := 1, rank := 1 }, { t := 3, type := .RD, bank := 0 },
    { t := 5, type := .RDA, bank := 1, rank := 1 }, { t := 6, type := .WRA, bank := 0 } ]
def c97Between : List Cmd := [ { t := 14, type := .REFA, rank := 1 } ]
def c97After : List Cmd := [ { t := 30, type := .ACT, bank := 3 }, { t := 40, type := .PREA } ]

/-- The hypotheses of the theorems. -/
example (std : Std) : ValidSpec std Ex.ms ∧ Naps std { t := 12, type := .PDEP } { t := 20, type := .PDXP } c97Between ∧
    LegalTrace std Ex.ms (c97Before ++ { t := 12, type := .PDEP } :: (c97Between ++ { t := 20, type := .PDXP } :: c97After)) ∧
    TameTrace std Ex.ms (c97Before ++ { t := 12, type := .PDEP } :: (c97Between ++ { t := 20, type := .PDXP } :: c97After)) ∧
    (∀ c ∈ c97Before ++ { t := 12, type := .PDEP } :: (c97Between ++ { t := 20, type := .PDXP } :: c97After), c.type ≠ .PDEA) ∧
    (bank0At std Ex.ms (c97Before ++ { t := 12, type := .PDEP } :: (c97Between ++ { t := 20, type := .PDXP } :: c97After)) 50).isSome = true := by
  refine ⟨?_, ⟨rfl, rfl, rfl, ?_⟩, ?_, ?_, ?_, ?_⟩ <;> cases std <;> decide +kernel

/-- What changes for bank 0. The entry waits for the precharge that begins at 11 to end at 14. -/
example (std : Std) : asleep std Ex.ms c97Before { t := 12, type := .PDEP } { t := 20, type := .PDXP } 50 = 6 ∧
    bank0At std Ex.ms (c97Before ++ { t := 12, type := .PDEP } :: (c97Between ++ { t := 20, type := .PDXP } :: c97After)) 50 =
      some { act := 11, pre := 33, powerDownPre := 6 } ∧
    bank0At std Ex.ms (c97Before ++ (c97Between ++ c97After)) 50 = some { act := 11, pre := 39 } := by
  refine ⟨?_, ?_, ?_⟩ <;> cases std <;> decide +kernel

/-- For the energy theorems: rank 0 sleeps after a read and a precharge, while rank 1 is refreshed. -/
def c97L1 (std : Std) : List ICmd :=
  { t := 0, type := .ACT } :: (if std = .lpddr6 then [] else [{ t := 8, type := .RD, nBits := 64, data := some [1, 2, 3, 4, 5, 6, 7, 8] }]) ++
  [{ t := 24, type := .PRE }]
def c97M : List ICmd := [{ t := 44, type := .REFA, co := { rank := 1 } }]
def c97L3 : List ICmd := [{ t := 60, type := .ACT }]
def c97E : ICmd := { t := 40, type := .PDEP }
def c97X : ICmd := { t := 52, type := .PDXP }

example (std : Std) : ValidSpec std Ex.ms ∧ Naps std c97E.core c97X.core (c97M.map ICmd.core) ∧
    TameTrace std Ex.ms ((c97L1 std ++ c97E :: (c97M ++ c97X :: c97L3)).map ICmd.core) ∧ c53Power.ranks = Ex.ms.numberOfRanks ∧
    c53Power.banks = Ex.ms.numberOfBanks ∧ (∀ c ∈ c97L1 std ++ c97E :: (c97M ++ c97X :: c97L3), c.t ≤ 70) ∧
    0 ≤ c53Power.tCK ∧ (∀ d ∈ c53Power.domains, 0 ≤ d.v ∧ d.i2p ≤ d.i2n) ∧
    (c67Total std (c97L1 std ++ c97E :: (c97M ++ c97X :: c97L3)) 70).isSome = true ∧
    (c67Total std (c97L1 std ++ (c97M ++ c97L3)) 70).isSome = true := by
  refine ⟨?_, ⟨rfl, rfl, rfl, ?_⟩, ?_, rfl, rfl, ?_, ?_, ?_, ?_, ?_⟩ <;> cases std <;> decide +kernel

/-- Twelve cycles asleep. -/
example : asleep .ddr4 Ex.ms ((c97L1 .ddr4).map ICmd.core) c97E.core c97X.core 70 = 12 ∧
    c67Total .ddr4 (c97L1 .ddr4 ++ c97E :: (c97M ++ c97X :: c97L3)) 70 = some 6096 ∧
    c67Total .ddr4 (c97L1 .ddr4 ++ (c97M ++ c97L3)) 70 = some 6120 := by decide +kernel

end DRAMPower
