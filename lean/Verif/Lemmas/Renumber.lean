import Verif.Spec.Renumber
import Verif.Spec.Power
import Mathlib.Data.List.Perm.Subperm
import Mathlib.Data.List.Nodup
import Mathlib.Data.List.Range

/-!
# The timeline of a trace with renumbered banks
-/

namespace DRAMPower
open Spec

variable {std : Std} {ms : MemSpec} {f : Nat → Nat}

theorem Spec.BankSymmetry.perm (h : BankSymmetry std ms f) :
    ((List.range ms.numberOfBanks).map f).Perm (List.range ms.numberOfBanks) := by
  have hn : ((List.range ms.numberOfBanks).map f).Nodup := by
    refine List.Nodup.map_on ?_ List.nodup_range
    intro a ha b hb hab
    exact h.inj a (List.mem_range.1 ha) b (List.mem_range.1 hb) hab
  have hs : ((List.range ms.numberOfBanks).map f) ⊆ List.range ms.numberOfBanks := by
    intro x hx
    obtain ⟨a, ha, rfl⟩ := List.mem_map.1 hx
    exact List.mem_range.2 (h.range a (List.mem_range.1 ha))
  exact (hn.subperm hs).perm_of_length_le (by simp)

theorem Spec.BankSymmetry.surj (h : BankSymmetry std ms f) {b : Nat} (hb : b < ms.numberOfBanks) :
    ∃ a < ms.numberOfBanks, f a = b := by
  have := (h.perm.mem_iff (a := b)).2 (List.mem_range.2 hb)
  obtain ⟨a, ha, rfl⟩ := List.mem_map.1 this
  exact ⟨a, List.mem_range.1 ha, rfl⟩

theorem Spec.BankSymmetry.all (h : BankSymmetry std ms f) {p : Nat → Prop} :
    (∀ b < ms.numberOfBanks, p b) ↔ ∀ b < ms.numberOfBanks, p (f b) := by
  refine ⟨fun hp b hb => hp _ (h.range b hb), fun hp b hb => ?_⟩
  obtain ⟨a, ha, rfl⟩ := h.surj hb
  exact hp a ha

theorem Spec.BankSymmetry.any (h : BankSymmetry std ms f) {p : Nat → Prop} :
    (∃ b < ms.numberOfBanks, p b) ↔ ∃ b < ms.numberOfBanks, p (f b) := by
  refine ⟨fun ⟨b, hb, hp⟩ => ?_, fun ⟨b, hb, hp⟩ => ⟨f b, h.range b hb, hp⟩⟩
  obtain ⟨a, ha, rfl⟩ := h.surj hb
  exact ⟨a, ha, hp⟩

/-- The command of the renumbered trace. -/
def bankRen (f : Nat → Nat) (c : Cmd) : Cmd := { c with bank := f c.bank, dbank := f c.dbank }

/-- The same state with renumbered banks. -/
def Renamed (ms : MemSpec) (f : Nat → Nat) (s s' : State) : Prop :=
  s'.mode = s.mode ∧ ∀ b < ms.numberOfBanks, s'.bank (f b) = s.bank b

/-- Commands whose effect is on the banks of `targets`. -/
def onBanks : CmdType → Bool
  | .SREFEX | .DSMEN | .DSMEX | .PDEA | .PDEP | .PDXA | .PDXP => false
  | _ => true

theorem targets_ren (h : BankSymmetry std ms f) {c : Cmd} (hs : supports std c.type = true) (hr : inRange ms c)
    (ho : onBanks c.type = true) {b : Nat} (hb : b < ms.numberOfBanks) : targets ms (bankRen f c) (f b) = targets ms c b := by
  have one : ∀ x < ms.numberOfBanks, (f b == f x) = (b == x) := by
    intro x hx
    rw [Bool.eq_iff_iff, beq_iff_eq, beq_iff_eq]
    exact ⟨h.inj b hb x hx, fun e => by rw [e]⟩
  unfold inRange at hr
  unfold targets bankRen
  cases hc : c.type <;> simp only [hc] at hr hs ho ⊢ <;>
    try first | rfl | exact one _ hr | (simp [supports] at hs; done) | (simp [onBanks] at ho; done)
  case REFSB | PRESB =>
    rw [Bool.eq_iff_iff, beq_iff_eq, beq_iff_eq]
    exact h.sameBank (by simpa [supports] using hs) b hb c.bank hr
  case REFP2B =>
    rw [one _ hr.1, ← h.pairs (by simpa [supports] using hs) c.bank hr.1 hr.2.1, one _ hr.2.1]
  case REFDB =>
    rw [one _ hr.1, one _ hr.2.1]

theorem earliest_ren (h : BankSymmetry std ms f) {s s' : State} (hs : Renamed ms f s s') (x y : Nat) :
    earliest x y ms.numberOfBanks s' = earliest x y ms.numberOfBanks s := by
  unfold earliest
  have : RightCommutative (fun (acc i : Nat) => max acc (max (if (s'.bank i).acted then (s'.bank i).since + x else 0)
      (max (match (s'.bank i).preAt with | some p => p + y | none => 0) (s'.bank i).refEnd))) := ⟨fun a b c => by omega⟩
  rw [← h.perm.foldl_eq, List.foldl_map]
  have : ∀ (L : List Nat), (∀ b ∈ L, b < ms.numberOfBanks) → ∀ acc, L.foldl (fun acc i => max acc (max (if (s'.bank (f i)).acted then (s'.bank (f i)).since + x else 0)
      (max (match (s'.bank (f i)).preAt with | some p => p + y | none => 0) (s'.bank (f i)).refEnd))) acc = L.foldl (fun acc i => max acc (max (if (s.bank i).acted then (s.bank i).since + x else 0)
      (max (match (s.bank i).preAt with | some p => p + y | none => 0) (s.bank i).refEnd))) acc := by
    intro L
    induction L with
    | nil => intro _ _; rfl
    | cons a L ih =>
      intro hL acc
      rw [List.foldl_cons, List.foldl_cons, hs.2 a (hL a (by simp)), ih fun b hb => hL b (by simp [hb])]
  exact this _ (fun b hb => List.mem_range.1 hb) 0

theorem pdTime_ren (h : BankSymmetry std ms f) {s s' : State} (hs : Renamed ms f s s') (t : Nat) :
    pdTime std ms s' t = pdTime std ms s t := by
  unfold pdTime
  rw [earliest_ren h hs]

theorem settle_ren {s s' : State} (hs : Renamed ms f s s') (t : Nat) : Renamed ms f (s.settle t) (s'.settle t) := by
  refine ⟨?_, fun b hb => ?_⟩
  · show s'.mode.settle t = s.mode.settle t
    rw [hs.1]
  · show (s'.bank (f b)).settle t = (s.bank b).settle t
    rw [hs.2 b hb]

theorem onBanks_ren {s s' : State} (hs : Renamed ms f s s') {p q : Nat → Bool} (g : BankS → BankS)
    (hp : ∀ b < ms.numberOfBanks, q (f b) = p b) : Renamed ms f (s.onBanks p g) (s'.onBanks q g) := by
  refine ⟨hs.1, fun b hb => ?_⟩
  show (if q (f b) then _ else _) = if p b then _ else _
  rw [hp b hb, hs.2 b hb]

theorem mode_ren {s s' : State} (hs : Renamed ms f s s') (m : Mode) : Renamed ms f { s with mode := m } { s' with mode := m } :=
  ⟨rfl, hs.2⟩

/-- A supported command whose coordinates exist keeps the states the same up to the numbering. -/
theorem apply_ren (h : BankSymmetry std ms f) {s s' : State} (hs : Renamed ms f s s') {c : Cmd}
    (hc : supports std c.type = true) (hr : inRange ms c) : Renamed ms f (apply std ms s c) (apply std ms s' (bankRen f c)) := by
  have h1 := settle_ren hs c.t
  have tg := fun ho (b : Nat) hb => targets_ren h hc hr ho (b := b) hb
  unfold apply
  have e1 : (bankRen f c).t = c.t := rfl
  have e2 : (bankRen f c).type = c.type := rfl
  simp only [e1, e2]
  cases hty : c.type <;> simp only [hty] at tg hc ⊢
  case ACT | PRE | PREA | PRESB | RDA | WRA | REFA | REFB | REFP2B | REFDB | REFSB => exact onBanks_ren h1 _ (tg rfl)
  case SREFEN => exact mode_ren (onBanks_ren h1 _ (tg rfl)) _
  case SREFEX | DSMEN | DSMEX => exact mode_ren h1 _
  case PDEA | PDEP => rw [pdTime_ren h h1]; exact mode_ren h1 _
  case PDXP =>
    rw [h1.1]
    split
    · rw [pdTime_ren h h1]; exact mode_ren h1 _
    · exact h1
  case PDXA =>
    rw [h1.1]
    split
    · rw [pdTime_ren h h1]
      refine ⟨rfl, fun b hb => ?_⟩
      show ((s'.settle c.t).bank (f b)).resume _ = _
      rw [h1.2 b hb]
    · exact h1
  case RD | WR | NOP | END_OF_SIMULATION | COUNT => exact h1

/-- A renumbered command is permitted when the original one is. -/
theorem tameCmd_ren (h : BankSymmetry std ms f) {s s' : State} (hs : Renamed ms f s s') {c : Cmd}
    (ht : tameCmd std ms s c) : tameCmd std ms s' (bankRen f c) := by
  obtain ⟨⟨hc, hr, hl⟩, hb⟩ := ht
  have tg := fun ho (b : Nat) hb => targets_ren h hc hr ho (b := b) hb
  have e1 : (bankRen f c).t = c.t := rfl
  have e2 : (bankRen f c).type = c.type := rfl
  have e3 : (bankRen f c).bank = f c.bank := rfl
  have e4 : (bankRen f c).dbank = f c.dbank := rfl
  refine ⟨⟨hc, ?_, ?_⟩, ?_⟩
  · unfold inRange at hr ⊢
    simp only [e2, e3, e4]
    cases hty : c.type <;> simp only [hty] at hr hc ⊢ <;> try first | trivial | exact h.range _ hr
    case REFP2B =>
      have hp := h.pairs (by simpa [supports] using hc) c.bank hr.1 hr.2.1
      refine ⟨h.range _ hr.1, ?_, ?_, hr.2.2.2⟩
      · rw [← hp]; exact h.range _ hr.2.1
      · rw [← hp]; exact fun e => hr.2.2.1 (h.inj _ hr.2.1 _ hr.1 e)
    case REFDB =>
      exact ⟨h.range _ hr.1, h.range _ hr.2.1, fun e => hr.2.2 (h.inj _ hr.2.1 _ hr.1 e)⟩
  · simp only [e1, e2, e3, pdTime_ren h hs, hs.1]
    unfold inRange at hr
    cases hty : c.type <;> simp only [hty] at hl hr tg ⊢
    case ACT | RDA | WRA => rw [hs.2 _ hr]; exact hl
    case PRE | PREA | PRESB | REFA | REFB | REFP2B | REFDB | REFSB | SREFEN =>
      refine ⟨hl.1, h.all.2 fun b hb ht => ?_⟩
      rw [hs.2 b hb]
      exact hl.2 b hb (by rw [← tg rfl b hb]; exact ht)
    case PDEP => exact ⟨hl.1, h.all.2 fun b hb => by rw [hs.2 b hb]; exact hl.2 b hb⟩
    all_goals exact hl
  · intro hty hstd
    obtain ⟨b1, b2, b3⟩ := hb hty hstd
    simp only [e1, pdTime_ren h hs]
    refine ⟨h.all.2 fun b hb => ?_, h.all.2 fun b hb => ?_, fun hd => h.any.2 ?_⟩
    · rw [hs.2 b hb]; exact b1 b hb
    · rw [hs.2 b hb]; exact b2 b hb
    · obtain ⟨b, hb, hh⟩ := b3 hd
      exact ⟨b, hb, by rw [hs.2 b hb]; exact hh⟩

theorem tameFrom_ren (h : BankSymmetry std ms f) : ∀ (L : List Cmd) {s s' : State} {now : Nat}, Renamed ms f s s' →
    TameFrom std ms s now L → TameFrom std ms s' now (L.map (bankRen f))
  | [], _, _, _, _, _ => trivial
  | c :: L, _, _, _, hs, ⟨h1, h2, h3⟩ =>
    ⟨h1, tameCmd_ren h (settle_ren hs c.t) h2, tameFrom_ren h L (apply_ren h hs h2.1.1 h2.1.2.1) h3⟩

theorem fold_ren (h : BankSymmetry std ms f) : ∀ (L : List Cmd) {s s' : State}, Renamed ms f s s' →
    (∀ c ∈ L, supports std c.type = true ∧ inRange ms c) →
    Renamed ms f (L.foldl (apply std ms) s) ((L.map (bankRen f)).foldl (apply std ms) s')
  | [], _, _, hs, _ => hs
  | c :: L, _, _, hs, hL => fold_ren h L (apply_ren h hs (hL c (by simp)).1 (hL c (by simp)).2) fun x hx => hL x (by simp [hx])

theorem init_ren : Renamed ms f {} {} := ⟨rfl, fun _ _ => rfl⟩

theorem stateAt_ren (h : BankSymmetry std ms f) {L : List Cmd} (hL : ∀ c ∈ L, supports std c.type = true ∧ inRange ms c) (τ : Nat) :
    Renamed ms f (stateAt std ms L τ) (stateAt std ms (L.map (bankRen f)) τ) := by
  unfold stateAt
  rw [List.filter_map]
  exact fold_ren h _ init_ren fun c hc => hL c (List.mem_filter.1 hc).1

theorem category_ren (h : BankSymmetry std ms f) {L : List Cmd} (hL : ∀ c ∈ L, supports std c.type = true ∧ inRange ms c) (τ : Nat)
    {b : Nat} (hb : b < ms.numberOfBanks) : category std ms (L.map (bankRen f)) (f b) τ = category std ms L b τ := by
  have hs := stateAt_ren h hL τ
  unfold category bankCat
  rw [hs.1, hs.2 b hb]

theorem rankCategory_ren (h : BankSymmetry std ms f) {L : List Cmd} (hL : ∀ c ∈ L, supports std c.type = true ∧ inRange ms c) (τ : Nat) :
    rankCategory std ms (L.map (bankRen f)) τ = rankCategory std ms L τ := by
  have hs := stateAt_ren h hL τ
  unfold rankCategory rankCat
  rw [hs.1]
  congr 1
  refine if_congr ?_ rfl rfl
  rw [h.any]
  exact exists_congr fun b => and_congr_right fun hb => by rw [hs.2 b hb]

theorem bankTime_ren (h : BankSymmetry std ms f) {L : List Cmd} (hL : ∀ c ∈ L, supports std c.type = true ∧ inRange ms c) (k : Cat) (t : Nat)
    {b : Nat} (hb : b < ms.numberOfBanks) : bankTime std ms (L.map (bankRen f)) (f b) k t = bankTime std ms L b k t := by
  unfold bankTime
  congr 1
  funext τ
  rw [category_ren h hL τ hb]

theorem rankTime_ren (h : BankSymmetry std ms f) {L : List Cmd} (hL : ∀ c ∈ L, supports std c.type = true ∧ inRange ms c) (k : Cat) (t : Nat) :
    rankTime std ms (L.map (bankRen f)) k t = rankTime std ms L k t := by
  unfold rankTime
  congr 1
  funext τ
  rw [rankCategory_ren h hL τ]

theorem pres_ren (h : BankSymmetry std ms f) {L : List Cmd} (hL : ∀ c ∈ L, supports std c.type = true ∧ inRange ms c) (t : Nat)
    {b : Nat} (hb : b < ms.numberOfBanks) : ((((L.map (bankRen f)).foldl (apply std ms) {}).settle t).bank (f b)).pres =
      (((L.foldl (apply std ms) {}).settle t).bank b).pres := by
  rw [(settle_ren (fold_ren h L init_ren hL) t).2 b hb]

theorem activeCount_ren (h : BankSymmetry std ms f) {L : List Cmd} (hL : ∀ c ∈ L, supports std c.type = true ∧ inRange ms c) (τ : Nat) :
    activeCount std ms (L.map (bankRen f)) τ = activeCount std ms L τ := by
  unfold activeCount
  rw [← h.perm.countP_eq, List.countP_map]
  refine List.countP_congr fun b hb => ?_
  simp only [Function.comp]
  rw [category_ren h hL τ (List.mem_range.1 hb)]

theorem precharges_ren (h : BankSymmetry std ms f) {L : List Cmd} (hL : ∀ c ∈ L, supports std c.type = true ∧ inRange ms c) (t : Nat) :
    precharges std ms (L.map (bankRen f)) t = precharges std ms L t := by
  unfold precharges
  rw [← (h.perm.map _).sum_nat, List.map_map]
  congr 1
  refine List.map_congr_left fun b hb => ?_
  exact pres_ren h hL t (List.mem_range.1 hb)

theorem rankCharge_ren (h : BankSymmetry std ms f) {L : List Cmd} (hL : ∀ c ∈ L, supports std c.type = true ∧ inRange ms c)
    (s : PowerSpec) (d : Domain) (t : Nat) : rankCharge std ms s d (L.map (bankRen f)) t = rankCharge std ms s d L t := by
  unfold rankCharge backgroundCharge
  rw [precharges_ren h hL, List.map_map]
  congr 2
  refine congrArg List.sum (List.map_congr_left fun τ _ => ?_)
  rw [activeCount_ren h hL, rankCategory_ren h hL]

end DRAMPower
