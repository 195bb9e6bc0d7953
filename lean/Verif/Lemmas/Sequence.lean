import Verif.Spec.Sequence
import Verif.Lemmas.Power
import Verif.Props.C04

/-! # The timeline of a trace that follows another one -/

namespace DRAMPower
open Spec

variable {std : Std} {ms : MemSpec}

/-! ## The same things later -/

def Spec.Status.later (T : Nat) : Status → Status
  | .idle => .idle
  | .opened p => .opened (p.map (· + T))
  | .refreshing u => .refreshing (u + T)

def Spec.Mode.later (T : Nat) : Mode → Mode
  | .normal => .normal
  | .pd a e x => .pd a (e + T) (x.map (· + T))
  | .sref s => .sref (s + T)
  | .dsm => .dsm

/-- Time a power-down waits for after the precharge of the bank. -/
def preTerm (tRP : Nat) (b : BankS) : Nat := match b.preAt with | some p => p + tRP | none => 0

/-- What decides about the time of a power-down. -/
structure PdAfter (tRCD tRP T : Nat) (x y : BankS) : Prop where
  pre : max T (preTerm tRP x) = preTerm tRP y + T
  ref : max T x.refEnd = y.refEnd + T
  acted : y.acted = true → x.acted = true ∧ x.since = y.since + T
  fresh : y.acted = false → x.acted = true → max T (x.since + tRCD) ≤ max T x.refEnd
  opened : ∀ p, y.status = .opened p → y.acted = true
  refreshing : ∀ u, y.status = .refreshing u → u = y.refEnd

/-- Bank `x` is at `t + T` what bank `y` is at `t`; it has been precharged `p0` times before `T`. -/
structure BankAfter (tRCD tRP T : Nat) (pd : Prop) (p0 : Nat) (x y : BankS) : Prop where
  status : x.status = y.status.later T
  since : y.status ≠ .idle → x.since = y.since + T
  pres : x.pres = p0 + y.pres
  pd : pd → PdAfter tRCD tRP T x y

namespace BankAfter

variable {tRCD tRP T p0 t : Nat} {pd : Prop} {x y : BankS}

theorem earliestOf (h : BankAfter tRCD tRP T pd p0 x y) (hp : pd) : max T (earliestOf tRCD tRP x) = DRAMPower.earliestOf tRCD tRP y + T := by
  have h := h.pd hp
  have e : ∀ b : BankS, DRAMPower.earliestOf tRCD tRP b = max (if b.acted then b.since + tRCD else 0) (max (preTerm tRP b) b.refEnd) := fun b => rfl
  rw [e, e]
  have h1 := h.pre
  have h2 := h.ref
  cases hy : y.acted with
  | true =>
    obtain ⟨h3, h4⟩ := h.acted hy
    rw [h3]
    simp only [if_true]
    omega
  | false =>
    cases hx : x.acted with
    | true =>
      have := h.fresh hy hx
      simp only [if_true, Bool.false_eq_true, if_false]
      omega
    | false =>
      simp only [Bool.false_eq_true, if_false]
      omega

theorem isOpen (h : BankAfter tRCD tRP T pd p0 x y) (τ : Nat) : x.isOpen (τ + T) = y.isOpen τ := by
  unfold BankS.isOpen
  rw [h.status]
  cases y.status with
  | idle => rfl
  | opened p => cases p <;> simp [Status.later]
  | refreshing u => simp [Status.later]

theorem settle (h : BankAfter tRCD tRP T pd p0 x y) : BankAfter tRCD tRP T pd p0 (x.settle (t + T)) (y.settle t) := by
  have hs := h.status
  unfold BankS.settle
  rw [hs]
  cases hy : y.status with
  | idle => exact h
  | opened p =>
    cases p with
    | none => exact h
    | some p =>
      simp only [Status.later, Option.map_some]
      by_cases hp : p ≤ t
      · rw [if_pos (by omega), if_pos hp]
        refine ⟨rfl, fun hn => absurd rfl hn, by simp only; rw [h.pres]; omega, fun hpd => ?_⟩
        have k := h.pd hpd
        exact ⟨by simp only [preTerm]; omega, k.ref, k.acted, k.fresh, fun _ e => by simp at e, fun _ e => by simp at e⟩
      · rw [if_neg (by omega), if_neg hp]
        exact h
  | refreshing u =>
    simp only [Status.later]
    by_cases hp : u ≤ t
    · rw [if_pos (by omega), if_pos hp]
      refine ⟨rfl, fun hn => absurd rfl hn, h.pres, fun hpd => ?_⟩
      have k := h.pd hpd
      exact ⟨k.pre, k.ref, k.acted, k.fresh, fun _ e => by simp at e, fun _ e => by simp at e⟩
    · rw [if_neg (by omega), if_neg hp]
      exact h

theorem activate (h : BankAfter tRCD tRP T pd p0 x y) : BankAfter tRCD tRP T pd p0 (x.activate (t + T)) (y.activate t) := by
  refine ⟨rfl, fun _ => rfl, h.pres, fun hpd => ?_⟩
  have k := h.pd hpd
  exact ⟨k.pre, k.ref, fun _ => ⟨rfl, rfl⟩, fun e => by simp [BankS.activate] at e, fun _ _ => rfl, fun _ e => by simp [BankS.activate] at e⟩

theorem precharge (h : BankAfter tRCD tRP T pd p0 x y) : BankAfter tRCD tRP T pd p0 (x.precharge (t + T)) (y.precharge t) := by
  have hs := h.status
  unfold BankS.precharge
  rw [hs]
  cases hy : y.status with
  | idle => exact h
  | refreshing u => exact h
  | opened p =>
    simp only [Status.later]
    refine ⟨rfl, fun hn => absurd rfl hn, by simp only; rw [h.pres]; omega, fun hpd => ?_⟩
    have k := h.pd hpd
    exact ⟨by simp only [preTerm]; omega, k.ref, k.acted, k.fresh, fun _ e => by simp at e, fun _ e => by simp at e⟩

theorem autoPrecharge {tRAS o : Nat} (h : BankAfter tRCD tRP T pd p0 x y) (ho : y.status = .opened none) :
    BankAfter tRCD tRP T pd p0 (x.autoPrecharge tRAS (t + T) o) (y.autoPrecharge tRAS t o) := by
  have e := h.since (by rw [ho]; simp)
  refine ⟨?_, fun _ => e, h.pres, fun hpd => ?_⟩
  · simp only [BankS.autoPrecharge, Status.later, Option.map_some, e]
    congr 2
    omega
  · have k := h.pd hpd
    exact ⟨k.pre, k.ref, k.acted, k.fresh, fun _ _ => k.opened _ ho, fun _ e => by simp [BankS.autoPrecharge] at e⟩

theorem refresh {dur : Nat} (h : BankAfter tRCD tRP T pd p0 x y) (hd : pd → tRCD ≤ dur) :
    BankAfter tRCD tRP T pd p0 (x.refresh (t + T) dur) (y.refresh t dur) := by
  refine ⟨?_, fun _ => rfl, h.pres, fun hpd => ?_⟩
  · simp only [BankS.refresh, Status.later]
    congr 1
    omega
  · have k := h.pd hpd
    have := hd hpd
    exact ⟨k.pre, by simp only [BankS.refresh]; omega, fun ha => ⟨(k.acted ha).1, rfl⟩, fun _ _ => by simp only [BankS.refresh]; omega,
      fun _ e => by simp [BankS.refresh] at e, fun _ e => by simp only [BankS.refresh, Status.refreshing.injEq] at e ⊢; exact e.symm⟩

theorem resume {u : Nat} (h : BankAfter tRCD tRP T pd p0 x y) (hpd : pd) (hu : y.refEnd ≤ u) :
    BankAfter tRCD tRP T pd p0 (x.resume (u + T)) (y.resume u) := by
  unfold BankS.resume
  rw [h.isOpen]
  split
  · rename_i ho
    have k := h.pd hpd
    have ha : y.acted = true := by
      cases hy : y.status with
      | idle => simp [BankS.isOpen, hy] at ho
      | opened p => exact k.opened p hy
      | refreshing v => have := k.refreshing v hy; simp [BankS.isOpen, hy] at ho; omega
    exact ⟨h.status, fun _ => rfl, h.pres, fun _ => ⟨k.pre, k.ref, fun _ => ⟨(k.acted ha).1, rfl⟩, fun e => by simp [ha] at e, k.opened,
      k.refreshing⟩⟩
  · exact h

end BankAfter

/-- The rank `s` is at `t + T` what the rank `s'` is at `t`. -/
structure StateAfter (std : Std) (ms : MemSpec) (T : Nat) (pd : Prop) (p0 : Nat → Nat) (s s' : State) : Prop where
  mode : s.mode = s'.mode.later T
  bank : ∀ b < ms.numberOfBanks, BankAfter (tRCDof std ms) ms.tRP T pd (p0 b) (s.bank b) (s'.bank b)

namespace StateAfter

variable {T t : Nat} {pd : Prop} {p0 : Nat → Nat} {s s' : State}

theorem mode_settle (m : Mode) (t T : Nat) : (m.later T).settle (t + T) = (m.settle t).later T := by
  cases m with
  | pd a e x =>
    cases x with
    | none => rfl
    | some x =>
      simp only [Mode.later, Option.map_some, Mode.settle]
      by_cases hx : x ≤ t
      · rw [if_pos (by omega), if_pos hx]
      · rw [if_neg (by omega), if_neg hx]; rfl
  | normal | sref | dsm => rfl

theorem settle (h : StateAfter std ms T pd p0 s s') : StateAfter std ms T pd p0 (s.settle (t + T)) (s'.settle t) :=
  ⟨by show s.mode.settle _ = _; rw [h.mode]; exact mode_settle .., fun b hb => (h.bank b hb).settle⟩

theorem low (h : StateAfter std ms T pd p0 s s') (τ : Nat) : s.mode.low (τ + T) = s'.mode.low τ := by
  rw [h.mode]
  cases s'.mode with
  | normal | dsm => rfl
  | pd a e x => cases x <;> simp [Mode.later, Mode.low]
  | sref u => simp [Mode.later, Mode.low]

theorem bankCat (h : StateAfter std ms T pd p0 s s') {b : Nat} (hb : b < ms.numberOfBanks) (τ : Nat) :
    bankCat s b (τ + T) = Spec.bankCat s' b τ := by
  unfold Spec.bankCat
  rw [h.low, (h.bank b hb).isOpen]

theorem rankCat (h : StateAfter std ms T pd p0 s s') (τ : Nat) : rankCat ms.numberOfBanks s (τ + T) = Spec.rankCat ms.numberOfBanks s' τ := by
  unfold Spec.rankCat
  rw [h.low]
  have : (∃ b < ms.numberOfBanks, (s.bank b).isOpen (τ + T) = true) ↔ ∃ b < ms.numberOfBanks, (s'.bank b).isOpen τ = true :=
    ⟨fun ⟨b, hb, ho⟩ => ⟨b, hb, by rw [← (h.bank b hb).isOpen]; exact ho⟩, fun ⟨b, hb, ho⟩ => ⟨b, hb, by rw [(h.bank b hb).isOpen]; exact ho⟩⟩
  simp only [this]

theorem foldl_max_after {f g : Nat → Nat} {L : List Nat} (h : ∀ i ∈ L, max T (f i) = g i + T) :
    ∀ a a', max T a = a' + T → max T (L.foldl (fun acc i => max acc (f i)) a) = L.foldl (fun acc i => max acc (g i)) a' + T := by
  induction L with
  | nil => intro a a' ha; exact ha
  | cons i L ih =>
    intro a a' ha
    have := h i (by simp)
    simp only [List.foldl_cons]
    exact ih (fun j hj => h j (by simp [hj])) _ _ (by omega)

theorem pdTime (h : StateAfter std ms T pd p0 s s') (hp : pd) (t : Nat) : pdTime std ms s (t + T) = Spec.pdTime std ms s' t + T := by
  have := foldl_max_after (L := List.range ms.numberOfBanks) (T := T)
    (f := fun i => earliestOf (tRCDof std ms) ms.tRP (s.bank i)) (g := fun i => earliestOf (tRCDof std ms) ms.tRP (s'.bank i))
    (fun i hi => (h.bank i (List.mem_range.1 hi)).earliestOf hp) 0 0 (by omega)
  unfold Spec.pdTime
  rw [earliest_def, earliest_def]
  omega

theorem onBanks (h : StateAfter std ms T pd p0 s s') {p : Nat → Bool} {f g : BankS → BankS}
    (hf : ∀ b < ms.numberOfBanks, p b = true → BankAfter (tRCDof std ms) ms.tRP T pd (p0 b) (f (s.bank b)) (g (s'.bank b))) :
    StateAfter std ms T pd p0 (s.onBanks p f) (s'.onBanks p g) := by
  refine ⟨h.mode, fun b hb => ?_⟩
  simp only [State.onBanks]
  split
  · rename_i hp; exact hf b hb hp
  · exact h.bank b hb

theorem refEnd_le {b : Nat} (hb : b < ms.numberOfBanks) : (s'.bank b).refEnd ≤ Spec.pdTime std ms s' t := by
  have : earliestOf (tRCDof std ms) ms.tRP (s'.bank b) ≤ earliest (tRCDof std ms) ms.tRP ms.numberOfBanks s' := by
    rw [earliest_def]
    exact foldl_max_le (f := fun i => earliestOf (tRCDof std ms) ms.tRP (s'.bank i)) 0 b (List.mem_range.2 hb)
  unfold earliestOf at this
  unfold Spec.pdTime
  omega

end StateAfter

/-- The command `T` later. -/
def Cmd.later (T : Nat) (c : Cmd) : Cmd := { c with t := c.t + T }

theorem later_eq (T : Nat) (h : List Cmd) : DRAMPower.later T h = h.map (Cmd.later T) := rfl

theorem targets_later (T : Nat) (c : Cmd) : targets ms (c.later T) = targets ms c := rfl

namespace StateAfter

variable {T : Nat} {pd : Prop} {p0 : Nat → Nat} {s s' : State} {c : Cmd}

/-- A command permitted for the one has the same effect on both. -/
theorem apply (h : StateAfter std ms T pd p0 s s') (hslow : pd → SlowRefresh std ms) (hl : legalCmd std ms (s'.settle c.t) c)
    (hpd : pd ∨ ¬ usesPowerDown c.type) : StateAfter std ms T pd p0 (apply std ms s (c.later T)) (Spec.apply std ms s' c) := by
  have k := h.settle (t := c.t)
  obtain ⟨hsup, hin, hl⟩ := hl
  have href : ∀ ty ∈ [CmdType.REFA, .REFB, .REFP2B, .REFDB, .REFSB], supports std ty = true → pd → tRCDof std ms ≤ refreshTime ms ty :=
    fun ty hty hs hp => hslow hp ty hty hs
  have hp : usesPowerDown c.type → pd := fun h => hpd.resolve_right (fun n => n h)
  unfold Spec.apply
  simp only [targets_later]
  show StateAfter std ms T pd p0 _ _
  have ht : (c.later T).type = c.type := rfl
  have htt : (c.later T).t = c.t + T := rfl
  rw [htt, ht]
  cases hc : c.type <;> simp only [hc] at hl hsup hp ⊢
  case ACT => exact k.onBanks fun b hb _ => (k.bank b hb).activate
  case PRE => exact k.onBanks fun b hb _ => (k.bank b hb).precharge
  case PREA => exact k.onBanks fun b hb _ => (k.bank b hb).precharge
  case PRESB => exact k.onBanks fun b hb _ => (k.bank b hb).precharge
  case RDA =>
    refine k.onBanks fun b hb ht => (k.bank b hb).autoPrecharge ?_
    simp only [targets, hc, beq_iff_eq] at ht
    subst ht
    exact hl.2
  case WRA =>
    refine k.onBanks fun b hb ht => (k.bank b hb).autoPrecharge ?_
    simp only [targets, hc, beq_iff_eq] at ht
    subst ht
    exact hl.2
  case REFA => exact k.onBanks fun b hb _ => (k.bank b hb).refresh (href _ (by simp) hsup)
  case REFB => exact k.onBanks fun b hb _ => (k.bank b hb).refresh (href _ (by simp) hsup)
  case REFP2B => exact k.onBanks fun b hb _ => (k.bank b hb).refresh (href _ (by simp) hsup)
  case REFDB => exact k.onBanks fun b hb _ => (k.bank b hb).refresh (href _ (by simp) hsup)
  case REFSB => exact k.onBanks fun b hb _ => (k.bank b hb).refresh (href _ (by simp) hsup)
  case SREFEN =>
    have := k.onBanks (p := targets ms c) fun b hb _ => (k.bank b hb).refresh (t := c.t) (href .REFA (by simp) rfl)
    exact ⟨by simp only [Mode.later]; congr 1; omega, this.bank⟩
  case SREFEX => exact ⟨rfl, k.bank⟩
  case DSMEN => exact ⟨rfl, k.bank⟩
  case DSMEX => exact ⟨rfl, k.bank⟩
  case PDEA => exact ⟨by simp only [Mode.later]; rw [k.pdTime (hp (by simp [usesPowerDown]))]; rfl, k.bank⟩
  case PDEP => exact ⟨by simp only [Mode.later]; rw [k.pdTime (hp (by simp [usesPowerDown]))]; rfl, k.bank⟩
  case PDXA =>
    have hpd := hp (by simp [usesPowerDown])
    rw [k.mode, k.pdTime hpd]
    cases hm : (s'.settle c.t).mode with
    | pd a e x => exact ⟨rfl, fun b hb => (k.bank b hb).resume hpd (refEnd_le hb)⟩
    | normal => exact k
    | sref u => exact k
    | dsm => exact k
  case PDXP =>
    have hpd := hp (by simp [usesPowerDown])
    rw [k.mode, k.pdTime hpd]
    cases hm : (s'.settle c.t).mode with
    | pd a e x => exact ⟨rfl, k.bank⟩
    | normal => exact k
    | sref u => exact k
    | dsm => exact k
  all_goals exact k

/-- A command permitted for the one is permitted for the other. -/
theorem legal (h : StateAfter std ms T pd p0 s s') (hpd : pd ∨ ¬ usesPowerDown c.type) (hl : legalCmd std ms (s'.settle c.t) c) :
    legalCmd std ms (s.settle (c.later T).t) (c.later T) := by
  have k := h.settle (t := c.t)
  obtain ⟨hsup, hin, hl⟩ := hl
  have hp : usesPowerDown c.type → pd := fun h => hpd.resolve_right (fun n => n h)
  have hm := k.mode
  refine ⟨hsup, hin, ?_⟩
  have ht : (c.later T).type = c.type := rfl
  have htt : (c.later T).t = c.t + T := rfl
  have hbk : (c.later T).bank = c.bank := rfl
  have st : ∀ b < ms.numberOfBanks, ((s'.settle c.t).bank b).status = .idle → ((s.settle (c.t + T)).bank b).status = .idle :=
    fun b hb e => by rw [(k.bank b hb).status, e]; rfl
  have so : ∀ b < ms.numberOfBanks, ((s'.settle c.t).bank b).status = .opened none → ((s.settle (c.t + T)).bank b).status = .opened none :=
    fun b hb e => by rw [(k.bank b hb).status, e]; rfl
  simp only [ht, htt, targets_later, hbk]
  cases hc : c.type <;> simp only [hc] at hl hp ⊢
  case ACT => exact ⟨by rw [hm, hl.1]; rfl, st _ (by simpa [inRange, hc] using hin) hl.2⟩
  case PRE => exact ⟨by rw [hm, hl.1]; rfl, fun b hb ht => (hl.2 b hb ht).imp (st b hb) (so b hb)⟩
  case PREA => exact ⟨by rw [hm, hl.1]; rfl, fun b hb ht => (hl.2 b hb ht).imp (st b hb) (so b hb)⟩
  case PRESB => exact ⟨by rw [hm, hl.1]; rfl, fun b hb ht => (hl.2 b hb ht).imp (st b hb) (so b hb)⟩
  case RD => rw [hm, hl]; rfl
  case WR => rw [hm, hl]; rfl
  case RDA => exact ⟨by rw [hm, hl.1]; rfl, so _ (by simpa [inRange, hc] using hin) hl.2⟩
  case WRA => exact ⟨by rw [hm, hl.1]; rfl, so _ (by simpa [inRange, hc] using hin) hl.2⟩
  case REFA => exact ⟨by rw [hm, hl.1]; rfl, fun b hb ht => st b hb (hl.2 b hb ht)⟩
  case REFB => exact ⟨by rw [hm, hl.1]; rfl, fun b hb ht => st b hb (hl.2 b hb ht)⟩
  case REFP2B => exact ⟨by rw [hm, hl.1]; rfl, fun b hb ht => st b hb (hl.2 b hb ht)⟩
  case REFDB => exact ⟨by rw [hm, hl.1]; rfl, fun b hb ht => st b hb (hl.2 b hb ht)⟩
  case REFSB => exact ⟨by rw [hm, hl.1]; rfl, fun b hb ht => st b hb (hl.2 b hb ht)⟩
  case SREFEN => exact ⟨by rw [hm, hl.1]; rfl, fun b hb ht => st b hb (hl.2 b hb ht)⟩
  case SREFEX =>
    rw [hm]
    cases hx : (s'.settle c.t).mode <;> simp [hx, Mode.selfRefreshing, Mode.later] at hl ⊢
    exact hl
  case DSMEN =>
    rw [hm]
    cases hx : (s'.settle c.t).mode <;> simp [hx, Mode.selfRefreshing, Mode.later] at hl ⊢
    exact hl
  case DSMEX => rw [hm, hl]; rfl
  case PDEA => rw [hm, hl]; rfl
  case PDEP =>
    refine ⟨by rw [hm, hl.1]; rfl, fun b hb => ?_⟩
    rw [k.pdTime (hp (by simp [usesPowerDown])), (k.bank b hb).isOpen]
    exact hl.2 b hb
  case PDXA =>
    rw [hm]
    cases hx : (s'.settle c.t).mode with
    | pd a e x =>
      cases x with
      | none =>
        simp only [hx, Mode.inPd, Mode.later, Option.map_none] at hl ⊢
        refine ⟨hl.1, fun t ht => ?_⟩
        split at ht
        · rename_i hd
          rw [if_pos hd] at hl
          have := hl.2 c.t rfl
          simp only [Option.mem_some_iff] at ht
          omega
        · simp at ht
      | some x => simp [hx, Mode.inPd] at hl
    | _ => simp [hx, Mode.inPd] at hl
  case PDXP =>
    rw [hm]
    cases hx : (s'.settle c.t).mode with
    | pd a e x =>
      cases x with
      | none =>
        simp only [hx, Mode.inPd, Mode.later, Option.map_none] at hl ⊢
        exact ⟨hl.1, fun t ht => by simp at ht⟩
      | some x => simp [hx, Mode.inPd] at hl
    | _ => simp [hx, Mode.inPd] at hl

end StateAfter

/-! ## Whole sequences -/

section Run

variable {T : Nat} {pd : Prop} {p0 : Nat → Nat}

theorem foldl_after (hslow : pd → SlowRefresh std ms) : ∀ {h : List Cmd} {s s' : State} {now : Nat}, StateAfter std ms T pd p0 s s' →
    LegalFrom std ms s' now h → (∀ c ∈ h, pd ∨ ¬ usesPowerDown c.type) →
    StateAfter std ms T pd p0 ((later T h).foldl (apply std ms) s) (h.foldl (apply std ms) s') := by
  intro h
  induction h with
  | nil => intro s s' now k _ _; exact k
  | cons c h ih =>
    rintro s s' now k ⟨_, h1, h2⟩ hp
    exact ih (k.apply hslow h1 (hp c (by simp))) h2 fun c hc => hp c (by simp [hc])

theorem legalFrom_after (hslow : pd → SlowRefresh std ms) : ∀ {h : List Cmd} {s s' : State} {now : Nat}, StateAfter std ms T pd p0 s s' →
    LegalFrom std ms s' now h → (∀ c ∈ h, pd ∨ ¬ usesPowerDown c.type) → LegalFrom std ms s (now + T) (later T h) := by
  intro h
  induction h with
  | nil => intro s s' now _ _ _; trivial
  | cons c h ih =>
    rintro s s' now k ⟨h0, h1, h2⟩ hp
    exact ⟨Nat.add_le_add_right h0 T, k.legal (hp c (by simp)) h1, ih (k.apply hslow h1 (hp c (by simp))) h2 fun c hc => hp c (by simp [hc])⟩

theorem legalFrom_append : ∀ {h g : List Cmd} {s : State} {now T : Nat}, now ≤ T → LegalFrom std ms s now h → (∀ c ∈ h, c.t ≤ T) →
    LegalFrom std ms (h.foldl (apply std ms) s) T g → LegalFrom std ms s now (h ++ g) := by
  intro h
  induction h with
  | nil =>
    intro g s now T hT _ _ hg
    cases g with
    | nil => trivial
    | cons c g => exact ⟨Nat.le_trans hT hg.1, hg.2.1, hg.2.2⟩
  | cons c h ih =>
    rintro g s now T hT ⟨h0, h1, h2⟩ hle hg
    exact ⟨h0, h1, ih (hle c (by simp)) h2 (fun c hc => hle c (by simp [hc])) hg⟩

theorem legalFrom_settle {h : List Cmd} {s : State} {T : Nat} (hl : LegalFrom std ms (s.settle T) T h) : LegalFrom std ms s T h := by
  cases h with
  | nil => trivial
  | cons c h =>
    obtain ⟨h0, h1, h2⟩ := hl
    rw [apply_settle h0] at h2
    rw [State.settle_settle h0] at h1
    exact ⟨h0, h1, h2⟩

theorem legalFrom_take {p : Cmd → Bool} : ∀ {h : List Cmd} {s : State} {now : Nat}, LegalFrom std ms s now h →
    h.Pairwise (fun a b => p b = true → p a = true) → LegalFrom std ms s now (h.filter p) := by
  intro h
  induction h with
  | nil => intro s now _ _; trivial
  | cons c h ih =>
    rintro s now ⟨h0, h1, h2⟩ hp
    obtain ⟨hp1, hp2⟩ := List.pairwise_cons.1 hp
    by_cases hc : p c = true
    · rw [List.filter_cons_of_pos hc]
      exact ⟨h0, h1, ih h2 hp2⟩
    · rw [List.filter_cons_of_neg hc]
      have : h.filter p = [] := List.filter_eq_nil_iff.2 fun a ha e => hc (hp1 a ha e)
      rw [this]
      trivial

theorem legalFrom_times : ∀ {h : List Cmd} {s : State} {now : Nat}, LegalFrom std ms s now h → (∀ c ∈ h, now ≤ c.t) ∧ h.Pairwise (·.t ≤ ·.t) := by
  intro h
  induction h with
  | nil => intro s now _; exact ⟨by simp, .nil⟩
  | cons c h ih =>
    rintro s now ⟨h0, h1, h2⟩
    obtain ⟨i1, i2⟩ := ih h2
    exact ⟨fun a ha => by rcases List.mem_cons.1 ha with rfl | ha; exacts [h0, Nat.le_trans h0 (i1 a ha)], List.pairwise_cons.2 ⟨i1, i2⟩⟩

end Run

/-- What one rank needs for `g` to follow `h` at `T`. -/
structure RankReady (std : Std) (ms : MemSpec) (h g : List Cmd) (T : Nat) : Prop where
  sent : ∀ c ∈ h, c.t ≤ T
  rest : AtRest std ms h T
  recovered : (∀ c ∈ g, ¬ usesPowerDown c.type) ∨ SlowRefresh std ms ∧ Recovered std ms h T
  legal : LegalFrom std ms {} 0 g

namespace RankReady

variable {h g : List Cmd} {T : Nat}

/-- Number of precharges of bank `b` before `T`. -/
def before (std : Std) (ms : MemSpec) (h : List Cmd) (T b : Nat) : Nat := (((h.foldl (apply std ms) {}).settle T).bank b).pres

theorem start (hr : RankReady std ms h g T) :
    StateAfter std ms T (SlowRefresh std ms ∧ Recovered std ms h T) (before std ms h T) ((h.foldl (apply std ms) {}).settle T) {} := by
  refine ⟨hr.rest.1, fun b hb => ⟨hr.rest.2 b hb, fun hn => absurd rfl hn, rfl, fun ⟨_, hrec⟩ => ?_⟩⟩
  have h1 := earliest_bank (tRCD := tRCDof std ms) (tRP := ms.tRP) ((h.foldl (apply std ms) {}).settle T) hb
  unfold Recovered at hrec
  have h2 := Nat.le_trans h1 hrec
  generalize ((h.foldl (apply std ms) {}).settle T).bank b = x at h2 ⊢
  have e : earliestOf (tRCDof std ms) ms.tRP x = max (if x.acted then x.since + tRCDof std ms else 0) (max (preTerm ms.tRP x) x.refEnd) := rfl
  rw [e] at h2
  refine ⟨?_, ?_, fun e => by simp at e, fun _ ha => ?_, fun _ e => by simp at e, fun _ e => by simp at e⟩
  · show _ = 0 + T; omega
  · show _ = 0 + T; omega
  · rw [if_pos ha] at h2; omega

theorem may (hr : RankReady std ms h g T) : ∀ c ∈ g, (SlowRefresh std ms ∧ Recovered std ms h T) ∨ ¬ usesPowerDown c.type :=
  fun c hc => hr.recovered.elim (fun n => .inr (n c hc)) .inl

/-- The whole sequence is legal. -/
theorem legal_all (hr : RankReady std ms h g T) (hl : LegalFrom std ms {} 0 h) : LegalFrom std ms {} 0 (h ++ later T g) := by
  refine legalFrom_append (Nat.zero_le T) hl hr.sent (legalFrom_settle ?_)
  simpa using legalFrom_after (now := 0) (fun p => p.1) hr.start hr.legal hr.may

/-- The states from `T` on. -/
theorem stateAt_after (hr : RankReady std ms h g T) (τ : Nat) : ∃ s, StateAfter std ms T (SlowRefresh std ms ∧ Recovered std ms h T)
    (before std ms h T) s (stateAt std ms g τ) ∧ view (stateAt std ms (h ++ later T g) (τ + T)) (τ + T) = view s (τ + T) := by
  have hf : (h ++ later T g).filter (·.t ≤ τ + T) = h ++ later T (g.filter (·.t ≤ τ)) := by
    rw [List.filter_append, List.filter_eq_self.2 fun c hc => by have := hr.sent c hc; simp; omega, later_eq, later_eq, List.filter_map]
    congr 2
    refine List.filter_congr fun c _ => ?_
    simp [Cmd.later]
  have hl := legalFrom_take (p := (·.t ≤ τ)) hr.legal ((legalFrom_times hr.legal).2.imp fun hab hb => by
    simp only [decide_eq_true_eq] at hb ⊢; omega)
  refine ⟨_, foldl_after (fun p => p.1) hr.start hl fun c hc => hr.may c (List.mem_filter.1 hc).1, ?_⟩
  unfold stateAt
  rw [hf, List.foldl_append]
  cases hg : g.filter (·.t ≤ τ) with
  | nil => exact (view_settle (by omega)).symm
  | cons c l =>
    show view ((later T l).foldl _ (apply std ms _ (c.later T))) _ = view ((later T l).foldl _ (apply std ms (State.settle T _) (c.later T))) _
    rw [apply_settle (by simp [Cmd.later])]

theorem stateAt_before (τ : Nat) (hτ : τ < T) : stateAt std ms (h ++ later T g) τ = stateAt std ms h τ := by
  unfold stateAt
  have : (later T g).filter (·.t ≤ τ) = [] := List.filter_eq_nil_iff.2 fun c hc => by
    obtain ⟨d, _, rfl⟩ := List.mem_map.1 hc
    simp
    omega
  rw [List.filter_append, this, List.append_nil]

theorem category_after (hr : RankReady std ms h g T) {b : Nat} (hb : b < ms.numberOfBanks) (τ : Nat) :
    category std ms (h ++ later T g) b (τ + T) = category std ms g b τ := by
  obtain ⟨s, k, hv⟩ := hr.stateAt_after τ
  unfold category
  rw [view_bankCat hv, k.bankCat hb]

theorem rankCategory_after (hr : RankReady std ms h g T) (τ : Nat) :
    rankCategory std ms (h ++ later T g) (τ + T) = rankCategory std ms g τ := by
  obtain ⟨s, k, hv⟩ := hr.stateAt_after τ
  unfold rankCategory
  rw [view_rankCat hv, k.rankCat]

theorem count_after {f f1 f2 : Nat → Bool} (t : Nat) (h1 : ∀ τ < T, f τ = f1 τ) (h2 : ∀ τ, f (τ + T) = f2 τ) :
    (List.range (T + t)).countP f = (List.range T).countP f1 + (List.range t).countP f2 := by
  rw [List.range_add, List.countP_append, List.countP_map]
  congr 1
  · exact List.countP_congr fun τ hτ => by rw [h1 τ (List.mem_range.1 hτ)]
  · refine List.countP_congr fun τ _ => ?_
    simp only [Function.comp_apply]
    rw [Nat.add_comm, h2]

theorem bankTime_after (hr : RankReady std ms h g T) {b : Nat} (hb : b < ms.numberOfBanks) (k : Cat) (t : Nat) :
    bankTime std ms (h ++ later T g) b k (T + t) = bankTime std ms h b k T + bankTime std ms g b k t :=
  count_after t (fun τ hτ => by unfold category; rw [stateAt_before τ hτ]) fun τ => by rw [hr.category_after hb]

theorem rankTime_after (hr : RankReady std ms h g T) (k : Cat) (t : Nat) :
    rankTime std ms (h ++ later T g) k (T + t) = rankTime std ms h k T + rankTime std ms g k t :=
  count_after t (fun τ hτ => by unfold rankCategory; rw [stateAt_before τ hτ]) fun τ => by rw [hr.rankCategory_after]

theorem pres_after (hr : RankReady std ms h g T) {b : Nat} (hb : b < ms.numberOfBanks) {t : Nat} :
    ((((h ++ later T g).foldl (apply std ms) {}).settle (T + t)).bank b).pres =
      (((h.foldl (apply std ms) {}).settle T).bank b).pres + (((g.foldl (apply std ms) {}).settle t).bank b).pres := by
  have k := (foldl_after (fun p => p.1) hr.start hr.legal hr.may).settle (t := t)
  rw [List.foldl_append, ← foldl_settle (p := T) (fun c hc => by
    obtain ⟨d, _, rfl⟩ := List.mem_map.1 hc; simp) (by omega), Nat.add_comm T t]
  exact (k.bank b hb).pres

theorem tally_after (b : Nat) : tally ms (h ++ later T g) b = (tally ms h b).plus (tally ms g b) := by
  have e : ∀ ty, hits ms (later T g) ty b = hits ms g ty b := fun ty => by
    unfold hits
    rw [later_eq, List.countP_map]
    rfl
  simp only [tally, hits, List.countP_append] at *
  simp only [e, Counters.plus]
  simp
  omega

/-- After both, the rank is as it is after the second one alone. -/
theorem rest_after (hr : RankReady std ms h g T) {P : Nat} (h2 : AtRest std ms g P) : AtRest std ms (h ++ later T g) (T + P) := by
  have k := (foldl_after (fun p => p.1) hr.start hr.legal hr.may).settle (t := P)
  unfold AtRest
  rw [List.foldl_append, ← foldl_settle (p := T) (fun c hc => by
    obtain ⟨d, _, rfl⟩ := List.mem_map.1 hc; simp) (by omega), Nat.add_comm T P]
  refine ⟨?_, fun b hb => ?_⟩
  · rw [k.mode, h2.1]; rfl
  · rw [(k.bank b hb).status, h2.2 b hb]; rfl

theorem recovered_after (hr : RankReady std ms h g T) {P : Nat} (hs : SlowRefresh std ms ∧ Recovered std ms h T) (h2 : Recovered std ms g P) :
    Recovered std ms (h ++ later T g) (T + P) := by
  have k := (foldl_after (fun p => p.1) hr.start hr.legal hr.may).settle (t := P)
  have e := k.pdTime hs P
  unfold Recovered at *
  rw [List.foldl_append, ← foldl_settle (p := T) (fun c hc => by
    obtain ⟨d, _, rfl⟩ := List.mem_map.1 hc; simp) (by omega), Nat.add_comm T P]
  unfold Spec.pdTime at e
  omega

variable {s : PowerSpec} {d : Domain}

theorem activeCount_after (hr : RankReady std ms h g T) (τ : Nat) : activeCount std ms (h ++ later T g) (τ + T) = activeCount std ms g τ := by
  unfold activeCount
  refine List.countP_congr fun b hb => ?_
  rw [hr.category_after (List.mem_range.1 hb)]

theorem activeCount_before {τ : Nat} (hτ : τ < T) : activeCount std ms (h ++ later T g) τ = activeCount std ms h τ := by
  unfold activeCount category
  rw [stateAt_before τ hτ]

/-- The charge of both is the sum. -/
theorem charge_after (hr : RankReady std ms h g T) (t : Nat) :
    rankCharge std ms s d (h ++ later T g) (T + t) = rankCharge std ms s d h T + rankCharge std ms s d g t := by
  have e1 : backgroundCharge std ms s d (h ++ later T g) 0 (T + t) = backgroundCharge std ms s d h 0 T + backgroundCharge std ms s d g 0 t := by
    unfold backgroundCharge
    simp only [Nat.sub_zero, ← List.range_eq_range']
    rw [List.range_add, List.map_append, List.sum_append, List.map_map]
    congr 1
    · congr 1
      refine List.map_congr_left fun τ hτ => ?_
      have hτ := List.mem_range.1 hτ
      rw [activeCount_before hτ]
      unfold rankCategory
      rw [stateAt_before τ hτ]
    · congr 1
      refine List.map_congr_left fun τ _ => ?_
      simp only [Function.comp_apply]
      rw [Nat.add_comm T τ, hr.activeCount_after, hr.rankCategory_after]
  have e2 : ((h ++ later T g).map fun c => commandCharge std s d c.type).sum =
      (h.map fun c => commandCharge std s d c.type).sum + (g.map fun c => commandCharge std s d c.type).sum := by
    rw [List.map_append, List.sum_append, later_eq, List.map_map]
    rfl
  have e3 : precharges std ms (h ++ later T g) (T + t) = precharges std ms h T + precharges std ms g t := by
    unfold precharges
    rw [← List.sum_map_add]
    congr 1
    exact List.map_congr_left fun b hb => hr.pres_after (List.mem_range.1 hb)
  unfold rankCharge
  rw [e1, e2, e3]
  push_cast
  ring

end RankReady
end DRAMPower
