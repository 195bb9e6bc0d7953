import Verif.Spec.Measurement
import Verif.Props.C74

/-!
# Charge of the measurement loops

Used by C75.
-/

namespace DRAMPower
open Spec

variable {std : Std} {ms : MemSpec} {s : PowerSpec} {d : Domain}

/-- A phase of constant current. -/
theorem backgroundCharge_const {h : List Cmd} {t t' : Nat} {c : Rat}
    (hc : ∀ τ, t ≤ τ → τ < t' → stateCurrent std s d (activeCount std ms h τ) (rankCategory std ms h τ) = c) :
    backgroundCharge std ms s d h t t' = c * (((t' - t : Nat) : Rat) * s.tCK) := by
  unfold backgroundCharge
  rw [List.map_congr_left (g := fun _ => c * s.tCK), List.map_const', List.sum_replicate, List.length_range']
  · rw [nsmul_eq_mul]; ring
  · intro τ hτ
    have := List.mem_range'_1.1 hτ
    rw [hc τ (by omega) (by omega)]

/-- A rank in normal operation whose banks are open as `p` says. -/
theorem current_normal {h : List Cmd} {τ : Nat} {p : Nat → Bool} (hm : (stateAt std ms h τ).mode.low τ = none)
    (hp : ∀ b < ms.numberOfBanks, ((stateAt std ms h τ).bank b).isOpen τ = p b) :
    stateCurrent std s d (activeCount std ms h τ) (rankCategory std ms h τ) =
      if 0 < (List.range ms.numberOfBanks).countP p then background std s d ((List.range ms.numberOfBanks).countP p) else d.i2n := by
  have ha : activeCount std ms h τ = (List.range ms.numberOfBanks).countP p := by
    unfold activeCount category bankCat
    refine List.countP_congr fun b hb => ?_
    rw [hm, hp b (List.mem_range.1 hb)]
    cases p b <;> simp
  have hr : rankCategory std ms h τ = if 0 < (List.range ms.numberOfBanks).countP p then .act else .pre := by
    unfold rankCategory rankCat
    rw [hm]
    simp only [Option.getD_none]
    have : (∃ b < ms.numberOfBanks, ((stateAt std ms h τ).bank b).isOpen τ = true) ↔ 0 < (List.range ms.numberOfBanks).countP p := by
      rw [List.countP_pos_iff]
      constructor
      · rintro ⟨b, hb, ho⟩
        exact ⟨b, List.mem_range.2 hb, by rw [← hp b hb]; exact ho⟩
      · rintro ⟨b, hb, ho⟩
        exact ⟨b, List.mem_range.1 hb, by rw [hp b (List.mem_range.1 hb)]; exact ho⟩
    simp only [this]
  rw [ha, hr]
  split <;> rfl

/-- A rank without commands. -/
theorem charge_nil (P : Nat) : rankCharge std ms s d [] P = d.i2n * ((P : Rat) * s.tCK) := by
  unfold rankCharge
  rw [backgroundCharge_const (c := d.i2n) fun τ _ _ => ?_]
  · have : precharges std ms [] P = 0 := by
      unfold precharges
      induction (List.range ms.numberOfBanks) with
      | nil => rfl
      | cons a L ih => rw [List.map_cons, List.sum_cons, ih]; rfl
    rw [this]
    simp
  · rw [current_normal (p := fun _ => false) rfl fun b _ => rfl]
    simp

theorem sum_count (p : Nat → Bool) (L : List Nat) : (L.map fun x => if p x = true then 1 else 0).sum = L.countP p := by
  induction L with
  | nil => rfl
  | cons a L ih =>
    rw [List.map_cons, List.sum_cons, ih, List.countP_cons]
    exact Nat.add_comm _ _

/-! ## Activate and precharge -/

theorem idd0_charge {r b b2 : Nat} (hb : b < ms.numberOfBanks) :
    rankCharge std ms s d (Loop.commands s r b b2 .idd0) (s.tRAS + s.tRP) = d.i0 * (((s.tRAS + s.tRP : Nat) : Rat) * s.tCK) := by
  have hcount : (List.range ms.numberOfBanks).countP (fun x => x == b) = 1 := by rw [countP_eq, if_pos hb]
  have hp : precharges std ms (Loop.commands s r b b2 .idd0) (s.tRAS + s.tRP) = 1 := by
    unfold precharges
    rw [List.map_congr_left (g := fun x => if (x == b) = true then 1 else 0)]
    · rw [sum_count, hcount]
    · intro x _
      by_cases h : x = b <;>
        simp [Loop.commands, apply, State.settle, Mode.settle, BankS.settle, State.onBanks, targets, BankS.activate, BankS.precharge, h]
  unfold rankCharge
  rw [hp, backgroundCharge_append d _ (Nat.le_add_right s.tRAS s.tRP), backgroundCharge_const (c := background std s d 1) fun τ _ h => ?_,
    backgroundCharge_const (c := d.i2n) fun τ h _ => ?_]
  · simp only [Loop.commands, List.map_cons, List.map_nil, List.sum_cons, List.sum_nil, commandCharge, prechargeCharge, Nat.add_sub_cancel_left,
      Nat.sub_zero]
    push_cast
    ring
  · have hs : stateAt std ms (Loop.commands s r b b2 .idd0) τ = (Loop.commands s r b b2 .idd0).foldl (apply std ms) {} := by
      simp [stateAt, Loop.commands, h]
    rw [current_normal (p := fun _ => false)]
    · simp
    · rw [hs]; rfl
    · intro x _
      rw [hs]
      by_cases h : x = b <;>
        simp [Loop.commands, apply, State.settle, Mode.settle, BankS.settle, State.onBanks, targets, BankS.activate, BankS.precharge, h,
          BankS.isOpen]
  · have hs : stateAt std ms (Loop.commands s r b b2 .idd0) τ = apply std ms {} { t := 0, type := .ACT, rank := r, bank := b } := by
      simp [stateAt, Loop.commands, Nat.not_le.2 h]
    rw [current_normal (p := fun x => x == b)]
    · rw [hcount]; simp
    · rw [hs]; rfl
    · intro x _
      rw [hs]
      by_cases h : x = b <;>
        simp [apply, State.settle, Mode.settle, BankS.settle, State.onBanks, targets, BankS.activate, h, BankS.isOpen]

theorem idd0_legal {r b b2 : Nat} (hb : b < ms.numberOfBanks) : Legal std ms (Loop.commands s r b b2 .idd0) := by
  refine ⟨Nat.zero_le _, ⟨rfl, hb, rfl, rfl⟩, Nat.zero_le _, ⟨rfl, hb, rfl, fun x _ hx => ?_⟩, trivial⟩
  have : x = b := by simpa [targets] using hx
  subst this
  exact .inr (by simp [apply, State.settle, BankS.settle, State.onBanks, targets, BankS.activate])

theorem idd0_rest {r b b2 : Nat} : AtRest std ms (Loop.commands s r b b2 .idd0) (s.tRAS + s.tRP) := by
  refine ⟨rfl, fun x _ => ?_⟩
  by_cases h : x = b <;>
    simp [Loop.commands, apply, State.settle, Mode.settle, BankS.settle, State.onBanks, targets, BankS.activate, BankS.precharge, h]

/-! ## Refresh -/

/-- Commands that refresh. -/
def refreshing (ty : CmdType) : Bool :=
  match ty with
  | .REFA | .REFB | .REFP2B | .REFDB | .REFSB => true
  | _ => false

theorem refresh_state {c : Cmd} (h0 : c.t = 0) (hc : refreshing c.type = true) : apply std ms {} c =
    { mode := .normal, bank := fun b => if targets ms c b then { status := .refreshing (refreshTime ms c.type), since := 0, refEnd := refreshTime ms c.type } else {} } := by
  obtain ⟨t, ty, r, b, b2⟩ := c
  cases h0
  cases ty <;> simp [refreshing] at hc <;>
    simp [apply, State.settle, Mode.settle, BankS.settle, State.onBanks, BankS.refresh]

theorem refresh_legal {c : Cmd} (h0 : c.t = 0) (hc : refreshing c.type = true) (hs : supports std c.type = true) (hi : inRange ms c) :
    Legal std ms [c] := by
  refine ⟨Nat.zero_le _, ⟨hs, hi, ?_⟩, trivial⟩
  cases hty : c.type <;> rw [hty] at hc <;> simp [refreshing] at hc <;>
    exact ⟨rfl, fun _ _ _ => rfl⟩

theorem refresh_rest {c : Cmd} {P : Nat} (h0 : c.t = 0) (hc : refreshing c.type = true) (hP : refreshTime ms c.type ≤ P) : AtRest std ms [c] P := by
  unfold AtRest
  rw [List.foldl_cons, List.foldl_nil, refresh_state h0 hc]
  refine ⟨rfl, fun x _ => ?_⟩
  simp only [State.settle]
  split
  · simp [BankS.settle, hP]
  · rfl

theorem refresh_charge {c : Cmd} {P k : Nat} (h0 : c.t = 0) (hc : refreshing c.type = true) (hP : refreshTime ms c.type ≤ P)
    (hk : (List.range ms.numberOfBanks).countP (targets ms c) = k) (hk0 : 0 < k) :
    rankCharge std ms s d [c] P = background std s d k * ((refreshTime ms c.type : Rat) * s.tCK) +
      d.i2n * (((P : Rat) - (refreshTime ms c.type : Rat)) * s.tCK) + commandCharge std s d c.type := by
  have hs : ∀ τ, stateAt std ms [c] τ = apply std ms {} c := fun τ => by simp [stateAt, h0]
  have hp : precharges std ms [c] P = 0 := by
    unfold precharges
    rw [List.map_congr_left (g := fun _ => 0)]
    · simp
    · intro x _
      rw [List.foldl_cons, List.foldl_nil, refresh_state h0 hc]
      simp only [State.settle]
      split
      · simp [BankS.settle, hP]
      · rfl
  unfold rankCharge
  rw [hp, backgroundCharge_append d _ hP, backgroundCharge_const (c := background std s d k) fun τ _ h => ?_,
    backgroundCharge_const (c := d.i2n) fun τ h _ => ?_, Nat.cast_sub hP]
  · simp only [List.map_cons, List.map_nil, List.sum_cons, List.sum_nil, Nat.sub_zero]
    push_cast
    ring
  · rw [current_normal (p := fun _ => false)]
    · simp
    · rw [hs, refresh_state h0 hc]; rfl
    · intro x _
      rw [hs, refresh_state h0 hc]
      simp only
      split
      · simp [BankS.isOpen, h]
      · rfl
  · rw [current_normal (p := targets ms c)]
    · rw [hk, if_pos hk0]
    · rw [hs, refresh_state h0 hc]; rfl
    · intro x _
      rw [hs, refresh_state h0 hc]
      simp only
      cases hx : targets ms c x
      · rfl
      · simp [BankS.isOpen, h]

/-! ## Every loop -/

theorem loop_facts {l : Loop} {r b b2 : Nat} (hv : ValidSpec std ms) (hf : Fits std ms s) (hl : l.Measurable std ms s b b2) :
    Legal std ms (l.commands s r b b2) ∧ AtRest std ms (l.commands s r b b2) (l.period s) ∧
    ∀ d, rankCharge std ms s d (l.commands s r b b2) (l.period s) = l.current d * ((l.period s : Rat) * s.tCK) := by
  have heq : ∀ {k}, k < ms.numberOfBanks → (List.range ms.numberOfBanks).countP (fun x => x == k) = 1 := fun h => by
    rw [countP_eq, if_pos h]
  have h8 : ∀ {x}, 8 ∣ x → ((x / 8 : Nat) : Rat) = (x : Rat) / 8 := fun h => by
    obtain ⟨y, rfl⟩ := h
    rw [Nat.mul_div_cancel_left y (by decide)]
    push_cast
    ring
  cases l with
  | idd0 => exact ⟨idd0_legal hl, idd0_rest, fun _ => idd0_charge hl⟩
  | idd5 =>
    have hl : ms.tRFC = s.tRFC := hl
    refine ⟨refresh_legal rfl rfl rfl trivial, refresh_rest rfl rfl (Nat.le_of_eq hl), fun d => ?_⟩
    have hk : (List.range ms.numberOfBanks).countP (targets ms { t := 0, type := .REFA, rank := r }) = ms.numberOfBanks := by
      exact (List.countP_eq_length (p := targets ms { t := 0, type := .REFA, rank := r }).2 fun _ _ => rfl).trans List.length_range
    refine (refresh_charge (c := { t := 0, type := .REFA, rank := r }) rfl rfl (Nat.le_of_eq hl) hk hv.banks).trans ?_
    simp only [refreshTime, hl, commandCharge, Loop.current, Loop.period, hf.banks]
    ring
  | idd5c =>
    obtain ⟨rfl, hb, hl⟩ := hl
    refine ⟨refresh_legal rfl rfl rfl hb, refresh_rest rfl rfl (Nat.le_of_eq hl), fun d => ?_⟩
    have hg := hv.groups rfl
    have hp : 0 < ms.banksPerGroup := Nat.pos_of_ne_zero fun h => by rw [h, Nat.mul_zero] at hg; omega
    have hG : 0 < ms.numberOfBankGroups := Nat.pos_of_ne_zero fun h => by rw [h, Nat.zero_mul] at hg; omega
    have hk : (List.range ms.numberOfBanks).countP (targets ms { t := 0, type := .REFSB, rank := r, bank := b }) = ms.numberOfBankGroups := by
      rw [hg]
      exact countP_mod _ _ _ (Nat.mod_lt _ hp)
    refine (refresh_charge (c := { t := 0, type := .REFSB, rank := r, bank := b }) rfl rfl (Nat.le_of_eq hl) hk hG).trans ?_
    simp only [refreshTime, hl, commandCharge, Loop.current, Loop.period, hf.groups rfl]
    ring
  | idd5pb =>
    obtain ⟨hstd, hb, hl, hd, hle⟩ := hl
    rw [← hl] at hle
    have hs : supports std .REFB = true := by simpa [supports] using hstd
    refine ⟨refresh_legal rfl rfl hs hb, refresh_rest rfl rfl hle, fun d => ?_⟩
    refine (refresh_charge (c := { t := 0, type := .REFB, rank := r, bank := b }) rfl rfl hle (heq hb) Nat.one_pos).trans ?_
    simp only [refreshTime, hl, commandCharge, Loop.current, Loop.period, h8 hd, bankRefreshCharge]
    ring
  | idd5pb2 =>
    obtain ⟨rfl, hb, hb2, hne, ha, hl, hd, hle⟩ := hl
    rw [← hl] at hle
    refine ⟨refresh_legal rfl rfl rfl ⟨hb, hb2, hne, ha⟩, refresh_rest rfl rfl hle, fun d => ?_⟩
    have hk : (List.range ms.numberOfBanks).countP (targets ms { t := 0, type := .REFP2B, rank := r, bank := b }) = 2 := by
      have := countP_two ms.numberOfBanks b ((b + ms.perTwoBankOffset) % 16) (Ne.symm hne)
      rw [if_pos hb, if_pos hb2] at this
      exact this
    refine (refresh_charge (c := { t := 0, type := .REFP2B, rank := r, bank := b }) rfl rfl hle hk (by decide)).trans ?_
    simp only [refreshTime, hl, commandCharge, Loop.current, Loop.period, h8 hd, bankRefreshCharge]
    ring
  | idd5db =>
    obtain ⟨rfl, hb, hb2, hne, hl, hd, hle⟩ := hl
    rw [← hl] at hle
    refine ⟨refresh_legal rfl rfl rfl ⟨hb, hb2, hne⟩, refresh_rest rfl rfl hle, fun d => ?_⟩
    have hk : (List.range ms.numberOfBanks).countP (targets ms { t := 0, type := .REFDB, rank := r, bank := b, dbank := b2 }) = 2 := by
      have := countP_two ms.numberOfBanks b b2 (Ne.symm hne)
      rw [if_pos hb, if_pos hb2] at this
      exact this
    refine (refresh_charge (c := { t := 0, type := .REFDB, rank := r, bank := b, dbank := b2 }) rfl rfl hle hk (by decide)).trans ?_
    simp only [refreshTime, hl, commandCharge, Loop.current, Loop.period, h8 hd, bankRefreshCharge]
    ring

/-! ## Standing still -/

theorem settle_prechargeable {b : BankS} (h : b.prechargeable) (t : Nat) : b.settle t = b := by
  unfold BankS.settle
  rcases h with h | h <;> simp [h]

/-- Reads and writes. -/
def readOrWrite (ty : CmdType) : Prop := ty = .RD ∨ ty = .WR

theorem apply_burst {σ : State} {c : Cmd} (h : readOrWrite c.type) : apply std ms σ c = σ.settle c.t := by
  unfold apply
  rcases h with h | h <;> simp [h]

theorem foldl_bursts : ∀ {g : List Cmd} {σ : State} {τ : Nat}, (∀ c ∈ g, readOrWrite c.type ∧ c.t ≤ τ) →
    view (g.foldl (apply std ms) σ) τ = view σ τ
  | [], _, _, _ => rfl
  | c :: g, σ, τ, h => by
    have hc := h c List.mem_cons_self
    rw [List.foldl_cons, apply_burst hc.1, foldl_bursts fun a ha => h a (List.mem_cons_of_mem _ ha), view_settle hc.2]

theorem foldl_bursts_bank {T T' b : Nat} (hT : T ≤ T') : ∀ {g : List Cmd} {σ : State}, (∀ c ∈ g, readOrWrite c.type ∧ T ≤ c.t) →
    ((σ.settle T).bank b).prechargeable → ((g.foldl (apply std ms) σ).settle T').bank b = (σ.settle T).bank b
  | [], σ, _, hp => by
    show (σ.settle T').bank b = _
    rw [← State.settle_settle hT]
    exact settle_prechargeable hp T'
  | c :: g, σ, h, hp => by
    have hc := h c List.mem_cons_self
    have e : (σ.settle c.t).bank b = (σ.settle T).bank b := by
      rw [← State.settle_settle hc.2]
      exact settle_prechargeable hp c.t
    have e2 : ((σ.settle c.t).settle T).bank b = (σ.settle T).bank b := by
      show ((σ.settle c.t).bank b).settle T = _
      rw [e]
      exact settle_prechargeable hp T
    rw [List.foldl_cons, apply_burst hc.1, foldl_bursts_bank hT (fun a ha => h a (List.mem_cons_of_mem _ ha)) (by rw [e2]; exact hp), e2]

section Standing

variable {h g : List Cmd} {T T' a : Nat} {k : Cat}

theorem Spec.Standing.view_eq (hs : Standing std ms h T k a) (hg : ∀ c ∈ g, readOrWrite c.type ∧ T ≤ c.t) {τ : Nat} (hτ : T ≤ τ) :
    view (stateAt std ms (h ++ g) τ) τ = view ((h.foldl (apply std ms) {}).settle T) τ := by
  have : (h ++ g).filter (·.t ≤ τ) = h ++ g.filter (·.t ≤ τ) := by
    rw [List.filter_append, List.filter_eq_self.2 fun c hc => by have := hs.sent c hc; simp; omega]
  unfold stateAt
  rw [this, List.foldl_append, foldl_bursts fun c hc => ?_, view_settle hτ]
  obtain ⟨h1, h2⟩ := List.mem_filter.1 hc
  exact ⟨(hg c h1).1, by simpa using h2⟩

/-- The current from `T` on. -/
theorem Spec.Standing.current (hs : Standing std ms h T k a) (hg : ∀ c ∈ g, readOrWrite c.type ∧ T ≤ c.t) {τ : Nat} (hτ : T ≤ τ) :
    stateCurrent std s d (activeCount std ms (h ++ g) τ) (rankCategory std ms (h ++ g) τ) = stateCurrent std s d a k := by
  have hv := hs.view_eq hg hτ
  have hm := congrArg Prod.fst hv
  have hb := congrFun (congrArg Prod.snd hv)
  simp only [view] at hm hb
  have hmode := hs.mode
  generalize hσ : (h.foldl (apply std ms) {}).settle T = σ at hm hb hmode
  have hcount := hs.count
  have hpre := hs.banks
  rw [hσ] at hcount hpre
  have hrc : ∀ {k'}, σ.mode.low τ = some k' → rankCategory std ms (h ++ g) τ = k' := fun e => by
    unfold rankCategory rankCat
    rw [hm, e]
    rfl
  have hnorm : σ.mode = .normal → stateCurrent std s d (activeCount std ms (h ++ g) τ) (rankCategory std ms (h ++ g) τ) =
      if 0 < a then background std s d a else d.i2n := fun e => by
    rw [current_normal (p := fun b => (σ.bank b).status = .opened none), hcount]
    · rw [hm, e]; rfl
    · intro b hb'
      rw [hb b]
      rcases hpre b hb' with h | h <;> simp [BankS.isOpen, h]
  cases k with
  | act => rw [hnorm hmode, if_pos (hs.active rfl)]; rfl
  | pre => rw [hnorm hmode, if_neg (by rw [hs.precharged rfl]; decide)]; rfl
  | pda =>
    obtain ⟨e, he, hm'⟩ := hmode
    rw [hrc (k' := .pda) (by rw [hm']; simp [Mode.low, Nat.le_trans he hτ])]
    rfl
  | pdp =>
    obtain ⟨e, he, hm'⟩ := hmode
    rw [hrc (k' := .pdp) (by rw [hm']; simp [Mode.low, Nat.le_trans he hτ])]
    rfl
  | sref =>
    obtain ⟨e, he, hm'⟩ := hmode
    rw [hrc (k' := .sref) (by rw [hm']; simp [Mode.low, Nat.le_trans he hτ])]
    rfl
  | dsm =>
    have hmode : σ.mode = .dsm := hmode
    rw [hrc (k' := .dsm) (by rw [hmode]; rfl)]
    rfl

/-- What the reads and writes from `T` on, and the time until `T'`, add. -/
theorem Spec.Standing.charge (hs : Standing std ms h T k a) (hg : ∀ c ∈ g, readOrWrite c.type ∧ T ≤ c.t) (hT : T ≤ T') :
    rankCharge std ms s d (h ++ g) T' = rankCharge std ms s d h T + stateCurrent std s d a k * (((T' - T : Nat) : Rat) * s.tCK) +
      (g.map fun c => commandCharge std s d c.type).sum := by
  have hp : precharges std ms (h ++ g) T' = precharges std ms h T := by
    unfold precharges
    congr 1
    refine List.map_congr_left fun b hb => ?_
    rw [List.foldl_append, foldl_bursts_bank hT hg (hs.banks b (List.mem_range.1 hb))]
  have hbefore : backgroundCharge std ms s d (h ++ g) 0 T = backgroundCharge std ms s d h 0 T := by
    unfold backgroundCharge
    congr 1
    refine List.map_congr_left fun τ hτ => ?_
    have hτ := (List.mem_range'_1.1 hτ).2
    have e : stateAt std ms (h ++ g) τ = stateAt std ms h τ := by
      unfold stateAt
      have : g.filter (·.t ≤ τ) = [] := List.filter_eq_nil_iff.2 fun c hc => by
        have := (hg c hc).2
        simp
        omega
      rw [List.filter_append, this, List.append_nil]
    unfold activeCount category rankCategory
    rw [e]
  unfold rankCharge
  rw [hp, backgroundCharge_append d _ hT, hbefore, backgroundCharge_const (t := T) (t' := T') fun τ hτ _ => hs.current hg hτ, List.map_append,
    List.sum_append]
  ring

end Standing

end DRAMPower
