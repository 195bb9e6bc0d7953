import Verif.Sim.ExecMode

/-!
# Processing the queue up to a time
-/

namespace DRAMPower

open Spec

/-- Time per category in the cycles `0, …, T-1` of the timeline `f`. -/
def accAt (f : Nat → State) (n T : Nat) : Acc where
  act b := (List.range T).countP fun τ => bankCat (f τ) b τ = .act
  ract := (List.range T).countP fun τ => rankCat n (f τ) τ = .act
  pda := (List.range T).countP fun τ => (f τ).mode.low τ = some .pda
  pdp := (List.range T).countP fun τ => (f τ).mode.low τ = some .pdp
  sref := (List.range T).countP fun τ => (f τ).mode.low τ = some .sref
  dsm := (List.range T).countP fun τ => (f τ).mode.low τ = some .dsm

theorem Rel.accCongr {std n T q r σ ent acc acc'} (h : Rel std n T q r σ ent acc)
    (h1 : ∀ b < n, acc'.act b = acc.act b) (h2 : acc'.ract = acc.ract) (h3 : acc'.pda = acc.pda)
    (h4 : acc'.pdp = acc.pdp) (h5 : acc'.sref = acc.sref) (h6 : acc'.dsm = acc.dsm) :
    Rel std n T q r σ ent acc' := by
  have hm := h.modeRel
  refine ⟨h.nb, h.npos, h.qge, h.qord, h.qbank, h.qin, h.qmode, ?_, ?_, ?_, h.modeOK, h.endRef⟩
  · intro b hb; rw [h1 b hb]; exact h.bank b hb
  · exact ⟨hm.mem, by rw [h3]; exact hm.pda, by rw [h4]; exact hm.pdp, by rw [h5, h6]; exact hm.sref,
      by rw [h6]; exact hm.dsm, hm.entT, hm.srefT, hm.pdaStart⟩
  · rw [h2]; exact h.ract

/-- Low-power category of the timeline while nothing is due. -/
theorem Rel.low_eq {std n T q r σ ent acc} (h : Rel std n T q r σ ent acc) {T' τ : Nat}
    (hq : ∀ e ∈ q, T' ≤ e.1) (h1 : T ≤ τ) (h2 : τ < T') : σ.mode.low τ = lowNow σ.mode ent := by
  have hmq := h.qmode
  have hin : ∀ e ∈ expMQ σ.mode ent, T' ≤ e.1 := by
    intro e he
    rw [← hmq] at he
    exact hq e (List.mem_filter.1 he).1
  have hT := h.modeRel.entT
  have hS := h.modeRel.srefT
  cases hm : σ.mode with
  | normal | dsm => rfl
  | sref s =>
    rw [hm] at hin
    cases ent with
    | true =>
      have := hS rfl s hm
      have hle : s ≤ τ := by omega
      simp [Mode.low, lowNow, hle]
    | false =>
      have := hin (s, .srefEnter) (by simp [expMQ])
      simp only at this
      have hle : ¬ s ≤ τ := by omega
      simp [Mode.low, lowNow, hle]
  | pd a e x =>
    rw [hm] at hin
    cases ent with
    | true =>
      have := hT rfl a e x hm
      have hle : e ≤ τ := by omega
      cases x with
      | none => simp [Mode.low, lowNow, hle]
      | some y =>
        have := hin (y, exitImp a) (by simp [expMQ])
        simp only at this
        have hlt : τ < y := by omega
        simp [Mode.low, lowNow, hle, hlt]
    | false =>
      have := hin (e, enterImp a) (by simp [expMQ])
      simp only at this
      have hle : ¬ e ≤ τ := by omega
      simp [Mode.low, lowNow, hle]

theorem Rel.open_eq {std n T q r σ ent acc} (h : Rel std n T q r σ ent acc) {T' τ b : Nat} (hb : b < n)
    (hq : ∀ e ∈ q, T' ≤ e.1) (h2 : τ < T') :
    (σ.bank b).isOpen τ = decide ((σ.bank b).status ≠ .idle) := by
  cases hs : (σ.bank b).status with
  | idle => simp [BankS.isOpen, hs]
  | opened p =>
    cases p with
    | none => simp [BankS.isOpen, hs]
    | some p =>
      have := hq _ (h.mem_opened hb hs)
      simp only at this
      have : τ < p := by omega
      simp [BankS.isOpen, hs, this]
  | refreshing u =>
    have := hq _ (h.mem_refreshing hb hs)
    simp only at this
    have : τ < u := by omega
    simp [BankS.isOpen, hs, this]

/-- `σ` differs from `s` only in things that have ended by time `T`. -/
def PS (T : Nat) (s σ : State) : Prop := ∀ t, T ≤ t → σ.settle t = s.settle t

theorem PS.low {T : Nat} {s σ : State} (h : PS T s σ) {τ : Nat} (ht : T ≤ τ) : s.mode.low τ = σ.mode.low τ := by
  have h1 := Mode.low_settle (Nat.le_refl τ) s.mode
  have h2 := Mode.low_settle (Nat.le_refl τ) σ.mode
  have h3 : σ.mode.settle τ = s.mode.settle τ := congrArg State.mode (h τ ht)
  rw [← h1, ← h2, h3]

theorem PS.isOpen {T : Nat} {s σ : State} (h : PS T s σ) {τ : Nat} (ht : T ≤ τ) (b : Nat) :
    (s.bank b).isOpen τ = (σ.bank b).isOpen τ := by
  have h1 := BankS.isOpen_settle (Nat.le_refl τ) (s.bank b)
  have h2 := BankS.isOpen_settle (Nat.le_refl τ) (σ.bank b)
  have h3 : (σ.bank b).settle τ = (s.bank b).settle τ := congrFun (congrArg State.bank (h τ ht)) b
  rw [← h1, ← h2, h3]

theorem Spec.Mode.low_ne {m : Mode} {τ : Nat} {c : Cat} (h : m.low τ = some c) : c ≠ .act ∧ c ≠ .pre := by
  cases m with
  | normal => simp [Mode.low] at h
  | dsm => simp only [Mode.low] at h; injection h with h; subst h; simp
  | sref s => simp only [Mode.low] at h; split at h <;> simp at h; subst h; simp
  | pd a e x =>
    simp only [Mode.low] at h
    split at h
    · injection h with h; subst h; cases a <;> simp
    · simp at h

theorem bankCat_eq_act {s : State} {b τ : Nat} :
    (bankCat s b τ = .act) ↔ (s.bank b).isOpen τ = true ∧ s.mode.low τ = none := by
  unfold bankCat
  cases h : s.mode.low τ with
  | none => cases (s.bank b).isOpen τ <;> simp
  | some c =>
    have : c ≠ .act := (Mode.low_ne h).1
    simp [this]

theorem rankCat_eq_act {n : Nat} {s : State} {τ : Nat} :
    (rankCat n s τ = .act) ↔ (∃ b < n, (s.bank b).isOpen τ = true) ∧ s.mode.low τ = none := by
  unfold rankCat
  cases h : s.mode.low τ with
  | none =>
    by_cases hex : ∃ b < n, (s.bank b).isOpen τ = true
    · simp [hex]
    · simp only [Option.getD_none, hex, if_false]; simp
  | some c =>
    have : c ≠ .act := (Mode.low_ne h).1
    simp [this]

/-- Let time pass from `T` to `T'` when nothing is due before `T'`. -/
theorem Rel.advanceAt {std n T q r s σ ent} {f : Nat → State} (h : Rel std n T q r σ ent (accAt f n T))
    (hps : PS T s σ) {T' : Nat} (hT : T ≤ T') (hq : ∀ e ∈ q, T' ≤ e.1) (hf : ∀ τ, T ≤ τ → f τ = s) :
    Rel std n T' q r σ ent (accAt f n T') := by
  refine (h.advance hT hq).accCongr ?_ ?_ ?_ ?_ ?_ ?_
  · intro b hb
    refine countP_range_add hT (c := decide ((σ.bank b).status ≠ .idle) && decide (lowNow σ.mode ent = none)) ?_
    intro τ h1 h2
    rw [hf τ h1, Bool.eq_iff_iff, decide_eq_true_iff, bankCat_eq_act, hps.low h1, hps.isOpen h1,
      h.low_eq hq h1 h2, h.open_eq hb hq h2]
    simp
  · refine countP_range_add hT (c := decide (∃ b < n, (σ.bank b).status ≠ .idle) && decide (lowNow σ.mode ent = none)) ?_
    intro τ h1 h2
    have hiff : (∃ b < n, (s.bank b).isOpen τ = true) ↔ ∃ b < n, (σ.bank b).status ≠ .idle := by
      constructor <;> rintro ⟨b, hb, hx⟩ <;> refine ⟨b, hb, ?_⟩
      · rw [hps.isOpen h1, h.open_eq hb hq h2] at hx; simpa using hx
      · rw [hps.isOpen h1, h.open_eq hb hq h2]; simpa using hx
    rw [hf τ h1, Bool.eq_iff_iff, decide_eq_true_iff, rankCat_eq_act, hps.low h1,
      h.low_eq hq h1 h2, hiff]
    simp
  all_goals
    refine countP_range_add hT ?_
    intro τ h1 h2
    rw [hf τ h1, hps.low h1, h.low_eq hq h1 h2]

/-- Processing the queue up to time `T'`. -/
theorem process_rel {std n T q r s σ ent} {f : Nat → State} (h : Rel std n T q r σ ent (accAt f n T))
    (hps : PS T s σ) {T' : Nat} (hT : T ≤ T') (hf : ∀ τ, T ≤ τ → f τ = s) :
    ∃ σ' ent', Rel std n T' (rprocess std T' r q).2 (rprocess std T' r q).1 σ' ent' (accAt f n T') ∧
      PS T' s σ' ∧ ∀ e ∈ (rprocess std T' r q).2, T' < e.1 := by
  induction q generalizing r σ ent T with
  | nil =>
    exact ⟨σ, ent, h.advanceAt hps hT (by simp) hf, fun t ht => hps t (by omega), by simp [rprocess]⟩
  | cons e q ih =>
    by_cases he : e.1 ≤ T'
    · have hge : T ≤ e.1 := h.qge e (by simp)
      have hall : ∀ x ∈ e :: q, e.1 ≤ x.1 := by
        intro x hx
        rcases List.mem_cons.1 hx with rfl | hx
        · exact Nat.le_refl _
        · exact ((List.pairwise_cons.1 h.qord).1 x hx).le
      have h1 := h.advanceAt hps hge hall hf
      obtain ⟨σ', ent', h2, hs2⟩ := exec_rel (i := e.2) h1
      have := ih h2 (fun t ht => by rw [hs2 t ht]; exact hps t (by omega)) he (fun τ hτ => hf τ (by omega))
      simpa only [rprocess, he, if_true] using this
    · have hall : ∀ x ∈ e :: q, T' < x.1 := by
        intro x hx
        rcases List.mem_cons.1 hx with rfl | hx
        · omega
        · have := ((List.pairwise_cons.1 h.qord).1 x hx).le; omega
      have h1 := h.advanceAt hps hT (fun x hx => Nat.le_of_lt (hall x hx)) hf
      refine ⟨σ, ent, ?_, fun t ht => hps t (by omega), ?_⟩
      · simpa only [rprocess, he, if_false] using h1
      · simpa only [rprocess, he, if_false] using hall

/-- With nothing due, the relation holds for the settled state. -/
theorem Rel.settled {std n T q r s σ ent acc} (h : Rel std n T q r σ ent acc) (hps : PS T s σ)
    (hq : ∀ e ∈ q, T < e.1) : Rel std n T q r (s.settle T) ent acc := by
  have hself : σ.mode.settle T = σ.mode := by
    cases hm : σ.mode with
    | normal | sref | dsm => rfl
    | pd a e x =>
      cases x with
      | none => rfl
      | some y =>
        have := hq _ (h.mem_exit hm)
        simp only at this
        simp only [Mode.settle]; rw [if_neg (by omega)]
  have hsb : ∀ b < n, (σ.bank b).settle T = σ.bank b := by
    intro b hb
    unfold BankS.settle
    split
    · rename_i p hs
      have := hq _ (h.mem_opened hb hs)
      simp only at this
      rw [if_neg (by omega)]
    · rename_i p hs
      have := hq _ (h.mem_refreshing hb hs)
      simp only at this
      rw [if_neg (by omega)]
    · rfl
  have hp := hps T (Nat.le_refl _)
  refine h.congr ?_ ?_
  · rw [← hself]; exact (congrArg State.mode hp).symm
  · intro b hb
    rw [← hsb b hb]; exact (congrFun (congrArg State.bank hp) b).symm

end DRAMPower
