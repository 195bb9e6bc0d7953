import Verif.Sim.Step

/-!
# Legal histories: the rank-local machine follows the reference timeline
-/

namespace DRAMPower

open Spec

theorem accAt_congr {f g : Nat → State} {n T : Nat} (h : ∀ τ < T, f τ = g τ) : accAt f n T = accAt g n T := by
  have key : ∀ (p : State → Nat → Bool), (List.range T).countP (fun τ => p (f τ) τ) = (List.range T).countP (fun τ => p (g τ) τ) := by
    intro p
    apply List.countP_congr
    intro τ hτ
    rw [h τ (List.mem_range.1 hτ)]
  unfold accAt
  congr 1
  · funext b; exact key fun s τ => decide (bankCat s b τ = .act)
  · exact key fun s τ => decide (rankCat n s τ = .act)
  · exact key fun s τ => decide (s.mode.low τ = some .pda)
  · exact key fun s τ => decide (s.mode.low τ = some .pdp)
  · exact key fun s τ => decide (s.mode.low τ = some .sref)
  · exact key fun s τ => decide (s.mode.low τ = some .dsm)

theorem Spec.TameFrom.times {std ms} {h : List Cmd} : ∀ {s now}, TameFrom std ms s now h → TimesFrom now h := by
  induction h with
  | nil => intros; trivial
  | cons c h ih => intro s now hl; exact ⟨hl.1, ih hl.2.2⟩

theorem TimesFrom.mem_ge {now : Nat} {h : List Cmd} (ht : TimesFrom now h) : ∀ c ∈ h, now ≤ c.t := by
  induction h generalizing now with
  | nil => simp
  | cons c h ih =>
    intro x hx
    rcases List.mem_cons.1 hx with rfl | hx
    · exact ht.1
    · have := ih ht.2 x hx; have := ht.1; omega

/-- The machine after a legal history. -/
theorem rrun_rel {std ms} (hv : ValidSpec std ms) {f : Nat → State} {h : List Cmd} :
    ∀ {r q s σ ent now}, Rel std ms.numberOfBanks now q r σ ent (accAt f ms.numberOfBanks now) → PS now s σ →
    SpecInv std ms s now → TameFrom std ms s now h →
    (∀ τ, now ≤ τ → f τ = (h.filter (·.t ≤ τ)).foldl (apply std ms) s) →
    ∃ r' q' σ' ent', rrun std ms (r, q) h = .ok (r', q') ∧
      Rel std ms.numberOfBanks (endTime now h) q' r' σ' ent' (accAt f ms.numberOfBanks (endTime now h)) ∧
      PS (endTime now h) (h.foldl (apply std ms) s) σ' ∧
      SpecInv std ms (h.foldl (apply std ms) s) (endTime now h) ∧
      ∀ τ, endTime now h ≤ τ → f τ = h.foldl (apply std ms) s := by
  induction h with
  | nil =>
    intro r q s σ ent now hR hps hi _ hf
    exact ⟨r, q, σ, ent, rfl, hR, hps, hi, by intro τ hτ; rw [hf τ hτ]; rfl⟩
  | cons c h ih =>
    intro r q s σ ent now hR hps hi hl hf
    obtain ⟨hle, hcmd, hrest⟩ := hl
    have htimes : TimesFrom c.t h := hrest.times
    -- up to the command
    let f' : Nat → State := fun τ => if τ < c.t then f τ else s
    have hf' : ∀ τ, now ≤ τ → f' τ = s := by
      intro τ hτ
      simp only [f']
      split
      · rename_i hlt
        rw [hf τ hτ]
        have : (c :: h).filter (·.t ≤ τ) = [] := by
          rw [List.filter_eq_nil_iff]
          intro x hx
          rcases List.mem_cons.1 hx with rfl | hx
          · simp; omega
          · have := htimes.mem_ge x hx; simp; omega
        rw [this]; rfl
      · rfl
    have hR' : Rel std ms.numberOfBanks now q r σ ent (accAt f' ms.numberOfBanks now) := by
      rw [accAt_congr (g := f)]
      · exact hR
      · intro τ hτ
        have : τ < c.t := by omega
        simp [f', this]
    obtain ⟨σ1, ent1, h1, hps1, hq1⟩ := process_rel hR' hps hle hf'
    have h2 := h1.settled hps1 hq1
    obtain ⟨r2, imps, ent2, hh, h3⟩ := handle_rel hv h2 hq1 (hi.settle hle) hcmd
    have h3' : Rel std ms.numberOfBanks c.t (imps.foldl (fun q i => rinsert i q) (rprocess std c.t r q).2) r2
        (apply std ms s c) ent2 (accAt f ms.numberOfBanks c.t) := by
      rw [← accAt_congr (f := f')]
      · exact h3
      · intro τ hτ; simp [f', hτ]
    obtain ⟨r', q', σ', ent', g1, g2, g3, g4, g5⟩ := ih h3' (fun t _ => rfl) (apply_inv hi hle hcmd) hrest (by
      intro τ hτ
      rw [hf τ (by omega), List.filter_cons_of_pos (by simpa using hτ), List.foldl_cons])
    refine ⟨r', q', σ', ent', ?_, g2, g3, g4, g5⟩
    simp only [rrun, rstep, hh]
    exact g1

/-! ## Initial state -/

theorem init_rel {std ms} (hv : ValidSpec std ms) (f : Nat → State) :
    Rel std ms.numberOfBanks 0 [] { nBanks := ms.numberOfBanks } {} false (accAt f ms.numberOfBanks 0) := by
  have tr0 : ∀ {k}, k = 0 → Tr {} 0 k false := by
    intro k hk
    subst hk
    exact ⟨rfl, by simp, rfl⟩
  refine ⟨rfl, hv.banks, by simp, by simp, ?_, by simp, rfl, ?_, ?_, ?_, trivial, by simp⟩
  · intro b _; rfl
  · intro b _
    refine ⟨rfl, (tr0 (by simp [accAt])).cast rfl, by simp, ⟨rfl, rfl⟩, rfl, by simp, by simp, by simp, by simp, by simp⟩
  · exact ⟨rfl, (tr0 (by simp [accAt])).cast rfl, (tr0 (by simp [accAt])).cast rfl, (tr0 (by simp [accAt])).cast rfl,
      (tr0 (by simp [accAt])).cast rfl, by simp, by simp, by simp⟩
  · exact (tr0 (by simp [accAt])).cast (by simp)

/-! ## No deep sleep outside LPDDR5 -/

theorem apply_mode_dsm {std ms s c} (h : s.mode ≠ .dsm) (hc : c.type ≠ .DSMEN) : (apply std ms s c).mode ≠ .dsm := by
  have hs : (s.settle c.t).mode ≠ .dsm := by
    cases hm : s.mode with
    | dsm => exact absurd hm h
    | normal | sref => simp [State.settle, hm, Mode.settle]
    | pd a e x =>
      cases x with
      | none => simp [State.settle, hm, Mode.settle]
      | some x => simp only [State.settle, hm, Mode.settle]; split <;> simp
  unfold apply
  generalize s.settle c.t = s' at hs
  cases hty : c.type <;> simp only [State.onBanks]
  case DSMEN => exact absurd hty hc
  case PDXA => split <;> simp_all
  case PDXP => split <;> simp_all
  all_goals first | exact hs | simp

theorem foldl_mode_dsm {std ms} {l : List Cmd} : ∀ {s : State}, s.mode ≠ .dsm → (∀ c ∈ l, c.type ≠ .DSMEN) →
    (l.foldl (apply std ms) s).mode ≠ .dsm := by
  induction l with
  | nil => intro s h _; exact h
  | cons c l ih =>
    intro s h hc
    exact ih (apply_mode_dsm h (hc c (by simp))) (fun x hx => hc x (by simp [hx]))

theorem Spec.TameFrom.supports {std ms} {h : List Cmd} : ∀ {s now}, TameFrom std ms s now h →
    ∀ c ∈ h, supports std c.type = true := by
  induction h with
  | nil => intro s now _ c hc; simp at hc
  | cons c h ih =>
    intro s now hl x hx
    rcases List.mem_cons.1 hx with rfl | hx
    · exact hl.2.1.1.1
    · exact ih hl.2.2 x hx

theorem no_dsm {std ms h} (hl : Tame std ms h) (hs : std ≠ .lpddr5) (τ : Nat) : (stateAt std ms h τ).mode ≠ .dsm := by
  refine foldl_mode_dsm (by simp) ?_
  intro c hc ht
  have := TameFrom.supports hl c (List.mem_filter.1 hc).1
  rw [ht] at this
  simp [Spec.supports] at this
  exact hs this

/-! ## Reading the statistics -/

theorem bankCat_low {s : State} {b τ : Nat} {c : Cat} (hc : c ≠ .act ∧ c ≠ .pre) : bankCat s b τ = c ↔ s.mode.low τ = some c := by
  unfold bankCat
  cases s.mode.low τ with
  | none =>
    simp only [Option.getD_none]
    constructor
    · intro h; split at h <;> simp_all
    · simp
  | some c' => simp

theorem rankCat_low {n : Nat} {s : State} {τ : Nat} {c : Cat} (hc : c ≠ .act ∧ c ≠ .pre) : rankCat n s τ = c ↔ s.mode.low τ = some c := by
  unfold rankCat
  cases s.mode.low τ with
  | none =>
    simp only [Option.getD_none]
    constructor
    · intro h; split at h <;> simp_all
    · simp
  | some c' => simp

/-- The six categories partition the cycles. -/
theorem count_partition (g : Nat → Cat) (t : Nat) :
    (List.range t).countP (fun τ => g τ = .act) + (List.range t).countP (fun τ => g τ = .pre) +
    (List.range t).countP (fun τ => g τ = .pda) + (List.range t).countP (fun τ => g τ = .pdp) +
    (List.range t).countP (fun τ => g τ = .sref) + (List.range t).countP (fun τ => g τ = .dsm) = t := by
  induction t with
  | zero => simp
  | succ t ih =>
    simp only [List.range_succ, List.countP_append, List.countP_singleton]
    cases g t <;> simp <;> omega

theorem usub_add {a b : Nat} : usub (a + b) b = a := by
  simp [usub]

section
variable {std : Std} {ms : MemSpec} {h : List Cmd} {q : List (Nat × Imp)} {r : Rank} {σ : State} {ent : Bool} {t : Nat}

theorem accAt_dsm_zero (hl : Tame std ms h) (hs : std ≠ .lpddr5) (n t : Nat) : (accAt (stateAt std ms h) n t).dsm = 0 := by
  show List.countP _ _ = 0
  rw [List.countP_eq_zero]
  intro τ _
  have := no_dsm hl hs τ
  cases hm : (stateAt std ms h τ).mode with
  | dsm => exact absurd hm this
  | normal => simp [Mode.low]
  | sref s => simp only [Mode.low]; split <;> simp
  | pd a e x => simp only [Mode.low]; split <;> cases a <;> simp

theorem count_low {g : Nat → Cat} {f : Nat → State} {c : Cat} (hg : ∀ τ, g τ = c ↔ (f τ).mode.low τ = some c) (t : Nat) :
    (List.range t).countP (fun τ => (f τ).mode.low τ = some c) = (List.range t).countP (fun τ => g τ = c) := by
  apply List.countP_congr
  intro τ _
  simp only [decide_eq_true_eq]
  exact (hg τ).symm

theorem bankStats_eq (hl : Tame std ms h)
    (hR : Rel std ms.numberOfBanks t q r σ ent (accAt (stateAt std ms h) ms.numberOfBanks t))
    {b : Nat} (hb : b < ms.numberOfBanks) :
    (bankStats std r t b).cycles = Spec.cycles (fun k => bankTime std ms h b k t) := by
  have hact := (hR.bank b hb).tr.count
  have hm := hR.modeRel
  have hpda := hm.pda.count
  have hpdp := hm.pdp.count
  have hsref := hm.sref.count
  have hdsm := hm.dsm.count
  have epda : (accAt (stateAt std ms h) ms.numberOfBanks t).pda = bankTime std ms h b .pda t :=
    count_low (fun τ => bankCat_low (by simp)) t
  have epdp : (accAt (stateAt std ms h) ms.numberOfBanks t).pdp = bankTime std ms h b .pdp t :=
    count_low (fun τ => bankCat_low (by simp)) t
  have esref : (accAt (stateAt std ms h) ms.numberOfBanks t).sref = bankTime std ms h b .sref t :=
    count_low (fun τ => bankCat_low (by simp)) t
  have edsm : (accAt (stateAt std ms h) ms.numberOfBanks t).dsm = bankTime std ms h b .dsm t :=
    count_low (fun τ => bankCat_low (by simp)) t
  have eact : (accAt (stateAt std ms h) ms.numberOfBanks t).act b = bankTime std ms h b .act t := rfl
  have hz : std ≠ .lpddr5 → bankTime std ms h b .dsm t = 0 := fun hs => by
    rw [← edsm]; exact accAt_dsm_zero hl hs _ _
  have hsum : bankTime std ms h b .act t + bankTime std ms h b .pre t + bankTime std ms h b .pda t +
      bankTime std ms h b .pdp t + bankTime std ms h b .sref t + bankTime std ms h b .dsm t = t :=
    count_partition (category std ms h b) t
  rw [epda] at hpda; rw [epdp] at hpdp; rw [esref, edsm] at hsref; rw [edsm] at hdsm; rw [eact] at hact
  have hpre : usub t (bankTime std ms h b .act t + (bankTime std ms h b .pda t + bankTime std ms h b .pdp t +
      (bankTime std ms h b .sref t + bankTime std ms h b .dsm t))) = bankTime std ms h b .pre t := by
    unfold usub; split <;> omega
  cases std <;> simp only [bankStats, Spec.cycles, hact, hpda, hpdp, hsref, hdsm, hpre, usub_add]
  · have := hz (by simp); rw [this]; rfl
  · have := hz (by simp); rw [this]; rfl

theorem rankStats_eq (hl : Tame std ms h)
    (hR : Rel std ms.numberOfBanks t q r σ ent (accAt (stateAt std ms h) ms.numberOfBanks t)) :
    rankStats std r t = Spec.cycles (fun k => rankTime std ms h k t) := by
  have hact := hR.ract.count
  have hm := hR.modeRel
  have hpda := hm.pda.count
  have hpdp := hm.pdp.count
  have hsref := hm.sref.count
  have hdsm := hm.dsm.count
  have epda : (accAt (stateAt std ms h) ms.numberOfBanks t).pda = rankTime std ms h .pda t :=
    count_low (fun τ => rankCat_low (by simp)) t
  have epdp : (accAt (stateAt std ms h) ms.numberOfBanks t).pdp = rankTime std ms h .pdp t :=
    count_low (fun τ => rankCat_low (by simp)) t
  have esref : (accAt (stateAt std ms h) ms.numberOfBanks t).sref = rankTime std ms h .sref t :=
    count_low (fun τ => rankCat_low (by simp)) t
  have edsm : (accAt (stateAt std ms h) ms.numberOfBanks t).dsm = rankTime std ms h .dsm t :=
    count_low (fun τ => rankCat_low (by simp)) t
  have eact : (accAt (stateAt std ms h) ms.numberOfBanks t).ract = rankTime std ms h .act t := rfl
  have hz : std ≠ .lpddr5 → rankTime std ms h .dsm t = 0 := fun hs => by
    rw [← edsm]; exact accAt_dsm_zero hl hs _ _
  have hsum : rankTime std ms h .act t + rankTime std ms h .pre t + rankTime std ms h .pda t +
      rankTime std ms h .pdp t + rankTime std ms h .sref t + rankTime std ms h .dsm t = t :=
    count_partition (rankCategory std ms h) t
  rw [epda] at hpda; rw [epdp] at hpdp; rw [esref, edsm] at hsref; rw [edsm] at hdsm; rw [eact] at hact
  have hpre : usub t (rankTime std ms h .act t + (rankTime std ms h .pda t + rankTime std ms h .pdp t +
      (rankTime std ms h .sref t + rankTime std ms h .dsm t))) = rankTime std ms h .pre t := by
    unfold usub; split <;> omega
  cases std <;> simp only [rankStats, Spec.cycles, hact, hpda, hpdp, hsref, hdsm, hpre, usub_add]
  · have := hz (by simp); rw [this]; rfl
  · have := hz (by simp); rw [this]; rfl
  · have := hz (by simp); rw [this]; rfl

end

/-- One rank: a legal history is accepted, and afterwards the relation holds at every query time. -/
theorem rank_main {std ms h} (hv : ValidSpec std ms) (hl : Tame std ms h) :
    ∃ s, rrun std ms ({ nBanks := ms.numberOfBanks }, []) h = .ok s ∧
      ∀ t, endTime 0 h ≤ t → ∃ σ ent,
        Rel std ms.numberOfBanks t (rproc std t s).2 (rproc std t s).1 σ ent (accAt (stateAt std ms h) ms.numberOfBanks t) ∧
        PS t (h.foldl (apply std ms) {}) σ ∧ ∀ e ∈ (rproc std t s).2, t < e.1 := by
  obtain ⟨r, q, σ, ent, h1, h2, h3, h4, h5⟩ := rrun_rel hv (f := stateAt std ms h) (h := h)
    (init_rel hv _) (fun t _ => rfl) (init_inv std ms) hl (fun τ _ => rfl)
  refine ⟨(r, q), h1, ?_⟩
  intro t ht
  exact process_rel h2 h3 ht h5

end DRAMPower
