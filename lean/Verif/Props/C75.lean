import Verif.Lemmas.Measurement

/-!
# C75: measuring the currents of the data sheet on the simulator

After any lead-in the measurement loops of the data sheet (Spec/Measurement.lean) are run as commands; the core energy reported at the end
minus that reported at the beginning is the energy of the current that the loop measures.

* `C75_loop_partial`: `IDD0`, `IDD5`, `IDD5C`, `IDD5PB`, any number of repetitions.
* `C75_standing_partial`: `IDD2N`, `IDD3N`, `IDD2P`, `IDD3P`, `IDD6`, `IDD6DS`, any duration.
* `C75_burst_partial`: `IDD4R`, `IDD4W`, any number of bursts.

Partial: lead-ins without the power-down situations of `benignCmd`. Full statements `C75_loop_statement`, `C75_standing_statement`,
`C75_burst_statement`: any legal lead-in; proved for DDR4 (`C75_ddr4`), the second refuted otherwise (`C75_violation`).
-/

namespace DRAMPower
open Spec

variable {std : Std} {N : Nat} {ms : MemSpec} {sp : IfSpec} {ps : PowerSpec}

/-- Full statement for the loops: `cs` is the lead-in, `loop` the commands of the loop, repeated `n` times from `T` on. -/
def C75_loop_statement (std : Std) (Good : Std → MemSpec → List Cmd → Prop) : Prop :=
  ∀ (N : Nat) (ms : MemSpec) (sp : IfSpec) (ps : PowerSpec) (l : Loop) (r b b2 : Nat) (cs loop : List ICmd) (n T : Nat)
    (s0 s1 s2 q1 q2 : Simulator std N) (e1 e2 : Energy),
    ValidSpec std ms → Fits std ms ps → Good std ms (cs.map ICmd.core) → l.Measurable std ms ps b b2 → r < ms.numberOfRanks →
    loop.map ICmd.core = l.commands ps r b b2 → (∀ c ∈ cs, c.t ≤ T) →
    (∀ i < ms.numberOfRanks, AtRest std ms (forRank std i (cs.map ICmd.core)) T) →
    Simulator.init std N ms sp = .ok s0 → s0.run ms sp cs = .done s1 →
    s0.run ms sp (cs ++ laterI T (repeatedI loop (l.period ps) n)) = .done s2 →
    s1.calcCoreEnergy ms sp ps T = .ok (q1, e1) → s2.calcCoreEnergy ms sp ps (T + n * l.period ps) = .ok (q2, e2) →
    e2.total - e1.total = measuredEnergy ms ps (fun i d => if i = r then l.current d else d.i2n) (n * l.period ps)

/-- Full statement for the states: at `T` rank `i` is in state `k i` with `a i` open rows. -/
def C75_standing_statement (std : Std) (Good : Std → MemSpec → List Cmd → Prop) : Prop :=
  ∀ (N : Nat) (ms : MemSpec) (sp : IfSpec) (ps : PowerSpec) (cs : List ICmd) (T T' : Nat) (k : Nat → Cat) (a : Nat → Nat)
    (s0 s q1 q2 : Simulator std N) (e1 e2 : Energy),
    ValidSpec std ms → Fits std ms ps → Good std ms (cs.map ICmd.core) → (∀ c ∈ cs, c.t ≤ T) → T ≤ T' →
    (∀ i < ms.numberOfRanks, Standing std ms (forRank std i (cs.map ICmd.core)) T (k i) (a i) ∧ (k i = .act → a i = standbyBanks std ps)) →
    Simulator.init std N ms sp = .ok s0 → s0.run ms sp cs = .done s →
    s.calcCoreEnergy ms sp ps T = .ok (q1, e1) → s.calcCoreEnergy ms sp ps T' = .ok (q2, e2) →
    e2.total - e1.total = measuredEnergy ms ps (fun i d => standingCurrent d (k i)) (T' - T)

/-- Full statement for the bursts: reads (or writes) `rds` on rank `r` from `T` on, which fill the time until `T'`. -/
def C75_burst_statement (std : Std) (Good : Std → MemSpec → List Cmd → Prop) : Prop :=
  ∀ (N : Nat) (ms : MemSpec) (sp : IfSpec) (ps : PowerSpec) (cs rds : List ICmd) (write : Bool) (r T T' : Nat) (k : Nat → Cat) (a : Nat → Nat)
    (s0 s1 s2 q1 q2 : Simulator std N) (e1 e2 : Energy),
    ValidSpec std ms → Fits std ms ps → Good std ms ((cs ++ rds).map ICmd.core) → (∀ c ∈ cs, c.t ≤ T) → T ≤ T' → r < ms.numberOfRanks →
    (∀ c ∈ rds, c.type = (if write then .WR else .RD) ∧ c.co.rank = r ∧ T ≤ c.t ∧ c.t ≤ T') →
    Standing std ms (forRank std r (cs.map ICmd.core)) T .act (burstBanks std ps) →
    (∀ i < ms.numberOfRanks, i ≠ r → Standing std ms (forRank std i (cs.map ICmd.core)) T (k i) (a i) ∧ (k i = .act → a i = standbyBanks std ps)) →
    (rds.length : Rat) * burstTime std ps = ((T' - T : Nat) : Rat) * ps.tCK →
    Simulator.init std N ms sp = .ok s0 → s0.run ms sp cs = .done s1 → s0.run ms sp (cs ++ rds) = .done s2 →
    s1.calcCoreEnergy ms sp ps T = .ok (q1, e1) → s2.calcCoreEnergy ms sp ps T' = .ok (q2, e2) →
    e2.total - e1.total = measuredEnergy ms ps (fun i d => if i = r then (if write then d.i4w else d.i4r) else standingCurrent d (k i)) (T' - T)

/-! ## Proofs -/

theorem sum_mul_right {α : Type} (L : List α) (f : α → Rat) (c : Rat) : (L.map fun x => f x * c).sum = (L.map f).sum * c := by
  rw [mul_comm, ← sum_mul_left]
  simp only [mul_comm]

theorem coreEnergy_step {A B : List Cmd} {T T' n : Nat} {current : Nat → Domain → Rat}
    (h : ∀ d ∈ ps.domains, ∀ i < ms.numberOfRanks, rankCharge std ms ps d (forRank std i A) T' =
      rankCharge std ms ps d (forRank std i B) T + current i d * ((n : Rat) * ps.tCK)) :
    coreEnergy std ms ps A T' - coreEnergy std ms ps B T = measuredEnergy ms ps current n := by
  rw [sub_eq_iff_eq_add']
  unfold coreEnergy measuredEnergy
  rw [← mul_add, ← List.sum_map_add]
  congr 2
  refine List.map_congr_left fun d hd => ?_
  rw [← mul_add, ← sum_mul_right, ← List.sum_map_add]
  congr 2
  exact List.map_congr_left fun i hi => h d hd i (List.mem_range.1 hi)

theorem tameFrom_noPda : ∀ {g : List Cmd} {σ : State} {now : Nat}, (∀ c ∈ g, c.type ≠ .PDEA) → LegalFrom std ms σ now g → TameFrom std ms σ now g
  | [], _, _, _, _ => trivial
  | c :: _, _, _, hg, ⟨h0, h1, h2⟩ =>
    ⟨h0, ⟨h1, fun e => absurd e (hg c List.mem_cons_self)⟩, tameFrom_noPda (fun a ha => hg a (List.mem_cons_of_mem _ ha)) h2⟩

theorem tameFrom_append {g : List Cmd} (hg : ∀ c ∈ g, c.type ≠ .PDEA) : ∀ {h : List Cmd} {σ : State} {now : Nat},
    TameFrom std ms σ now h → LegalFrom std ms σ now (h ++ g) → TameFrom std ms σ now (h ++ g)
  | [], _, _, _, hl => tameFrom_noPda hg hl
  | _ :: _, _, _, ⟨h0, h1, h2⟩, ⟨_, _, l2⟩ => ⟨h0, h1, tameFrom_append hg h2 l2⟩

theorem tame_append {A g : List Cmd} (hA : TameTrace std ms A) (hl : LegalTrace std ms (A ++ g)) (hg : ∀ c ∈ g, c.type ≠ .PDEA) :
    TameTrace std ms (A ++ g) :=
  ⟨hl.ordered, hl.ranks, fun i hi => by
    have h := hl.legal i hi
    unfold forRank at h ⊢
    rw [List.filter_append] at h ⊢
    exact tameFrom_append (fun c hc => hg c (List.mem_filter.1 hc).1) (hA.tame i hi) h⟩

theorem loop_types {l : Loop} {r b b2 : Nat} : ∀ c ∈ l.commands ps r b b2, ¬ usesPowerDown c.type ∧ c.type ≠ .PDEA ∧ c.rank = r ∧
    unaddressed std c.type = false := by
  intro c hc
  cases l <;> simp only [Loop.commands, List.mem_cons, List.not_mem_nil, or_false] at hc
  case idd0 => rcases hc with rfl | rfl <;> simp [usesPowerDown, unaddressed]
  all_goals subst hc; simp [usesPowerDown, unaddressed]

theorem forRank_loop {l : Loop} {r b b2 : Nat} (i : Nat) : forRank std i (l.commands ps r b b2) = if i = r then l.commands ps r b b2 else [] := by
  unfold forRank
  split
  · subst i
    exact List.filter_eq_self.2 fun c hc => by obtain ⟨-, -, h1, h2⟩ := loop_types (std := std) c hc; simp [h1, h2]
  · rename_i hne
    exact List.filter_eq_nil_iff.2 fun c hc => by obtain ⟨-, -, h1, -⟩ := loop_types (std := std) c hc; simp [h1, Ne.symm hne]

theorem loop_sent {l : Loop} {r b b2 : Nat} : NotBefore (l.commands ps r b b2) (l.period ps) := by
  intro c hc
  cases l <;> simp only [Loop.commands, List.mem_cons, List.not_mem_nil, or_false] at hc
  case idd0 => rcases hc with rfl | rfl <;> simp [Loop.period]
  all_goals subst hc; exact Nat.zero_le _

theorem loop_trace {l : Loop} {r b b2 : Nat} (hv : ValidSpec std ms) (hf : Fits std ms ps) (hl : l.Measurable std ms ps b b2)
    (hr : r < ms.numberOfRanks) : LegalTrace std ms (l.commands ps r b b2) ∧
      MayFollow std ms (l.commands ps r b b2) (l.commands ps r b b2) (l.period ps) := by
  obtain ⟨h1, h2, -⟩ := loop_facts (r := r) hv hf hl
  refine ⟨⟨?_, fun c hc => .inr ?_, fun i _ => ?_⟩, ⟨loop_sent, fun i _ => ?_, .inl fun c hc => (loop_types (std := std) c hc).1⟩⟩
  · exact (legalFrom_times h1).2
  · rw [(loop_types (std := std) c hc).2.2.1]; exact hr
  · rw [forRank_loop]
    split
    · exact h1
    · trivial
  · rw [forRank_loop]
    split
    · exact h2
    · exact ⟨rfl, fun _ _ => rfl⟩

theorem C75_loop_partial (std : Std) : C75_loop_statement std TameTrace := by
  intro N ms sp ps l r b b2 cs loop n T s0 s1 s2 q1 q2 e1 e2 hv hf ht hl hr hc hT hrest hi r1 r2 h1 h2
  obtain ⟨ll, lf⟩ := loop_trace hv hf hl hr
  have hm : (cs ++ laterI T (repeatedI loop (l.period ps) n)).map ICmd.core =
      followed (cs.map ICmd.core) (repeated (l.commands ps r b b2) (l.period ps) n) T := by
    rw [List.map_append, laterI_core, repeatedI_core, hc]; rfl
  obtain ⟨lr, lrf⟩ := mayFollow_repeated ll lf n
  have hsent : NotBefore (cs.map ICmd.core) T := fun c hc => by obtain ⟨k, hk, rfl⟩ := List.mem_map.1 hc; exact hT k hk
  have hfol : MayFollow std ms (cs.map ICmd.core) (repeated (l.commands ps r b b2) (l.period ps) n) T :=
    ⟨hsent, hrest, .inl fun c hc => by
      obtain ⟨a, ha, e⟩ := mem_repeated hc
      rw [e]
      exact (loop_types (std := std) a ha).1⟩
  have hlegal := C74_legal ht.legalTrace lr hfol
  have htame : TameTrace std ms (followed (cs.map ICmd.core) (repeated (l.commands ps r b b2) (l.period ps) n) T) :=
    tame_append ht hlegal fun c hc => by
      obtain ⟨d, hd, rfl⟩ := List.mem_map.1 hc
      obtain ⟨a, ha, e⟩ := mem_repeated hd
      show d.type ≠ _
      rw [e]
      exact (loop_types (std := std) a ha).2.1
  have hsent2 : ∀ c ∈ cs ++ laterI T (repeatedI loop (l.period ps) n), c.t ≤ T + n * l.period ps := fun c hc =>
    notBefore_followed hsent lrf.sent c.core (by rw [← hm]; exact List.mem_map_of_mem hc)
  rw [C67_partial hv hf ht hi r1 hT h1, C67_partial hv hf (by rw [hm]; exact htame) hi r2 hsent2 h2, hm, coreEnergy_followed lr hfol,
    add_sub_cancel_left, coreEnergy_repeated ll lf]
  have : coreEnergy std ms ps (l.commands ps r b b2) (l.period ps) =
      measuredEnergy ms ps (fun i d => if i = r then l.current d else d.i2n) (l.period ps) := by
    unfold coreEnergy measuredEnergy
    congr 2
    refine List.map_congr_left fun d _ => ?_
    rw [← sum_mul_right]
    congr 2
    refine List.map_congr_left fun i _ => ?_
    rw [forRank_loop]
    by_cases hir : i = r
    · simp only [if_pos hir]
      exact (loop_facts hv hf hl).2.2 d
    · simp only [if_neg hir]
      exact charge_nil _
  rw [this]
  unfold measuredEnergy
  rw [mul_left_comm, ← sum_mul_left]
  congr 2
  refine List.map_congr_left fun d _ => ?_
  push_cast
  ring

theorem standing_current (hv : ValidSpec std ms) (hf : Fits std ms ps) {k : Cat} {a : Nat} (ha : k = .act → a = standbyBanks std ps) (d : Domain) :
    stateCurrent std ps d a k = standingCurrent d k := by
  have hB : (ps.banks : Rat) ≠ 0 := by
    have := hv.banks
    have := hf.banks
    exact_mod_cast (by omega : ps.banks ≠ 0)
  cases k with
  | act =>
    rw [ha rfl]
    show background std ps d (standbyBanks std ps) = d.i3n
    unfold standbyBanks
    split
    · rename_i h; exact PowerSpec.background_all_ddr h d hB
    · rename_i h
      exact PowerSpec.background_one_lp (by cases std <;> simp_all) d hB
  | pre | pda | pdp | sref | dsm => rfl

theorem C75_standing_partial (std : Std) : C75_standing_statement std TameTrace := by
  intro N ms sp ps cs T T' k a s0 s q1 q2 e1 e2 hv hf ht hT hTT hs hi r h1 h2
  rw [C67_partial hv hf ht hi r hT h1, C67_partial hv hf ht hi r (fun c hc => Nat.le_trans (hT c hc) hTT) h2]
  refine coreEnergy_step fun d _ i hi => ?_
  obtain ⟨st, ha⟩ := hs i hi
  have := st.charge (s := ps) (d := d) (g := []) (by simp) hTT
  rw [List.append_nil] at this
  rw [this, standing_current hv hf ha]
  simp

theorem C75_burst_partial (std : Std) : C75_burst_statement std TameTrace := by
  intro N ms sp ps cs rds write r T T' k a s0 s1 s2 q1 q2 e1 e2 hv hf ht hT hTT hr hrds hact hs hlen hi r1 r2 h1 h2
  have ht1 : TameTrace std ms (cs.map ICmd.core) := by
    rw [List.map_append] at ht
    refine ⟨(List.pairwise_append.1 ht.ordered).1, fun c hc => ht.ranks c (List.mem_append_left _ hc), fun i hi => ?_⟩
    have := ht.tame i hi
    unfold forRank at this ⊢
    rw [List.filter_append] at this
    exact tameFrom_prefix this
  have hT2 : ∀ c ∈ cs ++ rds, c.t ≤ T' := fun c hc => by
    rcases List.mem_append.1 hc with hc | hc
    · exact Nat.le_trans (hT c hc) hTT
    · exact (hrds c hc).2.2.2
  rw [C67_partial hv hf ht1 hi r1 hT h1, C67_partial hv hf ht hi r2 hT2 h2]
  refine coreEnergy_step fun d _ i hi => ?_
  have hun : ∀ c ∈ rds, unaddressed std c.type = false := fun c hc => by
    rw [(hrds c hc).1]
    cases write <;> simp [unaddressed]
  have happ : forRank std i ((cs ++ rds).map ICmd.core) = forRank std i (cs.map ICmd.core) ++ if i = r then rds.map ICmd.core else [] := by
    unfold forRank
    rw [List.map_append, List.filter_append]
    congr 1
    split
    · subst i
      refine List.filter_eq_self.2 fun c hc => ?_
      obtain ⟨x, hx, rfl⟩ := List.mem_map.1 hc
      have e1 : x.core.rank = r := (hrds x hx).2.1
      have e2 : unaddressed std x.core.type = false := hun x hx
      simp [e1, e2]
    · rename_i hne
      refine List.filter_eq_nil_iff.2 fun c hc => ?_
      obtain ⟨x, hx, rfl⟩ := List.mem_map.1 hc
      have e1 : x.core.rank = r := (hrds x hx).2.1
      simp [e1, Ne.symm hne]
  rw [happ]
  by_cases hir : i = r
  · subst hir
    simp only [if_true]
    rw [hact.charge (s := ps) (d := d) (fun c hc => ?_) hTT]
    · have hsum : ((rds.map ICmd.core).map fun c => commandCharge std ps d c.type).sum =
          (rds.length : Rat) * (((if write then d.i4w else d.i4r) - background std ps d (burstBanks std ps)) * burstTime std ps) := by
        have hc : ∀ c ∈ rds, commandCharge std ps d c.core.type =
            ((if write then d.i4w else d.i4r) - background std ps d (burstBanks std ps)) * burstTime std ps := fun c hc => by
          have : c.core.type = if write then .WR else .RD := (hrds c hc).1
          rw [this]
          cases write <;> rfl
        rw [List.map_map]
        refine (congrArg List.sum (List.map_congr_left hc)).trans ?_
        rw [List.map_const', List.sum_replicate, nsmul_eq_mul]
      rw [hsum]
      have : (rds.length : Rat) * (((if write then d.i4w else d.i4r) - background std ps d (burstBanks std ps)) * burstTime std ps) =
          ((if write then d.i4w else d.i4r) - background std ps d (burstBanks std ps)) * ((rds.length : Rat) * burstTime std ps) := by ring
      rw [this, hlen]
      show _ + background std ps d (burstBanks std ps) * _ + _ = _
      ring
    · obtain ⟨x, hx, rfl⟩ := List.mem_map.1 hc
      refine ⟨?_, (hrds x hx).2.2.1⟩
      have : x.core.type = if write then .WR else .RD := (hrds x hx).1
      unfold readOrWrite
      rw [this]
      cases write <;> simp
  · simp only [if_neg hir, List.append_nil]
    obtain ⟨st, ha⟩ := hs i hi hir
    have := st.charge (s := ps) (d := d) (g := []) (by simp) hTT
    rw [List.append_nil] at this
    rw [this, standing_current hv hf ha]
    simp

/-- DDR4: all three full statements. -/
theorem C75_ddr4 : C75_loop_statement .ddr4 LegalTrace ∧ C75_standing_statement .ddr4 LegalTrace ∧ C75_burst_statement .ddr4 LegalTrace :=
  ⟨fun N ms sp ps l r b b2 cs loop n T s0 s1 s2 q1 q2 e1 e2 hv hf ht =>
      C75_loop_partial .ddr4 N ms sp ps l r b b2 cs loop n T s0 s1 s2 q1 q2 e1 e2 hv hf (legal_tame_ddr4 ht),
    fun N ms sp ps cs T T' k a s0 s q1 q2 e1 e2 hv hf ht =>
      C75_standing_partial .ddr4 N ms sp ps cs T T' k a s0 s q1 q2 e1 e2 hv hf (legal_tame_ddr4 ht),
    fun N ms sp ps cs rds write r T T' k a s0 s1 s2 q1 q2 e1 e2 hv hf ht =>
      C75_burst_partial .ddr4 N ms sp ps cs rds write r T T' k a s0 s1 s2 q1 q2 e1 e2 hv hf (legal_tame_ddr4 ht)⟩

/-! ## Counterexample -/

/-- The reported core energies of a trace at `t` and at `t'`. -/
def c75Totals (std : Std) (ms : MemSpec) (cs : List ICmd) (t t' : Nat) : Option (Rat × Rat) :=
  match Simulator.init std 64 ms c53If with
  | .error _ => none
  | .ok s => match s.run ms c53If cs with
    | .done s => match s.calcCoreEnergy ms c53If c53Power t, s.calcCoreEnergy ms c53If c53Power t' with
      | .ok (_, e), .ok (_, f) => some (e.total, f.total)
      | _, _ => none
    | _ => none

theorem c75Totals_ok {std : Std} {ms : MemSpec} {cs : List ICmd} {t t' : Nat} {x y : Rat} (h : c75Totals std ms cs t t' = some (x, y)) :
    ∃ s0 s q1 q2 e f, Simulator.init std 64 ms c53If = .ok s0 ∧ s0.run ms c53If cs = .done s ∧
      s.calcCoreEnergy ms c53If c53Power t = .ok (q1, e) ∧ s.calcCoreEnergy ms c53If c53Power t' = .ok (q2, f) ∧ e.total = x ∧ f.total = y := by
  unfold c75Totals at h
  cases h0 : Simulator.init std 64 ms c53If with
  | error e => simp only [h0] at h; cases h
  | ok s0 =>
    simp only [h0] at h
    cases h1 : s0.run ms c53If cs with
    | refused e => simp only [h1] at h; cases h
    | halfway c e => simp only [h1] at h; cases h
    | done s =>
      simp only [h1] at h
      cases h2 : s.calcCoreEnergy ms c53If c53Power t with
      | error e => simp only [h2] at h; cases h
      | ok x =>
        cases h3 : s.calcCoreEnergy ms c53If c53Power t' with
        | error e => simp only [h2, h3] at h; cases h
        | ok y =>
          simp only [h2, h3] at h
          cases h
          exact ⟨s0, s, x.1, y.1, x.2, y.2, rfl, h1, h2, h3, rfl, rfl⟩

/-- DDR5, LPDDR4, LPDDR5, LPDDR6: after a refresh that ends when an active power-down begins, `IDD2N` cannot be measured. -/
theorem C75_violation (std : Std) (hs : std ≠ .ddr4) : ¬ C75_standing_statement std LegalTrace := by
  intro h
  have hw : ∃ x y, c75Totals std Ex.ms c67Trace 60 70 = some (x, y) ∧ y - x ≠ measuredEnergy Ex.ms c53Power (fun _ d => standingCurrent d .pre) 10 := by
    have hd : (match c75Totals std Ex.ms c67Trace 60 70 with
        | some (x, y) => decide (y - x ≠ measuredEnergy Ex.ms c53Power (fun _ d => standingCurrent d .pre) 10)
        | none => false) = true := by
      cases std
      · exact absurd rfl hs
      all_goals decide +kernel
    cases hc : c75Totals std Ex.ms c67Trace 60 70 with
    | none => rw [hc] at hd; cases hd
    | some x => rw [hc] at hd; exact ⟨x.1, x.2, rfl, of_decide_eq_true hd⟩
  obtain ⟨x, y, hx, hne⟩ := hw
  obtain ⟨s0, s, q1, q2, e, f, k0, k1, k2, k3, rfl, rfl⟩ := c75Totals_ok hx
  exact hne (h 64 Ex.ms c53If c53Power c67Trace 60 70 (fun _ => .pre) (fun _ => 0) s0 s q1 q2 e f (by cases std <;> decide +kernel) (c67Fits std)
    (by cases std <;> decide +kernel) (by decide) (by decide) (by cases std <;> decide +kernel) k0 k1 k2 k3)

/-! ## The hypotheses can be met -/

/-- A device with the refresh times of `exampleSpec`. -/
def c75Ms : MemSpec := { Ex.ms with tRFC := 25, tRFCsb := 15, tRFCPB := 15, tRFCDB := 15, perTwoBankOffset := 2 }

/-- The loops of the standards. -/
def c75Loops : Std → List Loop
  | .ddr4 => [.idd0, .idd5]
  | .ddr5 => [.idd0, .idd5, .idd5c]
  | .lpddr4 => [.idd0, .idd5, .idd5pb]
  | .lpddr5 => [.idd0, .idd5, .idd5pb, .idd5pb2]
  | .lpddr6 => [.idd0, .idd5, .idd5db]

/-- The bank of the loop. -/
def c75Bank (l : Loop) : Nat := if l = .idd5db then 1 else 0

/-- A loop on rank 1 as simulator commands. -/
def c75Loop (l : Loop) : List ICmd := (l.commands c53Power 1 (c75Bank l) 0).map fun c =>
  { t := c.t, type := c.type, co := { rank := c.rank, bank := c.bank }, dbank := c.dbank }

example (std : Std) : ValidSpec std c75Ms ∧ Fits std c75Ms c53Power ∧ TameTrace std c75Ms ((c74Example std).map ICmd.core) ∧
    (∀ c ∈ c74Example std, c.t ≤ 60) ∧ (∀ i < 2, AtRest std c75Ms (forRank std i ((c74Example std).map ICmd.core)) 60) := by
  refine ⟨?_, ⟨rfl, rfl, fun _ => rfl, by decide⟩, ?_, ?_, ?_⟩ <;> cases std <;> decide +kernel

/-- Every loop, twice, on rank 1 after the trace of C74. -/
example (std : Std) : (c75Totals std c75Ms (c74Example std) 60 60).isSome = true ∧ ∀ l ∈ c75Loops std, l.Measurable std c75Ms c53Power (c75Bank l) 0 ∧
    (c75Loop l).map ICmd.core = l.commands c53Power 1 (c75Bank l) 0 ∧
    (c75Totals std c75Ms (c74Example std ++ laterI 60 (repeatedI (c75Loop l) (l.period c53Power) 2)) (60 + 2 * l.period c53Power)
      (60 + 2 * l.period c53Power)).isSome = true := by
  cases std <;> decide +kernel

/-- Rank 1 in self-refresh, rank 0 in active power-down with all (DDR) rows open. -/
def c75Standing : List ICmd := [{ t := 0, type := .ACT }, { t := 4, type := .ACT, co := { bank := 1 }, dbank := 0 }, { t := 8, type := .ACT, co := { bank := 2 }, dbank := 0 },
  { t := 12, type := .ACT, co := { bank := 3 }, dbank := 0 }, { t := 16, type := .SREFEN, co := { rank := 1 } }, { t := 20, type := .PDEA }]

example (std : Std) : TameTrace std c75Ms (c75Standing.map ICmd.core) ∧ (∀ c ∈ c75Standing, c.t ≤ 60) ∧
    Standing std c75Ms (forRank std 0 (c75Standing.map ICmd.core)) 60 .pda 4 ∧ Standing std c75Ms (forRank std 1 (c75Standing.map ICmd.core)) 60 .sref 0 ∧
    (c75Totals std c75Ms c75Standing 60 100).isSome = true := by
  refine ⟨?_, ?_, ?_, ?_, ?_⟩ <;> cases std <;> decide +kernel

/-- As many open rows as `IDD4R` is measured with. -/
def c75Open (std : Std) : List ICmd := (List.range (burstBanks std c53Power)).map fun b => { t := 4 * b, type := .ACT, co := { bank := b }, dbank := 0 }

/-- Two reads. -/
def c75Reads : List ICmd := [40, 48].map fun t => { t := t, type := .RD, nBits := 64, data := some [1, 2, 3, 4, 5, 6, 7, 8] }

/-- Their bursts take 8 cycles each, or 4 if there is a faster data clock. -/
def c75End (std : Std) : Nat := if std = .lpddr5 then 48 else 56

example (std : Std) (hs : std ≠ .lpddr6) : TameTrace std c75Ms ((c75Open std ++ c75Reads).map ICmd.core) ∧ (∀ c ∈ c75Open std, c.t ≤ 40) ∧
    (∀ c ∈ c75Reads, c.type = .RD ∧ c.co.rank = 0 ∧ 40 ≤ c.t ∧ c.t ≤ c75End std) ∧
    Standing std c75Ms (forRank std 0 ((c75Open std).map ICmd.core)) 40 .act (burstBanks std c53Power) ∧
    Standing std c75Ms (forRank std 1 ((c75Open std).map ICmd.core)) 40 .pre 0 ∧
    (c75Reads.length : Rat) * burstTime std c53Power = ((c75End std - 40 : Nat) : Rat) * c53Power.tCK ∧
    (c75Totals std c75Ms (c75Open std) 40 40).isSome = true ∧ (c75Totals std c75Ms (c75Open std ++ c75Reads) (c75End std) (c75End std)).isSome = true := by
  refine ⟨?_, ?_, ?_, ?_, ?_, ?_, ?_, ?_⟩ <;> cases std <;> first | exact absurd rfl hs | decide +kernel

end DRAMPower
