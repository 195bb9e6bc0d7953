import Verif.Sim.HandleMode

/-!
# Every permitted command preserves the simulation relation; legal histories
-/

namespace DRAMPower

open Spec

/-! ## Facts about the timeline alone -/

/-- Invariant of legal histories of the timeline. -/
structure SpecInv (std : Std) (ms : MemSpec) (s : State) (now : Nat) : Prop where
  preNow : ∀ b p, (s.bank b).preAt = some p → p ≤ now
  preOrd : ∀ b p0 p, (s.bank b).preAt = some p0 → (s.bank b).status = .opened (some p) → p0 ≤ p
  pdExit : ∀ a e, s.mode = .pd a e none → ∀ t, now ≤ t → e ≤ pdTime std ms (s.settle t) t

theorem State.settle_settle {t t' : Nat} (h : t ≤ t') (s : State) : (s.settle t).settle t' = s.settle t' := by
  unfold State.settle
  simp only [BankS.settle_settle h, Mode.settle_settle h]

theorem Mode.settle_pd_none {t : Nat} {m : Mode} {a : Bool} {e : Nat} (h : m.settle t = .pd a e none) : m = .pd a e none := by
  cases m with
  | pd a' e' x =>
    cases x with
    | none => exact h
    | some x =>
      simp only [Mode.settle] at h
      split at h
      · exact absurd h (by simp)
      · exact absurd h (by simp)
  | normal | sref | dsm => exact absurd h (by simp [Mode.settle])

theorem BankS.settle_cases (t : Nat) (b : BankS) :
    b.settle t = b ∨ (∃ p, b.status = .opened (some p) ∧ p ≤ t ∧ b.settle t = { b with status := .idle, preAt := some p, pres := b.pres + 1 }) ∨
    (∃ u, b.status = .refreshing u ∧ u ≤ t ∧ b.settle t = { b with status := .idle }) := by
  obtain ⟨st, ac, si, pr, re, ps⟩ := b
  cases st with
  | idle => exact .inl rfl
  | opened p =>
    cases p with
    | none => exact .inl rfl
    | some p =>
      by_cases hp : p ≤ t
      · exact .inr (.inl ⟨p, rfl, hp, by simp [BankS.settle, hp]⟩)
      · exact .inl (by simp [BankS.settle, hp])
  | refreshing u =>
    by_cases hp : u ≤ t
    · exact .inr (.inr ⟨u, rfl, hp, by simp [BankS.settle, hp]⟩)
    · exact .inl (by simp [BankS.settle, hp])

theorem SpecInv.settle {std ms s now} (h : SpecInv std ms s now) {t : Nat} (ht : now ≤ t) :
    SpecInv std ms (s.settle t) t := by
  refine ⟨?_, ?_, ?_⟩
  · intro b p hp
    simp only [State.settle] at hp
    rcases BankS.settle_cases t (s.bank b) with he | ⟨p', h1, h2, he⟩ | ⟨u, h1, h2, he⟩
    · rw [he] at hp; have := h.preNow b p hp; omega
    · rw [he] at hp; simp only at hp; injection hp with hp; omega
    · rw [he] at hp; have := h.preNow b p hp; omega
  · intro b p0 p hp hs
    simp only [State.settle] at hp hs
    rcases BankS.settle_cases t (s.bank b) with he | ⟨p', h1, h2, he⟩ | ⟨u, h1, h2, he⟩
    · rw [he] at hp hs; exact h.preOrd b p0 p hp hs
    · rw [he] at hs; exact absurd hs (by simp)
    · rw [he] at hs; exact absurd hs (by simp)
  · intro a e hm t' ht'
    rw [State.settle_settle ht']
    exact h.pdExit a e (Mode.settle_pd_none hm) t' (by omega)

theorem earliestOf_settle {std ms s now} (h : SpecInv std ms s now) (t b : Nat) (x y : Nat) :
    earliestOf x y (s.bank b) ≤ earliestOf x y ((s.settle t).bank b) := by
  simp only [State.settle]
  rcases BankS.settle_cases t (s.bank b) with he | ⟨p', h1, h2, he⟩ | ⟨u, h1, h2, he⟩
  · rw [he]; exact Nat.le_refl _
  · rw [he]
    unfold earliestOf
    simp only
    cases hp : (s.bank b).preAt with
    | none => simp only; omega
    | some p0 => have := h.preOrd b p0 p' hp h1; simp only; omega
  · rw [he]; exact Nat.le_refl _

/-- The exit of a power-down comes no earlier than its entry. -/
theorem pdTime_mono {std ms s now} (h : SpecInv std ms s now) {t : Nat} (ht : now ≤ t) :
    pdTime std ms s now ≤ pdTime std ms (s.settle t) t := by
  have : earliest (tRCDof std ms) ms.tRP ms.numberOfBanks s ≤ earliest (tRCDof std ms) ms.tRP ms.numberOfBanks (s.settle t) := by
    rw [earliest_def, earliest_def]
    exact foldl_max_mono (fun i _ => earliestOf_settle h t i _ _) 0 0 (Nat.le_refl _)
  unfold pdTime
  omega

theorem SpecInv.onBanks {std ms s now} (h : SpecInv std ms s now) {p : Nat → Bool} {f : BankS → BankS}
    (hm : ∀ a e, s.mode ≠ .pd a e none)
    (h1 : ∀ b x, (f (s.bank b)).preAt = some x → x ≤ now)
    (h2 : ∀ b x y, (f (s.bank b)).preAt = some x → (f (s.bank b)).status = .opened (some y) → x ≤ y) :
    SpecInv std ms (s.onBanks p f) now := by
  refine ⟨?_, ?_, ?_⟩
  · intro b x hx
    simp only [State.onBanks] at hx
    split at hx
    · exact h1 b x hx
    · exact h.preNow b x hx
  · intro b x y hx hy
    simp only [State.onBanks] at hx hy
    split at hx
    · rename_i hp; rw [if_pos hp] at hy; exact h2 b x y hx hy
    · rename_i hp; rw [if_neg hp] at hy; exact h.preOrd b x y hx hy
  · intro a e he; exact absurd he (hm a e)

theorem SpecInv.setMode {std ms s now} (h : SpecInv std ms s now) {m : Mode} (hm : ∀ a e, m ≠ .pd a e none) :
    SpecInv std ms { s with mode := m } now :=
  ⟨h.preNow, h.preOrd, fun a e he => absurd he (hm a e)⟩

theorem SpecInv.setPd {std ms s now} (h : SpecInv std ms s now) {a : Bool} :
    SpecInv std ms { s with mode := .pd a (pdTime std ms s now) none } now := by
  refine ⟨h.preNow, h.preOrd, ?_⟩
  intro a' e he t ht
  injection he with h1 h2 h3
  subst h1; subst h2
  exact pdTime_mono h ht

theorem apply_inv {std ms s now c} (h : SpecInv std ms s now) (ht : now ≤ c.t)
    (hl : tameCmd std ms (s.settle c.t) c) : SpecInv std ms (apply std ms s c) c.t := by
  have h1 := h.settle ht
  obtain ⟨⟨_, _, hl⟩, _⟩ := hl
  generalize hs' : s.settle c.t = s' at h1 hl
  have nopd : s'.mode = .normal → ∀ a e, s'.mode ≠ .pd a e none := by intro hm a e; rw [hm]; simp
  unfold apply
  rw [hs']
  cases hty : c.type <;> simp only [hty] at hl ⊢
  case ACT =>
    exact h1.onBanks (nopd hl.1) (fun b x hx => h1.preNow b x hx) (fun b x y _ hy => by simp [BankS.activate] at hy)
  case PRE =>
    refine h1.onBanks (nopd hl.1) (fun b x hx => ?_) (fun b x y hx hy => ?_)
    · unfold BankS.precharge at hx; split at hx
      · simp only at hx; injection hx with hx; omega
      · exact h1.preNow b x hx
    · unfold BankS.precharge at hx hy; split at hx
      · rename_i hst; simp only [hst] at hy; exact absurd hy (by simp)
      · rename_i hst; split at hy
        · exact absurd hy (by simp)
        · exact h1.preOrd b x y hx hy
  case PREA =>
    refine h1.onBanks (nopd hl.1) (fun b x hx => ?_) (fun b x y hx hy => ?_)
    · unfold BankS.precharge at hx; split at hx
      · simp only at hx; injection hx with hx; omega
      · exact h1.preNow b x hx
    · unfold BankS.precharge at hx hy; split at hx
      · rename_i hst; simp only [hst] at hy; exact absurd hy (by simp)
      · rename_i hst; split at hy
        · exact absurd hy (by simp)
        · exact h1.preOrd b x y hx hy
  case PRESB =>
    refine h1.onBanks (nopd hl.1) (fun b x hx => ?_) (fun b x y hx hy => ?_)
    · unfold BankS.precharge at hx; split at hx
      · simp only at hx; injection hx with hx; omega
      · exact h1.preNow b x hx
    · unfold BankS.precharge at hx hy; split at hx
      · rename_i hst; simp only [hst] at hy; exact absurd hy (by simp)
      · rename_i hst; split at hy
        · exact absurd hy (by simp)
        · exact h1.preOrd b x y hx hy
  case RD | WR => exact h1
  case RDA | WRA =>
    refine h1.onBanks (nopd hl.1) (fun b x hx => h1.preNow b x hx) (fun b x y hx hy => ?_)
    have := h1.preNow b x hx
    simp only [BankS.autoPrecharge] at hy
    injection hy with hy
    injection hy with hy
    omega
  case REFA | REFB | REFP2B | REFDB | REFSB =>
    exact h1.onBanks (nopd hl.1) (fun b x hx => h1.preNow b x hx) (fun b x y _ hy => by simp [BankS.refresh] at hy)
  case SREFEN =>
    exact (h1.onBanks (nopd hl.1) (fun b x hx => h1.preNow b x hx) (fun b x y _ hy => by simp [BankS.refresh] at hy)).setMode (by simp)
  case SREFEX | DSMEN | DSMEX => exact h1.setMode (by simp)
  case PDEA | PDEP => exact h1.setPd
  case PDXA =>
    split
    · refine ⟨?_, ?_, by simp⟩
      · intro b p; simp only [BankS.resume_preAt]; exact h1.preNow b p
      · intro b p0 p; simp only [BankS.resume_preAt, BankS.resume_status]; exact h1.preOrd b p0 p
    · exact h1
  case PDXP =>
    split
    · exact h1.setMode (by simp)
    · exact h1

theorem init_inv (std : Std) (ms : MemSpec) : SpecInv std ms {} 0 :=
  ⟨by intro b p h; exact absurd h (by simp), by intro b p0 p h; exact absurd h (by simp), by simp⟩

/-! ## Same-bank index lists -/

theorem sameBank_lt {ms : MemSpec} (hb : 0 < ms.banksPerGroup)
    (hg : ms.numberOfBanks = ms.numberOfBankGroups * ms.banksPerGroup) (bank : Nat) :
    ∀ b ∈ sameBankIdx ms bank, b < ms.numberOfBanks := by
  intro b hb'
  simp only [sameBankIdx, List.mem_map, List.mem_range] at hb'
  obtain ⟨g, hg', rfl⟩ := hb'
  have h1 := Nat.mod_lt bank hb
  have h2 : (g + 1) * ms.banksPerGroup ≤ ms.numberOfBankGroups * ms.banksPerGroup := Nat.mul_le_mul_right _ hg'
  rw [Nat.add_mul, Nat.one_mul] at h2
  omega

theorem mem_sameBank {ms : MemSpec} (_hb : 0 < ms.banksPerGroup)
    (hg : ms.numberOfBanks = ms.numberOfBankGroups * ms.banksPerGroup) (bank : Nat) {b : Nat} (hbn : b < ms.numberOfBanks) :
    b ∈ sameBankIdx ms bank ↔ b % ms.banksPerGroup = bank % ms.banksPerGroup := by
  simp only [sameBankIdx, List.mem_map, List.mem_range]
  constructor
  · rintro ⟨g, _, rfl⟩
    rw [Nat.mul_comm, Nat.mul_add_mod, Nat.mod_mod]
  · intro h
    refine ⟨b / ms.banksPerGroup, ?_, ?_⟩
    · rw [hg] at hbn; exact Nat.div_lt_of_lt_mul (by rw [Nat.mul_comm]; exact hbn)
    · rw [← h, Nat.mul_comm]; exact Nat.div_add_mod b ms.banksPerGroup

theorem sameBank_nodup {ms : MemSpec} (hb : 0 < ms.banksPerGroup) (bank : Nat) : (sameBankIdx ms bank).Nodup := by
  unfold sameBankIdx
  rw [List.Nodup, List.pairwise_map]
  refine List.Pairwise.imp ?_ List.nodup_range
  intro a b hab heq
  apply hab
  have : a * ms.banksPerGroup = b * ms.banksPerGroup := by omega
  exact Nat.eq_of_mul_eq_mul_right hb this

theorem Spec.ValidSpec.perGroup {std ms} (h : ValidSpec std ms) (hs : std = .ddr5) : 0 < ms.banksPerGroup := by
  have h1 := h.banks
  rw [h.groups hs] at h1
  exact Nat.pos_of_mul_pos_left h1

/-! ## One command -/

theorem decide_or_eq (b x y : Nat) : decide (b ∈ [x, y]) = (b == x || b == y) := by
  by_cases h1 : b = x <;> by_cases h2 : b = y <;> simp [h1, h2]

theorem handle_rel {std ms q r s ent acc c} (hv : ValidSpec std ms)
    (h : Rel std ms.numberOfBanks c.t q r (s.settle c.t) ent acc) (hq : ∀ e ∈ q, c.t < e.1)
    (hi : SpecInv std ms (s.settle c.t) c.t) (hl : tameCmd std ms (s.settle c.t) c) :
    ∃ r' imps ent', handle std ms r c = .ok (r', imps) ∧
      Rel std ms.numberOfBanks c.t (imps.foldl (fun q i => rinsert i q) q) r' (apply std ms s c) ent' acc := by
  obtain ⟨⟨hsup, hr, hl⟩, hben⟩ := hl
  generalize hσ : s.settle c.t = σ at *
  unfold apply
  rw [hσ]
  cases hty : c.type <;> simp only [hty, handle, inRange, supports] at hl hr hsup ⊢
  case ACT =>
    refine ⟨_, _, ent, by rw [withBank, if_pos (by rw [h.nb]; exact hr)]; rfl, ?_⟩
    refine (act_rel h hl.1 hr hl.2).congr rfl ?_
    intro b _; simp only [State.onBanks, targets, hty]
  case PRE =>
    refine ⟨_, _, ent, by rw [withBank, if_pos (by rw [h.nb]; exact hr)]; rfl, ?_⟩
    have hp := hl.2 c.bank hr (by simp [targets, hty])
    have hh : handlePre std r c.bank c.t = Shared.handlePre r c.bank c.t := by
      cases std <;> rfl
    rw [hh]
    refine (pre_rel h hl.1 hr hp).congr rfl ?_
    intro b _
    by_cases hbb : b = c.bank
    · subst hbb; simp [targets, hty, State.onBanks]
    · simp [targets, hty, State.onBanks, hbb, State.setBank_ne _ _ hbb]
  case PREA =>
    refine ⟨_, _, ent, rfl, ?_⟩
    have hh : handlePreAll std r c.t = (List.range r.nBanks).foldl (fun r b => Shared.handlePre r b c.t) r := by
      cases std <;> rfl
    rw [hh, h.nb]
    refine (preList_rel h hl.1 (by simp) ?_).congr rfl ?_
    · intro b hb; exact hl.2 b (List.mem_range.1 hb) (by simp [targets, hty])
    · intro b hb; simp [targets, hty, State.onBanks, hb]
  case PRESB =>
    have hs : std = .ddr5 := by simpa using hsup
    have hpg := hv.perGroup hs
    have hg := hv.groups hs
    have hall : (sameBankIdx ms c.bank).all (· < r.nBanks) = true := by
      rw [List.all_eq_true, h.nb]; intro b hb; simpa using sameBank_lt hpg hg c.bank b hb
    refine ⟨_, _, ent, by rw [if_pos hs, withBank, if_pos (by rw [h.nb]; exact hr), handlePreSameBank, if_neg (by omega), if_pos hall], ?_⟩
    refine (preList_rel h hl.1 (sameBank_lt hpg hg c.bank) ?_).congr rfl ?_
    · intro b hb
      have hbn := sameBank_lt hpg hg c.bank b hb
      exact hl.2 b hbn (by simpa [targets, hty] using (mem_sameBank hpg hg c.bank hbn).1 hb)
    · intro b hb
      have := mem_sameBank hpg hg c.bank hb
      simp [targets, hty, State.onBanks, this]
  case REFSB =>
    have hs : std = .ddr5 := by simpa using hsup
    have hpg := hv.perGroup hs
    have hg := hv.groups hs
    have hall : (sameBankIdx ms c.bank).all (· < r.nBanks) = true := by
      rw [List.all_eq_true, h.nb]; intro b hb; simpa using sameBank_lt hpg hg c.bank b hb
    have hh : handleRefSameBank ms r c.bank c.t = .ok ((sameBankIdx ms c.bank).foldl
      (Shared.handleRefreshOnBank (fun c => { c with refSameBank := c.refSameBank + 1 }) ms.tRFCsb c.t) (r, [])) := by
      rw [handleRefSameBank, if_neg (by omega), if_pos hall]
    rw [if_pos hs, withBank, if_pos (by rw [h.nb]; exact hr), hh]
    refine ⟨_, _, ent, rfl, ?_⟩
    have h1 := refreshList_rel (dur := ms.tRFCsb) (σ := σ) (cnt := fun c => { c with refSameBank := c.refSameBank + 1 })
      (fun _ => ⟨rfl, rfl⟩) (L := sameBankIdx ms c.bank) (res := (r, [])) h hl.1 (sameBank_lt hpg hg c.bank) (sameBank_nodup hpg _) (by
        intro b hb
        have hbn := sameBank_lt hpg hg c.bank b hb
        exact hl.2 b hbn (by simpa [targets, hty] using (mem_sameBank hpg hg c.bank hbn).1 hb))
    refine Rel.congr h1 rfl ?_
    intro b hb
    have := mem_sameBank hpg hg c.bank hb
    simp [targets, hty, State.onBanks, this, refreshTime]
  case REFB =>
    have hs : std = .lpddr4 ∨ std = .lpddr5 := by simpa using hsup
    rw [if_pos hs, withBank, if_pos (by rw [h.nb]; exact hr)]
    refine ⟨_, _, ent, rfl, ?_⟩
    have h1 := refreshList_rel (dur := ms.tRFCPB) (σ := σ) (cnt := fun c => { c with refPerBank := c.refPerBank + 1 })
      (fun _ => ⟨rfl, rfl⟩) (L := [c.bank]) (res := (r, [])) h hl.1 (by simpa using hr) (by simp) (by
        intro b hb
        simp only [List.mem_singleton] at hb
        subst hb
        exact hl.2 _ hr (by simp [targets, hty]))
    refine Rel.congr h1 rfl ?_
    intro b hb
    simp [targets, hty, State.onBanks, refreshTime]
  case REFP2B =>
    have hs : std = .lpddr5 := by simpa using hsup
    obtain ⟨r1, r2, r3, r4⟩ := hr
    have hh : handleRefPerTwoBanks ms r c.bank c.t = .ok ([c.bank, (c.bank + ms.perTwoBankOffset) % 16].foldl
      (Shared.handleRefreshOnBank (fun c => { c with refPerTwoBanks := c.refPerTwoBanks + 1 }) ms.tRFCPB c.t) (r, [])) := by
      simp only [handleRefPerTwoBanks, h.nb, r2, if_true]
    rw [if_pos hs, if_neg r4, withBank, if_pos (by rw [h.nb]; exact r1), hh]
    refine ⟨_, _, ent, rfl, ?_⟩
    have h1 := refreshList_rel (dur := ms.tRFCPB) (σ := σ) (cnt := fun c => { c with refPerTwoBanks := c.refPerTwoBanks + 1 })
      (fun _ => ⟨rfl, rfl⟩) (L := [c.bank, (c.bank + ms.perTwoBankOffset) % 16]) (res := (r, [])) h hl.1
      (by simp [r1, r2]) (by simp [Ne.symm r3]) (by
        intro b hb
        have hb' : b = c.bank ∨ b = (c.bank + ms.perTwoBankOffset) % 16 := by simpa using hb
        have hbn : b < ms.numberOfBanks := by rcases hb' with rfl | rfl <;> assumption
        exact hl.2 b hbn (by simpa [targets, hty] using hb'))
    refine Rel.congr h1 rfl ?_
    intro b hb
    simp only [State.onBanks, decide_or_eq, targets, hty, refreshTime]
  case REFDB =>
    have hs : std = .lpddr6 := by simpa using hsup
    obtain ⟨r1, r2, r3⟩ := hr
    rw [if_pos hs, withBank, if_pos (by rw [h.nb]; exact r1), withBank, if_pos (by rw [h.nb]; exact r2)]
    refine ⟨_, _, ent, rfl, ?_⟩
    have h1 := refreshList_rel (dur := ms.tRFCDB) (σ := σ) (cnt := fun c => { c with refDualBanks := c.refDualBanks + 1 })
      (fun _ => ⟨rfl, rfl⟩) (L := [c.bank, c.dbank]) (res := (r, [])) h hl.1
      (by simp [r1, r2]) (by simp [Ne.symm r3]) (by
        intro b hb
        have hb' : b = c.bank ∨ b = c.dbank := by simpa using hb
        have hbn : b < ms.numberOfBanks := by rcases hb' with rfl | rfl <;> assumption
        exact hl.2 b hbn (by simpa [targets, hty] using hb'))
    refine Rel.congr h1 rfl ?_
    intro b hb
    simp only [State.onBanks, decide_or_eq, targets, hty, refreshTime]
  case RD =>
    rw [withBank, if_pos (by rw [h.nb]; exact hr)]
    exact ⟨_, _, ent, rfl, h.bankIrrel rfl rfl rfl rfl rfl rfl⟩
  case WR =>
    rw [withBank, if_pos (by rw [h.nb]; exact hr)]
    exact ⟨_, _, ent, rfl, h.bankIrrel rfl rfl rfl rfl rfl rfl⟩
  case RDA =>
    rw [withBank, if_pos (by rw [h.nb]; exact hr)]
    refine ⟨_, _, ent, rfl, ?_⟩
    have h1 := h.bankIrrel (b := c.bank) (x := { r.banks c.bank with counter := { (r.banks c.bank).counter with readAuto := (r.banks c.bank).counter.readAuto + 1 } })
      rfl rfl rfl rfl rfl rfl
    refine (autoPre_rel (ms := ms) (off := ms.prechargeOffsetRD) h1 hl.1 hr hl.2).congr rfl ?_
    intro b _; simp only [State.onBanks, targets, hty]
  case WRA =>
    rw [withBank, if_pos (by rw [h.nb]; exact hr)]
    refine ⟨_, _, ent, rfl, ?_⟩
    have h1 := h.bankIrrel (b := c.bank) (x := { r.banks c.bank with counter := { (r.banks c.bank).counter with writeAuto := (r.banks c.bank).counter.writeAuto + 1 } })
      rfl rfl rfl rfl rfl rfl
    refine (autoPre_rel (ms := ms) (off := ms.prechargeOffsetWR) h1 hl.1 hr hl.2).congr rfl ?_
    intro b _; simp only [State.onBanks, targets, hty]
  case REFA =>
    refine ⟨_, _, ent, rfl, ?_⟩
    refine (refAll_rel (ms := ms) h hl.1 ?_).congr rfl ?_
    · intro b hb; exact hl.2 b hb (by simp [targets, hty])
    · intro b _; simp [targets, hty, refreshTime, State.onBanks]
  case SREFEN =>
    refine ⟨_, _, false, rfl, ?_⟩
    refine (srefEntry_rel (ms := ms) h hl.1 ?_).congr rfl ?_
    · intro b hb; exact hl.2 b hb (by simp [targets, hty])
    · intro b _; simp [targets, hty, State.onBanks]
  case SREFEX =>
    obtain ⟨r', h1, h2⟩ := srefExit_rel h hq hl
    exact ⟨r', [], true, h1, h2⟩
  case DSMEN =>
    have hs : std = .lpddr5 := by simpa using hsup
    obtain ⟨r', h1, h2⟩ := dsmEntry_rel h hq hl
    exact ⟨r', [], true, by rw [if_pos hs, h1], h2⟩
  case DSMEX =>
    have hs : std = .lpddr5 := by simpa using hsup
    obtain ⟨r', h1, h2⟩ := dsmExit_rel h hl
    exact ⟨r', [], true, by rw [if_pos hs, h1], h2⟩
  case PDEA => exact ⟨_, _, false, rfl, pdea_rel (c := c) h rfl hv.trp hl (hben hty)⟩
  case PDEP => exact ⟨_, _, false, rfl, pdep_rel h rfl hl.1 hl.2⟩
  case PDXA =>
    cases hm : σ.mode with
    | normal | sref | dsm => rw [hm] at hl; exact hl.elim
    | pd a e x =>
      rw [hm] at hl
      cases x with
      | some x => exact hl.elim
      | none =>
        obtain ⟨rfl, hle⟩ := hl
        obtain ⟨r', imps, h1, h2⟩ := pdxa_rel (ms := ms) h hq rfl hm (by
          intro hs; exact hle c.t (by simp [hs])) (by
          have := hi.pdExit true e hm c.t (Nat.le_refl _)
          rwa [← hσ, State.settle_settle (Nat.le_refl _), hσ] at this)
        exact ⟨r', imps, ent, h1, h2⟩
  case PDXP =>
    cases hm : σ.mode with
    | normal | sref | dsm => rw [hm] at hl; exact hl.elim
    | pd a e x =>
      rw [hm] at hl
      cases x with
      | some x => exact hl.elim
      | none =>
        obtain ⟨rfl, _⟩ := hl
        refine ⟨_, _, ent, rfl, pdxp_rel (ms := ms) h rfl hm ?_⟩
        have := hi.pdExit false e hm c.t (Nat.le_refl _)
        rwa [← hσ, State.settle_settle (Nat.le_refl _), hσ] at this

end DRAMPower
