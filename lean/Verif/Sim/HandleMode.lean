import Verif.Sim.HandleRef
import Verif.Sim.Process

/-!
# Self-refresh, deep sleep and power-down commands preserve the simulation relation
-/

namespace DRAMPower

open Spec

/-! ## Requesting a low-power mode from normal operation -/

/-- A mode whose entry is still to come. -/
def Requested (m : Mode) (e : Nat) (i : Imp) : Prop :=
  (∃ a, m = .pd a e none ∧ i = enterImp a) ∨ (m = .sref e ∧ i = .srefEnter)

theorem request_rel {std n T q r σ ent acc} (h : Rel std n T q r σ ent acc) (hm : σ.mode = .normal)
    {m : Mode} {e : Nat} {i : Imp} (hr : Requested m e i) (he : T ≤ e)
    (hok : ModeOK std n { σ with mode := m } false) :
    Rel std n T (rinsert (e, i) q) r { σ with mode := m } false acc := by
  have hi : i.isMode = true := by
    rcases hr with ⟨a, _, rfl⟩ | ⟨_, rfl⟩
    · cases a <;> rfl
    · rfl
  have hlow : lowNow m false = none := by
    rcases hr with ⟨a, rfl, _⟩ | ⟨rfl, _⟩ <;> rfl
  have hexp : expMQ m false = [(e, i)] := by
    rcases hr with ⟨a, rfl, rfl⟩ | ⟨rfl, rfl⟩ <;> simp [expMQ]
  have hsince : ∀ s x, sinceOK m s x ↔ x = s.since := by
    intro s x
    rcases hr with ⟨a, rfl, _⟩ | ⟨rfl, _⟩
    · cases a <;> rfl
    · rfl
  have hmq : mq q = [] := by rw [h.qmode, hm]; rfl
  have hmr := h.modeRel
  rw [hm] at hmr
  refine ⟨h.nb, h.npos, ?_, rinsert_qord_mode hi h.qord, ?_, ?_, ?_, ?_, ?_, ?_, hok, h.endRef⟩
  · intro x hx
    rcases mem_rinsert.1 hx with rfl | hx
    · exact he
    · exact h.qge x hx
  · intro b hb
    rw [← h.qbank b hb]
    exact filter_rinsert_neg (Imp.forBank_of_isMode hi b) q
  · intro x hx
    rcases mem_rinsert.1 hx with rfl | hx
    · exact .inl hi
    · exact h.qin x hx
  · show mq _ = expMQ m false
    rw [hexp]
    exact filter_rinsert_nil hi hmq
  · intro b hb
    have hbr := h.bank b hb
    refine ⟨hbr.state, ?_, hbr.acted, hbr.pre, hbr.refEnd, ?_, hbr.opAct, hbr.refr, hbr.stop, ?_⟩
    · exact hbr.tr.cast (by show (_ && decide (lowNow σ.mode ent = none)) = (_ && decide (lowNow m false = none)); rw [hm, hlow]; rfl)
    · intro ha
      have := hbr.since ha
      rw [hm] at this
      exact (hsince _ _).2 this
    · intro _ e y _ hf; simp at hf
  · show ModeRel m false T r acc
    refine ⟨?_, ?_, ?_, ?_, ?_, by simp, by simp, by simp⟩
    · rw [hmr.mem]; unfold expMem; rw [hlow]; rfl
    · rw [hlow]; exact hmr.pda.cast rfl
    · rw [hlow]; exact hmr.pdp.cast rfl
    · rw [hlow]; exact hmr.sref.cast rfl
    · rw [hlow]; exact hmr.dsm.cast rfl
  · exact h.ract.cast (by show (_ && decide (lowNow σ.mode ent = none)) = (_ && decide (lowNow m false = none)); rw [hm, hlow]; rfl)

/-- `SREFEN`. -/
theorem srefEntry_rel {std n T q r σ ent acc} {ms : MemSpec} (h : Rel std n T q r σ ent acc) (hm : σ.mode = .normal)
    (hidle : ∀ b < n, (σ.bank b).status = .idle) :
    Rel std n T ((handleSelfRefreshEntry std ms r T).2.foldl (fun q i => rinsert i q) q) (handleSelfRefreshEntry std ms r T).1
      { σ.onBanks (fun _ => true) (·.refresh T ms.tRFC) with mode := .sref (T + ms.tRFC) } false acc := by
  have h1 := refAll_rel (ms := ms) h hm hidle
  have h2 := request_rel h1 hm (m := .sref (T + ms.tRFC)) (e := T + ms.tRFC) (i := .srefEnter) (.inr ⟨rfl, rfl⟩) (by omega) (by
    refine ⟨?_, by simp⟩
    intro b _
    simp [State.onBanks, BankS.refresh, BankS.isOpen])
  simp only [handleSelfRefreshEntry, List.foldl_append]
  exact h2

/-! ## Leaving self-refresh, deep sleep -/

/-- Due mode changes have been executed. -/
theorem Rel.sref_ent {std n T q r σ ent acc} (h : Rel std n T q r σ ent acc) (hq : ∀ e ∈ q, T < e.1)
    {s : Nat} (hm : σ.mode = .sref s) (hs : s ≤ T) : ent = true := by
  cases ent with
  | true => rfl
  | false =>
    have := h.qmode
    rw [hm] at this
    have hin : (s, Imp.srefEnter) ∈ mq q := by rw [this]; simp [expMQ]
    have := hq _ (List.mem_filter.1 hin).1
    simp only at this; omega

theorem Rel.pd_ent {std n T q r σ ent acc} (h : Rel std n T q r σ ent acc) (hq : ∀ e ∈ q, T < e.1)
    {a : Bool} {e : Nat} {x : Option Nat} (hm : σ.mode = .pd a e x) (hs : e ≤ T) : ent = true := by
  cases ent with
  | true => rfl
  | false =>
    have := h.qmode
    rw [hm] at this
    have hin : (e, enterImp a) ∈ mq q := by rw [this]; simp [expMQ]
    have := hq _ (List.mem_filter.1 hin).1
    simp only at this; omega

/-- Change between modes that leave no entry pending, all banks idle. -/
theorem idleMode_rel {std n T q r r' σ ent acc} (h : Rel std n T q r σ ent acc)
    {m : Mode} {ent' : Bool} (hmq : mq q = []) (hexp : expMQ m ent' = []) (hnpd : ∀ a e x, m ≠ .pd a e x)
    (hold : ∀ a e x, σ.mode ≠ .pd a e x)
    (hidle : ∀ b < n, (σ.bank b).status = .idle) (hb : r'.banks = r.banks) (hn : r'.nBanks = r.nBanks)
    (hact : r'.act = r.act) (hend : r'.endRefreshTime = r.endRefreshTime)
    (hmr : ModeRel m ent' T r' acc) (hok : ModeOK std n { σ with mode := m } ent') :
    Rel std n T q r' { σ with mode := m } ent' acc := by
  have hs : ∀ {m' : Mode}, (∀ a e x, m' ≠ .pd a e x) → ∀ s x, sinceOK m' s x ↔ x = s.since := by
    intro m' hm' s x
    cases m' with
    | pd a e x => exact absurd rfl (hm' a e x)
    | _ => rfl
  have hne : ¬ ∃ b < n, (σ.bank b).status ≠ .idle := by
    rintro ⟨b, hb, hx⟩; exact hx (hidle b hb)
  refine ⟨by rw [hn]; exact h.nb, h.npos, h.qge, h.qord, h.qbank, h.qin, by rw [hmq]; exact hexp.symm, ?_, hmr, ?_, hok, ?_⟩
  · intro b hb'
    have hbr := h.bank b hb'
    rw [hb]
    refine ⟨hbr.state, ?_, hbr.acted, hbr.pre, hbr.refEnd, ?_, hbr.opAct, hbr.refr, hbr.stop, ?_⟩
    · exact hbr.tr.cast (by simp [hidle b hb'])
    · intro ha; exact (hs hnpd _ _).2 ((hs hold _ _).1 (hbr.since ha))
    · intro _ e y hmy; exact absurd hmy (hnpd _ _ _)
  · rw [hact]
    exact h.ract.cast (by
      show (decide (∃ b < n, (σ.bank b).status ≠ .idle) && _) = (decide (∃ b < n, (σ.bank b).status ≠ .idle) && _)
      simp [hne])
  · rw [hend]
    intro ht
    exact h.endRef ht

theorem srefExit_rel {std n T q r σ ent acc} (h : Rel std n T q r σ ent acc) (hq : ∀ e ∈ q, T < e.1)
    (hm : σ.mode.selfRefreshing T) :
    ∃ r', handleSelfRefreshExit r T = .ok (r', []) ∧ Rel std n T q r' { σ with mode := .normal } true acc := by
  cases hmm : σ.mode with
  | normal | dsm => rw [hmm] at hm; exact absurd hm (by simp [Mode.selfRefreshing])
  | pd => rw [hmm] at hm; exact absurd hm (by simp [Mode.selfRefreshing])
  | sref s =>
    rw [hmm] at hm
    have hent := h.sref_ent hq hmm hm
    subst hent
    have hmr := h.modeRel
    have hok := h.modeOK
    rw [hmm] at hmr
    simp only [ModeOK, hmm] at hok
    have hmem : r.memState = .sref := hmr.mem
    refine ⟨{ r with sref := r.sref.close T, memState := .notInPD }, by simp [handleSelfRefreshExit, hmem], ?_⟩
    refine idleMode_rel h (by rw [h.qmode, hmm]; rfl) rfl (by simp) (by simp [hmm]) (hok.2 trivial) rfl rfl rfl rfl ?_ trivial
    exact ⟨rfl, hmr.pda.cast rfl, hmr.pdp.cast rfl, hmr.sref.close.cast rfl, hmr.dsm.cast rfl, by simp, by simp, by simp⟩

theorem dsmEntry_rel {std n T q r σ ent acc} (h : Rel std n T q r σ ent acc) (hq : ∀ e ∈ q, T < e.1)
    (hm : σ.mode.selfRefreshing T) :
    ∃ r', handleDSMEntry r T = .ok (r', []) ∧ Rel std n T q r' { σ with mode := .dsm } true acc := by
  cases hmm : σ.mode with
  | normal | dsm => rw [hmm] at hm; exact absurd hm (by simp [Mode.selfRefreshing])
  | pd => rw [hmm] at hm; exact absurd hm (by simp [Mode.selfRefreshing])
  | sref s =>
    rw [hmm] at hm
    have hent := h.sref_ent hq hmm hm
    subst hent
    have hmr := h.modeRel
    have hok := h.modeOK
    rw [hmm] at hmr
    simp only [ModeOK, hmm] at hok
    have hmem : r.memState = .sref := hmr.mem
    refine ⟨{ r with deepSleepMode := r.deepSleepMode.startAt T, deepSleepCounter := r.deepSleepCounter + 1,
                     memState := .dsm }, by simp [handleDSMEntry, hmem], ?_⟩
    refine idleMode_rel h (by rw [h.qmode, hmm]; rfl) rfl (by simp) (by simp [hmm]) (hok.2 trivial) rfl rfl rfl rfl ?_ (hok.2 trivial)
    exact ⟨rfl, hmr.pda.cast rfl, hmr.pdp.cast rfl, hmr.sref.cast rfl, (hmr.dsm.cast (o' := false) rfl).startAt.cast rfl,
      by simp, by simp, by simp⟩

theorem dsmExit_rel {std n T q r σ ent acc} (h : Rel std n T q r σ ent acc)
    (hmm : σ.mode = .dsm) :
    ∃ r', handleDSMExit r T = .ok (r', []) ∧ Rel std n T q r' { σ with mode := .sref T } true acc := by
  have hmr := h.modeRel
  have hok := h.modeOK
  rw [hmm] at hmr
  simp only [ModeOK, hmm] at hok
  have hmem : r.memState = .dsm := hmr.mem
  refine ⟨{ r with deepSleepMode := r.deepSleepMode.close T, memState := .sref }, by simp [handleDSMExit, hmem], ?_⟩
  refine idleMode_rel h (by rw [h.qmode, hmm]; rfl) rfl (by simp) (by simp [hmm]) hok rfl rfl rfl rfl ?_ ⟨?_, fun _ => hok⟩
  · refine ⟨rfl, hmr.pda.cast rfl, hmr.pdp.cast rfl, hmr.sref.cast rfl, hmr.dsm.close.cast rfl, by simp, ?_, by simp⟩
    intro _ s hs; injection hs with hs; omega
  · intro b hb
    simp [BankS.isOpen, hok b hb]

/-! ## Earliest power-down time -/

theorem foldl_max_congr {f g : Nat → Nat} {L : List Nat} (h : ∀ i ∈ L, f i = g i) :
    ∀ a, L.foldl (fun acc i => max acc (f i)) a = L.foldl (fun acc i => max acc (g i)) a := by
  induction L with
  | nil => intro a; rfl
  | cons i L ih =>
    intro a
    simp only [List.foldl_cons]
    rw [h i (by simp)]
    exact ih (fun j hj => h j (by simp [hj])) _

theorem foldl_max_ge {f : Nat → Nat} {L : List Nat} : ∀ a, a ≤ L.foldl (fun acc i => max acc (f i)) a := by
  induction L with
  | nil => intro a; simp
  | cons i L ih => intro a; simp only [List.foldl_cons]; have := ih (max a (f i)); omega

theorem foldl_max_le {f : Nat → Nat} {L : List Nat} : ∀ a, ∀ i ∈ L, f i ≤ L.foldl (fun acc i => max acc (f i)) a := by
  induction L with
  | nil => intro a i hi; simp at hi
  | cons j L ih =>
    intro a i hi
    simp only [List.foldl_cons]
    rcases List.mem_cons.1 hi with rfl | hi
    · have := foldl_max_ge (f := f) (L := L) (max a (f i)); omega
    · exact ih _ i hi

theorem foldl_max_mono {f g : Nat → Nat} {L : List Nat} (h : ∀ i ∈ L, f i ≤ g i) :
    ∀ a b, a ≤ b → L.foldl (fun acc i => max acc (f i)) a ≤ L.foldl (fun acc i => max acc (g i)) b := by
  induction L with
  | nil => intro a b hab; simpa using hab
  | cons i L ih =>
    intro a b hab
    simp only [List.foldl_cons]
    have := h i (by simp)
    exact ih (fun j hj => h j (by simp [hj])) _ _ (by omega)

/-- Contribution of one bank. -/
def earliestOf (tRCD tRP : Nat) (b : BankS) : Nat :=
  max (if b.acted then b.since + tRCD else 0)
    (max (match b.preAt with | some p => p + tRP | none => 0) b.refEnd)

theorem earliest_def (tRCD tRP n : Nat) (s : State) :
    earliest tRCD tRP n s = (List.range n).foldl (fun acc i => max acc (earliestOf tRCD tRP (s.bank i))) 0 := rfl

theorem earliest_bank {tRCD tRP n b : Nat} (s : State) (hb : b < n) :
    earliestOf tRCD tRP (s.bank b) ≤ earliest tRCD tRP n s :=
  foldl_max_le (f := fun i => earliestOf tRCD tRP (s.bank i)) 0 b (List.mem_range.2 hb)

theorem effRCD_eq (std : Std) (ms : MemSpec) : effRCD std ms = tRCDof std ms := by
  cases std <;> simp [effRCD, tRCDof]

theorem Rel.earliest_eq {std n T q r σ ent acc} {ms : MemSpec} (h : Rel std n T q r σ ent acc)
    (hn : n = ms.numberOfBanks) (hm : ∀ e x, σ.mode ≠ .pd true e (some x)) :
    max T (earliestPossible std ms r) = pdTime std ms σ T := by
  have hs : ∀ s x, sinceOK σ.mode s x → x = s.since := by
    intro s x
    cases hmm : σ.mode with
    | pd a e y =>
      cases a with
      | false => exact id
      | true =>
        cases y with
        | none => exact id
        | some y => exact absurd hmm (hm e y)
    | _ => exact id
  unfold pdTime
  rw [earliest_def, ← hn]
  unfold earliestPossible
  rw [h.nb]
  congr 1
  rw [← foldl_max_congr (f := fun i => max (max (if (r.banks i).counter.act = 0 then 0 else (r.banks i).act.getStart + effRCD std ms)
      (if (r.banks i).counter.pre = 0 then 0 else (r.banks i).latestPre + ms.tRP)) (r.banks i).refreshEndTime)]
  · congr 1
    funext a i
    simp only; omega
  · intro b hb
    have hbr := h.bank b (List.mem_range.1 hb)
    unfold earliestOf
    rw [effRCD_eq, hbr.refEnd]
    have e1 : (if (r.banks b).counter.act = 0 then 0 else (r.banks b).act.getStart + tRCDof std ms) =
        if (σ.bank b).acted = true then (σ.bank b).since + tRCDof std ms else 0 := by
      cases ha : (σ.bank b).acted with
      | false => rw [if_pos (hbr.acted.2 ha)]; simp
      | true =>
        have : ¬ (r.banks b).counter.act = 0 := fun hz => by
          have := hbr.acted.1 hz; rw [ha] at this; simp at this
        rw [if_neg this, hs _ _ (hbr.since ha)]; simp
    have e2 : (if (r.banks b).counter.pre = 0 then 0 else (r.banks b).latestPre + ms.tRP) =
        (match (σ.bank b).preAt with | some p => p + ms.tRP | none => 0) := by
      have hp := hbr.pre
      cases hpa : (σ.bank b).preAt with
      | none => rw [hpa] at hp; simp [hp.1, hp.2]
      | some p =>
        rw [hpa] at hp
        simp only at hp
        rw [if_neg (by rw [hp.1]; exact hp.2.1), hp.2.2]
    rw [e1, e2]
    omega

theorem pdTime_ge (std : Std) (ms : MemSpec) (s : State) (t : Nat) : t ≤ pdTime std ms s t := Nat.le_max_left _ _

theorem pdTime_bank (std : Std) (ms : MemSpec) (s : State) (t : Nat) {b : Nat} (hb : b < ms.numberOfBanks) :
    earliestOf (tRCDof std ms) ms.tRP (s.bank b) ≤ pdTime std ms s t := by
  have := earliest_bank (tRCD := tRCDof std ms) (tRP := ms.tRP) s hb
  unfold pdTime; omega

/-! ## Power-down requests -/

theorem pdea_rel {std n T q r σ ent acc} {ms : MemSpec} {c : Cmd} (h : Rel std n T q r σ ent acc)
    (hn : n = ms.numberOfBanks) (hrp : 0 < ms.tRP) (hm : σ.mode = .normal)
    (hl : std ≠ .ddr4 → (∀ b < n, (σ.bank b).noAutoPreFrom (pdTime std ms σ T)) ∧
        (∀ b < n, (σ.bank b).acted = true → (σ.bank b).refEnd ≠ pdTime std ms σ T) ∧
        (std = .lpddr6 → ∃ b < n, (σ.bank b).status = .opened none)) :
    Rel std n T ((handlePowerDownActEntry std ms r T).2.foldl (fun q i => rinsert i q) q)
      (handlePowerDownActEntry std ms r T).1 { σ with mode := .pd true (pdTime std ms σ T) none } false acc := by
  have he := h.earliest_eq (ms := ms) hn (by simp [hm])
  simp only [handlePowerDownActEntry, List.foldl_cons, List.foldl_nil, he]
  refine request_rel h hm (.inl ⟨true, rfl, rfl⟩) (pdTime_ge ..) ?_
  have hb : ∀ b < n, earliestOf (tRCDof std ms) ms.tRP (σ.bank b) ≤ pdTime std ms σ T :=
    fun b hb => pdTime_bank std ms σ T (by omega)
  refine ⟨?_, ?_, ?_, by simp, by simp, by simp⟩
  · intro b hbn u hu
    have h1 := hb b hbn
    have h2 := (h.bank b hbn).refr u hu
    unfold earliestOf at h1
    omega
  · intro hs b hbn
    obtain ⟨l1, l2, _⟩ := hl hs
    refine ⟨?_, ?_⟩
    · intro p hp
      have := l1 b hbn
      simp only [BankS.noAutoPreFrom] at this
      simp only at hp
      rw [hp] at this
      exact this
    · intro ha
      refine ⟨l2 b hbn ha, ?_⟩
      intro p hp
      have h1 := hb b hbn
      unfold earliestOf at h1
      simp only at hp
      rw [hp] at h1
      simp only at h1
      omega
  · intro hs
    exact (hl (by rw [hs]; simp)).2.2 hs

theorem pdep_rel {std n T q r σ ent acc} {ms : MemSpec} (h : Rel std n T q r σ ent acc)
    (hn : n = ms.numberOfBanks) (hm : σ.mode = .normal)
    (hl : ∀ b < n, (σ.bank b).isOpen (pdTime std ms σ T) = false) :
    Rel std n T ((handlePowerDownPreEntry std ms r T).2.foldl (fun q i => rinsert i q) q)
      (handlePowerDownPreEntry std ms r T).1 { σ with mode := .pd false (pdTime std ms σ T) none } false acc := by
  have he := h.earliest_eq (ms := ms) hn (by simp [hm])
  simp only [handlePowerDownPreEntry, List.foldl_cons, List.foldl_nil, he]
  exact request_rel h hm (.inl ⟨false, rfl, rfl⟩) (pdTime_ge ..) ⟨hl, by simp, by simp⟩

/-! ## Power-down exit requests -/

theorem BankS.resume_status (x : Nat) (b : BankS) : (b.resume x).status = b.status := by
  unfold BankS.resume; split <;> rfl

theorem BankS.resume_isOpen (x t : Nat) (b : BankS) : (b.resume x).isOpen t = b.isOpen t := by
  unfold BankS.isOpen; rw [BankS.resume_status]

theorem BankS.resume_acted (x : Nat) (b : BankS) : (b.resume x).acted = b.acted := by
  unfold BankS.resume; split <;> rfl

theorem BankS.resume_preAt (x : Nat) (b : BankS) : (b.resume x).preAt = b.preAt := by
  unfold BankS.resume; split <;> rfl

theorem BankS.resume_pres (x : Nat) (b : BankS) : (b.resume x).pres = b.pres := by
  unfold BankS.resume; split <;> rfl

theorem BankS.resume_refEnd (x : Nat) (b : BankS) : (b.resume x).refEnd = b.refEnd := by
  unfold BankS.resume; split <;> rfl

/-- Queue part of an exit request. -/
theorem exit_queue {std n T q r σ ent acc} (h : Rel std n T q r σ ent acc) {a : Bool} {e x : Nat}
    (hm : σ.mode = .pd a e none) (hx : e ≤ x) (hT : T ≤ x) :
    (∀ y ∈ rinsert (x, exitImp a) q, T ≤ y.1) ∧ (rinsert (x, exitImp a) q).Pairwise qord ∧
    (∀ b, bq b (rinsert (x, exitImp a) q) = bq b q) ∧
    (∀ y ∈ rinsert (x, exitImp a) q, y.2.isMode = true ∨ ∃ b < n, y.2.forBank b = true) ∧
    mq (rinsert (x, exitImp a) q) = expMQ (.pd a e (some x)) ent := by
  have hi : (exitImp a).isMode = true := by cases a <;> rfl
  refine ⟨?_, rinsert_qord_mode hi h.qord, ?_, ?_, ?_⟩
  · intro y hy
    rcases mem_rinsert.1 hy with rfl | hy
    · exact hT
    · exact h.qge y hy
  · intro b
    exact filter_rinsert_neg (Imp.forBank_of_isMode hi b) q
  · intro y hy
    rcases mem_rinsert.1 hy with rfl | hy
    · exact .inl hi
    · exact h.qin y hy
  · have hq := h.qmode
    rw [hm] at hq
    have : mq (rinsert (x, exitImp a) q) = mq q ++ [(x, exitImp a)] := by
      refine filter_rinsert_last hi ?_ (pairwise_le_of_qord h.qord)
      intro y hy hym
      have hin : y ∈ mq q := List.mem_filter.2 ⟨hy, hym⟩
      rw [hq] at hin
      cases ent <;> simp [expMQ] at hin
      subst hin
      exact hx
    rw [this, hq]
    simp [expMQ]

theorem pdxa_rel {std n T q r σ ent acc} {ms : MemSpec} (h : Rel std n T q r σ ent acc) (hq : ∀ e ∈ q, T < e.1)
    (hn : n = ms.numberOfBanks) {e : Nat} (hm : σ.mode = .pd true e none) (hd : std = .ddr4 → e ≤ T)
    (hx : e ≤ pdTime std ms σ T) :
    ∃ r' imps, handlePowerDownActExit std ms r T = .ok (r', imps) ∧
    Rel std n T (imps.foldl (fun q i => rinsert i q) q) r'
      { mode := .pd true e (some (pdTime std ms σ T)), bank := fun b => (σ.bank b).resume (pdTime std ms σ T) } ent acc := by
  have he := h.earliest_eq (ms := ms) hn (by simp [hm])
  have hmr := h.modeRel
  rw [hm] at hmr
  refine ⟨r, [(pdTime std ms σ T, .pdaExit)], ?_, ?_⟩
  · unfold handlePowerDownActExit
    rw [if_neg, he]
    rintro ⟨hs, hne⟩
    have := h.pd_ent hq hm (hd hs)
    subst this
    exact hne (by rw [hmr.mem]; rfl)
  generalize hxe : pdTime std ms σ T = x at hx
  have hxT : T ≤ x := hxe ▸ pdTime_ge ..
  obtain ⟨q1, q2, q3, q4, q5⟩ := exit_queue h hm hx hxT
  have hok := h.modeOK
  simp only [ModeOK, hm] at hok
  obtain ⟨k1, k2, k3, k4, k5, k6⟩ := hok
  refine ⟨h.nb, h.npos, q1, q2, ?_, q4, q5, ?_, ?_, ?_, ?_, ?_⟩
  · intro b hb
    simp only [BankS.resume_status]
    rw [← h.qbank b hb]; exact q3 b
  · intro b hb
    have hbr := h.bank b hb
    rw [hm] at hbr
    refine ⟨?_, ?_, ?_, ?_, ?_, ?_, ?_, ?_, ?_, ?_⟩
    · simp only [BankS.resume_status]; exact hbr.state
    · simp only [BankS.resume_status]; exact hbr.tr
    · simp only [BankS.resume_acted]; exact hbr.acted
    · simp only [BankS.resume_preAt, BankS.resume_pres]; exact hbr.pre
    · simp only [BankS.resume_refEnd]; exact hbr.refEnd
    · intro ha
      simp only [BankS.resume_acted] at ha
      have := hbr.since ha
      simp only [sinceOK] at this ⊢
      simp only [BankS.resume_isOpen]
      split
      · rename_i ho; simp [BankS.resume, ho]
      · rename_i ho; simp [BankS.resume, ho]; exact this
    · intro o ho
      simp only [BankS.resume_status, BankS.resume_acted] at ho ⊢
      exact hbr.opAct o ho
    · intro u hu
      simp only [BankS.resume_status, BankS.resume_refEnd] at hu ⊢
      exact hbr.refr u hu
    · intro hs
      simp only [BankS.resume_status, BankS.resume_acted, BankS.resume_preAt, BankS.resume_refEnd]
      exact hbr.stop hs
    · intro hs e' y hmy hent
      injection hmy with _ hee _
      subst hee
      simp only [BankS.resume_status]
      exact hbr.stopPd hs e none rfl hent
  · show ModeRel (.pd true e (some x)) ent T r acc
    refine ⟨hmr.mem, hmr.pda, hmr.pdp, hmr.sref, hmr.dsm, ?_, by simp, ?_⟩
    · intro hent a' e' x' hh
      injection hh with h1 h2 h3
      subst h1; subst h2
      exact hmr.entT hent true e none rfl
    · intro hent e' x' hh
      injection hh with h1 h2 h3
      subst h2
      exact hmr.pdaStart hent e none rfl
  · simp only [BankS.resume_status]
    have := h.ract
    rw [hm] at this
    exact this
  · simp only [ModeOK, BankS.resume_status, BankS.resume_acted, BankS.resume_preAt, BankS.resume_refEnd]
    refine ⟨k1, k2, k3, ?_, k5, k6⟩
    intro y hy; injection hy with hy; omega
  · intro ht
    simp only [BankS.resume_status]
    exact h.endRef ht

theorem pdxp_rel {std n T q r σ ent acc} {ms : MemSpec} (h : Rel std n T q r σ ent acc)
    (hn : n = ms.numberOfBanks) {e : Nat} (hm : σ.mode = .pd false e none)
    (hx : e ≤ pdTime std ms σ T) :
    Rel std n T ((handlePowerDownPreExit std ms r T).2.foldl (fun q i => rinsert i q) q)
      (handlePowerDownPreExit std ms r T).1
      { σ with mode := .pd false e (some (pdTime std ms σ T)) } ent acc := by
  have he := h.earliest_eq (ms := ms) hn (by simp [hm])
  have hmr := h.modeRel
  rw [hm] at hmr
  simp only [handlePowerDownPreExit, List.foldl_cons, List.foldl_nil, he]
  generalize hxe : pdTime std ms σ T = x at hx
  have hxT : T ≤ x := hxe ▸ pdTime_ge ..
  obtain ⟨q1, q2, q3, q4, q5⟩ := exit_queue h hm hx hxT
  have hok := h.modeOK
  simp only [ModeOK, hm] at hok
  obtain ⟨k1, k2, k3⟩ := hok
  refine ⟨h.nb, h.npos, q1, q2, ?_, q4, q5, ?_, ?_, ?_, ?_, h.endRef⟩
  · intro b hb
    rw [← h.qbank b hb]; exact q3 b
  · intro b hb
    have hbr := h.bank b hb
    rw [hm] at hbr
    exact ⟨hbr.state, hbr.tr, hbr.acted, hbr.pre, hbr.refEnd, hbr.since, hbr.opAct, hbr.refr, hbr.stop, by simp⟩
  · show ModeRel (.pd false e (some x)) ent T r acc
    refine ⟨hmr.mem, hmr.pda, hmr.pdp, hmr.sref, hmr.dsm, ?_, by simp, by simp⟩
    intro hent a' e' x' hh
    injection hh with h1 h2 h3
    subst h1; subst h2
    exact hmr.entT hent false e none rfl
  · have := h.ract
    rw [hm] at this
    exact this
  · simp only [ModeOK]
    refine ⟨k1, ?_, k3⟩
    intro y hy; injection hy with hy; omega

end DRAMPower
