import Verif.Sim.HandleBank

/-!
# Refresh commands preserve the simulation relation
-/

namespace DRAMPower

open Spec

/-- One bank starts refreshing (DDR5, LPDDR4, LPDDR5, LPDDR6). -/
theorem refreshOne_rel {std n T q r σ ent acc} {cnt : Counters → Counters}
    (hcnt : ∀ c, (cnt c).act = c.act ∧ (cnt c).pre = c.pre)
    (h : Rel std n T q r σ ent acc) (hm : σ.mode = .normal) {b dur : Nat} (imps : List (Nat × Imp)) (hb : b < n)
    (hidle : (σ.bank b).status = .idle) :
    Rel std n T (rinsert (T + dur, .refEnd b) q) (Shared.handleRefreshOnBank cnt dur T (r, imps) b).1
      (σ.setBank b ((σ.bank b).refresh T dur)) ent acc := by
  have hbr := h.bank b hb
  have hcl : Tr (r.banks b).act T (acc.act b) false := (h.low_normal hm b hb).cast (by simp [hidle])
  have hmq : mq q = [] := by rw [h.qmode, hm]; rfl
  let x' : Bank := { r.banks b with counter := cnt (r.banks b).counter, state := .active,
                                    refreshEndTime := T + dur, act := (r.banks b).act.startAt T }
  generalize hr' : (Shared.handleRefreshOnBank cnt dur T (r, imps) b).1 = r'
  have hia : (r.setBank b { r.banks b with counter := cnt (r.banks b).counter }).isActive T = r.isActive T := by
    refine isActive_congr (by rfl) (by rfl) ?_ T
    intro b' _
    by_cases hbb : b' = b
    · subst hbb; rw [Rank.setBank_same]
    · rw [Rank.setBank_ne _ _ hbb]
  have hfacts : r'.nBanks = n ∧ (∀ b', r'.banks b' = if b' = b then x' else r.banks b') ∧
      Tr r'.act T acc.ract true ∧ r'.memState = r.memState ∧
      r'.powerDownAct = r.powerDownAct ∧ r'.powerDownPre = r.powerDownPre ∧
      r'.sref = r.sref ∧ r'.deepSleepMode = r.deepSleepMode ∧ r'.endRefreshTime = r.endRefreshTime := by
    have hs := h.ract_start hm
    rw [← hr']
    unfold Shared.handleRefreshOnBank
    simp only [hia]
    cases ha : r.isActive T with
    | true =>
      simp only [if_true]
      rw [ha] at hs
      refine ⟨h.nb, ?_, hs, rfl, rfl, rfl, rfl, rfl, rfl⟩
      intro b'
      by_cases hbb : b' = b <;> simp [Rank.setBank, upd, hbb, x', hcl.openEq]
    | false =>
      simp only [Bool.false_eq_true, if_false]
      rw [ha] at hs
      refine ⟨h.nb, ?_, hs, rfl, rfl, rfl, rfl, rfl, rfl⟩
      intro b'
      by_cases hbb : b' = b <;> simp [Rank.setBank, upd, hbb, x', hcl.openEq]
  obtain ⟨e1, e2, e3, e4, e5, e6, e7, e8, e9⟩ := hfacts
  have hres := openBanks_rel (S := (· = b)) (s' := fun b' => (σ.bank b').refresh T dur)
    (q := rinsert (T + dur, .refEnd b) q) (r' := r') h hm ⟨b, hb, rfl⟩
    (by intro b' _; simp [BankS.refresh]) ?_ ?_ e1 e3 e4 e5 e6 e7 e8 ?_ ?_ (rinsert_qord_bank hmq h.qord) ?_ ?_ ?_
  · refine hres.congr hm ?_
    intro b' _
    by_cases hbb : b' = b
    · subst hbb; simp
    · simp [State.setBank_ne _ _ hbb, hbb]
  · rintro b' hb' rfl
    rw [e2, if_pos rfl]
    refine ⟨by simp [x', BankS.refresh], hcl.startAt.cast (by simp [BankS.refresh, lowNow]), ?_, ?_, rfl, ?_,
      by simp [BankS.refresh], by simp [BankS.refresh], by simp [BankS.refresh], by simp⟩
    · simp only [x', (hcnt _).1]; exact hbr.acted
    · simp only [x', (hcnt _).2]; exact hbr.pre
    · intro _; simp [sinceOK, BankS.refresh, x', Interval.getStart_startAt]
  · intro b' hb' hne
    rw [e2, if_neg hne]
  · rw [e9]
    intro ht
    obtain ⟨b', hb', hx⟩ := h.endRef ht
    refine ⟨b', hb', ?_⟩
    have hne : b' ≠ b := by rintro rfl; rw [hidle] at hx; exact absurd hx (by simp)
    rw [if_neg hne]; exact hx
  · intro e he
    rcases mem_rinsert.1 he with rfl | he
    · simp only; omega
    · exact h.qge e he
  · intro b' hb'
    by_cases hbb : b' = b
    · subst hbb
      simp only [if_true]
      show List.filter _ _ = _
      rw [filter_rinsert_nil (by simp [Imp.forBank])]
      · rfl
      · have := h.qbank b' hb'; rw [hidle] at this; exact this
    · rw [if_neg hbb, ← h.qbank b' hb']
      show List.filter _ _ = List.filter _ _
      exact filter_rinsert_neg (by simp [Imp.forBank, Ne.symm hbb]) q
  · intro e he
    rcases mem_rinsert.1 he with rfl | he
    · exact .inr ⟨b, hb, by simp [Imp.forBank]⟩
    · exact h.qin e he
  · exact filter_rinsert_neg (by rfl) q

theorem refreshOnBank_snd (cnt : Counters → Counters) (dur t : Nat) (res : HRes) (b : Nat) :
    (Shared.handleRefreshOnBank cnt dur t res b).2 = res.2 ++ [(t + dur, .refEnd b)] := rfl

theorem refreshOnBank_fst (cnt : Counters → Counters) (dur t : Nat) (res : HRes) (b : Nat) :
    (Shared.handleRefreshOnBank cnt dur t res b).1 = (Shared.handleRefreshOnBank cnt dur t (res.1, []) b).1 := rfl

/-- A list of banks starts refreshing. -/
theorem refreshList_rel {std n T q ent acc} {cnt : Counters → Counters} {dur : Nat}
    (hcnt : ∀ c, (cnt c).act = c.act ∧ (cnt c).pre = c.pre) {L : List Nat} :
    ∀ {res : HRes} {σ : State}, Rel std n T (res.2.foldl (fun q i => rinsert i q) q) res.1 σ ent acc →
    σ.mode = .normal → (∀ b ∈ L, b < n) → L.Nodup → (∀ b ∈ L, (σ.bank b).status = .idle) →
    Rel std n T ((L.foldl (Shared.handleRefreshOnBank cnt dur T) res).2.foldl (fun q i => rinsert i q) q)
      (L.foldl (Shared.handleRefreshOnBank cnt dur T) res).1
      (σ.onBanks (fun b => decide (b ∈ L)) (·.refresh T dur)) ent acc := by
  induction L with
  | nil => intro r σ h _ _ _ _; exact h.congr rfl (by intro b _; simp [State.onBanks])
  | cons b L ih =>
    intro res σ h hm hL hnd hi
    have hnd' := List.nodup_cons.1 hnd
    have h1 := refreshOne_rel hcnt h hm (dur := dur) res.2 (hL b (by simp)) (hi b (by simp))
    have h1' : Rel std n T ((Shared.handleRefreshOnBank cnt dur T res b).2.foldl (fun q i => rinsert i q) q)
        (Shared.handleRefreshOnBank cnt dur T res b).1 (σ.setBank b ((σ.bank b).refresh T dur)) ent acc := by
      rw [refreshOnBank_snd, List.foldl_append]
      exact h1
    have h2 := ih h1' hm (fun b' hb' => hL b' (by simp [hb'])) hnd'.2 (by
      intro b' hb'
      have hbb : b' ≠ b := by rintro rfl; exact hnd'.1 hb'
      rw [State.setBank_ne _ _ hbb]; exact hi b' (by simp [hb']))
    refine h2.congr rfl ?_
    intro b' _
    by_cases hbb : b' = b
    · subst hbb
      simp [State.onBanks, hnd'.1]
    · by_cases hin : b' ∈ L
      · simp [State.onBanks, hin, State.setBank_ne _ _ hbb]
      · simp [State.onBanks, hin, hbb, State.setBank_ne _ _ hbb]

/-- Setting the end of the refresh. -/
theorem Rel.setEndRef {std n T q r σ ent acc} (h : Rel std n T q r σ ent acc) {u : Nat}
    (hu : ∃ b < n, (σ.bank b).status = .refreshing u) :
    Rel std n T q { r with endRefreshTime := u } σ ent acc := by
  have hm := h.modeRel
  exact ⟨h.nb, h.npos, h.qge, h.qord, h.qbank, h.qin, h.qmode, h.bank,
    ⟨hm.mem, hm.pda, hm.pdp, hm.sref, hm.dsm, hm.entT, hm.srefT, hm.pdaStart⟩, h.ract, h.modeOK, fun _ => hu⟩

/-! ## DDR4: all banks at once -/

theorem refQueue {tE : Nat} {L : List Nat} : ∀ {q : List (Nat × Imp)}, L.Nodup → mq q = [] → q.Pairwise qord →
    (∀ b ∈ L, bq b q = []) →
    let q' := (L.map fun b => (tE, Imp.refEnd b)).foldl (fun q i => rinsert i q) q
    mq q' = [] ∧ q'.Pairwise qord ∧ (∀ b, bq b q' = if b ∈ L then [(tE, Imp.refEnd b)] else bq b q) ∧
    (∀ e ∈ q', e ∈ q ∨ ∃ b ∈ L, e = (tE, Imp.refEnd b)) := by
  induction L with
  | nil => intro q _ h1 h2 _; exact ⟨h1, h2, by simp, fun e he => .inl he⟩
  | cons b L ih =>
    intro q hnd h1 h2 h3
    have hnd' := List.nodup_cons.1 hnd
    have m1 : mq (rinsert (tE, Imp.refEnd b) q) = [] := by
      rw [show mq (rinsert _ q) = mq q from filter_rinsert_neg (by rfl) q]; exact h1
    have b1 : ∀ b', bq b' (rinsert (tE, Imp.refEnd b) q) = if b' = b then [(tE, Imp.refEnd b)] else bq b' q := by
      intro b'
      by_cases hbb : b' = b
      · subst hbb
        rw [if_pos rfl]
        exact filter_rinsert_nil (by simp [Imp.forBank]) (h3 b' (by simp))
      · rw [if_neg hbb]
        exact filter_rinsert_neg (by simp [Imp.forBank, Ne.symm hbb]) q
    have := ih (q := rinsert (tE, Imp.refEnd b) q) hnd'.2 m1 (rinsert_qord_bank h1 h2) (by
      intro b' hb'
      have hbb : b' ≠ b := by rintro rfl; exact hnd'.1 hb'
      rw [b1, if_neg hbb]; exact h3 b' (by simp [hb']))
    obtain ⟨g1, g2, g3, g4⟩ := this
    refine ⟨g1, g2, ?_, ?_⟩
    · intro b'
      have := g3 b'
      simp only [List.map_cons, List.foldl_cons]
      rw [this]
      by_cases hbb : b' = b
      · subst hbb
        simp [hnd'.1, b1]
      · by_cases hin : b' ∈ L <;> simp [hin, hbb, b1]
    · intro e he
      rcases g4 e he with h' | ⟨b', hb', h'⟩
      · rcases mem_rinsert.1 h' with h' | h'
        · exact .inr ⟨b, by simp, h'⟩
        · exact .inl h'
      · exact .inr ⟨b', by simp [hb'], h'⟩

theorem refAllDDR4_rel {n T q r σ ent acc} {ms : MemSpec} (h : Rel .ddr4 n T q r σ ent acc) (hm : σ.mode = .normal)
    (hidle : ∀ b < n, (σ.bank b).status = .idle) :
    Rel .ddr4 n T ((DDR4.handleRefAll ms r T).2.foldl (fun q i => rinsert i q) q) (DDR4.handleRefAll ms r T).1
      (σ.onBanks (fun _ => true) (·.refresh T ms.tRFC)) ent acc := by
  have hmq : mq q = [] := by rw [h.qmode, hm]; rfl
  have hbn : ∀ b < n, b < r.nBanks := fun b hb => by rw [h.nb]; exact hb
  have hq := refQueue (tE := T + ms.tRFC) (L := List.range r.nBanks) (q := q) List.nodup_range hmq h.qord (by
    intro b hb
    rw [List.mem_range, h.nb] at hb
    rw [h.qbank b hb, hidle b hb]; rfl)
  obtain ⟨g1, g2, g3, g4⟩ := hq
  have hqe : (DDR4.handleRefAll ms r T).2 = (List.range r.nBanks).map fun b => (T + ms.tRFC, Imp.refEnd b) := rfl
  rw [hqe]
  have hres := openBanks_rel (S := fun _ => True) (s' := fun b' => (σ.bank b').refresh T ms.tRFC)
    (r' := (DDR4.handleRefAll ms r T).1) h hm ⟨0, h.npos, trivial⟩
    (by intro b' _; simp [BankS.refresh]) ?_ (by simp) h.nb
    (h.ract_normal hm).startIfNotRunning rfl rfl rfl rfl rfl ?_ ?_ g2 ?_ ?_ (by rw [g1, hmq])
  · refine hres.congr hm ?_
    intro b' _; simp [State.onBanks]
  · intro b hb _
    have hbr := h.bank b hb
    have hcl : Tr (r.banks b).act T (acc.act b) false := (h.low_normal hm b hb).cast (by simp [hidle b hb])
    have hb' : (DDR4.handleRefAll ms r T).1.banks b = { r.banks b with
        state := .active
        counter := { (r.banks b).counter with refAllBank := (r.banks b).counter.refAllBank + 1 }
        act := (r.banks b).act.startIfNotRunning T
        refreshEndTime := T + ms.tRFC } := by
      simp [DDR4.handleRefAll, Rank.mapBanks, hbn b hb]
    rw [hb']
    refine ⟨by simp [BankS.refresh], hcl.startIfNotRunning.cast (by simp [BankS.refresh, lowNow]), hbr.acted, hbr.pre, rfl, ?_,
      by simp [BankS.refresh], by simp [BankS.refresh], by simp [BankS.refresh], by simp⟩
    intro _
    simp [sinceOK, BankS.refresh, Interval.startIfNotRunning, hcl.openEq, Interval.getStart_startAt]
  · intro _
    exact ⟨0, h.npos, by simp [BankS.refresh]; rfl⟩
  · intro e he
    rcases g4 e he with h' | ⟨b, hb, rfl⟩
    · exact h.qge e h'
    · simp only; omega
  · intro b hb
    rw [g3, if_pos (List.mem_range.2 (hbn b hb))]
    simp [BankS.refresh, expBQ]
  · intro e he
    rcases g4 e he with h' | ⟨b, hb, rfl⟩
    · exact h.qin e h'
    · rw [List.mem_range, h.nb] at hb
      exact .inr ⟨b, hb, by simp [Imp.forBank]⟩

theorem refAll_rel {std n T q r σ ent acc} {ms : MemSpec} (h : Rel std n T q r σ ent acc) (hm : σ.mode = .normal)
    (hidle : ∀ b < n, (σ.bank b).status = .idle) :
    Rel std n T ((handleRefAll std ms r T).2.foldl (fun q i => rinsert i q) q) (handleRefAll std ms r T).1
      (σ.onBanks (fun _ => true) (·.refresh T ms.tRFC)) ent acc := by
  have shared : Rel std n T ((Shared.handleRefAll ms r T).2.foldl (fun q i => rinsert i q) q) (Shared.handleRefAll ms r T).1
      (σ.onBanks (fun _ => true) (·.refresh T ms.tRFC)) ent acc := by
    have hmem : ∀ b, b ∈ List.range r.nBanks ↔ b < n := by intro b; rw [List.mem_range, h.nb]
    have h1 := refreshList_rel (std := std) (n := n) (T := T) (q := q) (ent := ent) (acc := acc)
      (cnt := fun c => { c with refAllBank := c.refAllBank + 1 }) (dur := ms.tRFC)
      (fun c => ⟨rfl, rfl⟩) (L := List.range r.nBanks) (res := (r, [])) (σ := σ) h hm
      (fun b hb => (hmem b).1 hb) List.nodup_range (fun b hb => hidle b ((hmem b).1 hb))
    have h2 : Rel std n T ((Shared.handleRefAll ms r T).2.foldl (fun q i => rinsert i q) q)
        ((List.range r.nBanks).foldl (Shared.handleRefreshOnBank (fun c => { c with refAllBank := c.refAllBank + 1 }) ms.tRFC T) (r, [])).1
        (σ.onBanks (fun _ => true) (·.refresh T ms.tRFC)) ent acc := by
      refine h1.congr rfl ?_
      intro b hb
      simp [State.onBanks, h.nb, hb]
    refine h2.setEndRef ⟨0, h.npos, ?_⟩
    simp [State.onBanks, BankS.refresh]
  cases std with
  | ddr4 => exact refAllDDR4_rel h hm hidle
  | ddr5 => exact shared
  | lpddr4 => exact shared
  | lpddr5 => exact shared
  | lpddr6 => exact shared

end DRAMPower
