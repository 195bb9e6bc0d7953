import Verif.Lemmas.Interface
import Verif.Spec.Seamless

/-!
# The pre- and postamble counters along a run
-/

namespace DRAMPower
open Spec
variable {N : Nat} {sp : IfSpec}

/-- Counter and end of the last access of one direction. -/
def RankIf.seamless (r : RankIf) (read : Bool) : Nat := if read then r.seamlessRead else r.seamlessWrite
def RankIf.lastEnd (r : RankIf) (read : Bool) : Nat := if read then r.lastReadEnd else r.lastWriteEnd

/-- The part of a rank the counters never leave zero. -/
def RankIf.unmerged (r : RankIf) : Prop := r.mergedRead = 0 ∧ r.mergedWrite = 0 ∧ r.mergedTimeRead = 0 ∧ r.mergedTimeWrite = 0

theorem access_ok {r r' : RankIf} {t n : Nat} {d : Bool} (h : r.access t n d = .ok r') (hu : r.unmerged) (read : Bool) :
    r'.unmerged ∧
    (read = d → r'.lastEnd read = t + n ∧ r.lastEnd read ≤ t ∧
      r'.seamless read = r.seamless read + if t = r.lastEnd read then 1 else 0) ∧
    (read ≠ d → r'.lastEnd read = r.lastEnd read ∧ r'.seamless read = r.seamless read) := by
  unfold RankIf.access at h
  dsimp only at h
  cases d
  · simp only [Bool.false_eq_true, if_false] at h
    split at h
    · exact absurd h (by simp)
    rename_i hle
    split at h <;> rename_i h0 <;> rw [← ok_inj h] <;> refine ⟨hu, fun e => ?_, fun e => ?_⟩ <;> cases read <;>
      simp [RankIf.seamless, RankIf.lastEnd] at e ⊢ <;> omega
  · simp only [if_true] at h
    split at h
    · exact absurd h (by simp)
    rename_i hle
    split at h <;> rename_i h0 <;> rw [← ok_inj h] <;> refine ⟨hu, fun e => ?_, fun e => ?_⟩ <;> cases read <;>
      simp [RankIf.seamless, RankIf.lastEnd] at e ⊢ <;> omega

/-- Counts of a list of spans that follows an access ending at `e`. -/
def counted' (e : Nat) : List Span → Nat
  | [] => 0
  | a :: l => (if a.start = e then 1 else 0) + counted' a.stop l

theorem counted'_eq (a : Span) (l : List Span) : counted' a.stop l = neighbours gapless (a :: l) := by
  induction l generalizing a with
  | nil => rfl
  | cons b l ih =>
    simp only [counted', neighbours, gapless, beq_iff_eq]
    rw [ih b]

/-- State of the ranks of a DDR4 interface relative to the starting one. -/
structure RanksAt (sp : IfSpec) (i : Interface .ddr4 N) (R : Nat) : Prop where
  len : i.ranks.length = R
  mode : i.dataBus.mode = sp.mode
  width : i.width = sp.bitWidth * sp.devices
  unmerged : ∀ r ∈ i.ranks, r.unmerged

theorem step_ranks {i i' : Interface .ddr4 N} {R : Nat} (h : RanksAt sp i R) {op : IfOp} (hs : i.step sp op = .ok i') :
    RanksAt sp i' R ∧ ∀ (k : Nat) (r : RankIf) (read : Bool), i.ranks[k]? = some r → ∃ r', i'.ranks[k]? = some r' ∧
      (match spanOf sp read k op with
        | some a => r'.lastEnd read = a.stop ∧ r.lastEnd read ≤ a.start ∧
            r'.seamless read = r.seamless read + if a.start = r.lastEnd read then 1 else 0
        | none => r'.lastEnd read = r.lastEnd read ∧ r'.seamless read = r.seamless read) := by
  have same : ∀ {j : Interface .ddr4 N}, j.ranks = i.ranks → j.dataBus.mode = i.dataBus.mode → j.width = i.width →
      (∀ read k, spanOf sp read k op = none) → RanksAt sp j R ∧ ∀ (k : Nat) (r : RankIf) (read : Bool), i.ranks[k]? = some r →
      ∃ r', j.ranks[k]? = some r' ∧
      (match spanOf sp read k op with
        | some a => r'.lastEnd read = a.stop ∧ r.lastEnd read ≤ a.start ∧
            r'.seamless read = r.seamless read + if a.start = r.lastEnd read then 1 else 0
        | none => r'.lastEnd read = r.lastEnd read ∧ r'.seamless read = r.seamless read) := by
    intro j h1 h2 h3 hn
    refine ⟨⟨by rw [h1]; exact h.len, h2.trans h.mode, h3.trans h.width, by rw [h1]; exact h.unmerged⟩, fun k r read hr => ?_⟩
    refine ⟨r, by rw [h1]; exact hr, ?_⟩
    rw [hn]
    exact ⟨rfl, rfl⟩
  cases op with
  | dbi e => rw [← ok_inj hs]; exact same rfl rfl rfl (fun _ _ => rfl)
  | metaData a b => rw [← ok_inj hs]; exact same rfl rfl rfl (fun _ _ => rfl)
  | parity b =>
    simp only [Interface.step, Interface.setParityCheckMode] at hs
    split at hs
    · rw [← ok_inj hs]; exact same rfl rfl rfl (fun _ _ => rfl)
    · exact absurd hs (by simp)
  | enable t =>
    simp only [Interface.step, Interface.enable] at hs
    split at hs
    · rw [← ok_inj hs]; exact same rfl rfl rfl (fun _ _ => rfl)
    · split at hs
      · obtain ⟨w, _, hs⟩ := bind_ok hs
        obtain ⟨k, _, hs⟩ := bind_ok hs
        rw [← pure_ok hs]; exact same rfl rfl rfl (fun _ _ => rfl)
      · obtain ⟨w, _, hs⟩ := bind_ok hs
        obtain ⟨k, _, hs⟩ := bind_ok hs
        rw [← pure_ok hs]; exact same rfl rfl rfl (fun _ _ => rfl)
  | disable t =>
    simp only [Interface.step, Interface.disable] at hs
    split at hs
    · rw [← ok_inj hs]; exact same rfl rfl rfl (fun _ _ => rfl)
    · split at hs
      · obtain ⟨w, _, hs⟩ := bind_ok hs
        obtain ⟨k, _, hs⟩ := bind_ok hs
        rw [← pure_ok hs]; exact same rfl rfl rfl (fun _ _ => rfl)
      · obtain ⟨w, _, hs⟩ := bind_ok hs
        obtain ⟨k, _, hs⟩ := bind_ok hs
        rw [← pure_ok hs]; exact same rfl rfl rfl (fun _ _ => rfl)
  | cmd c =>
    obtain ⟨i1, h1, e⟩ := ifCommand_ok hs
    subst e
    have hcase : (∃ read, direction c.type = some read ∧ ifAction sp.arch .ddr4 c.type = .data read) ∨
        (direction c.type = none ∧ (ifAction sp.arch .ddr4 c.type = .bus ∨ ifAction sp.arch .ddr4 c.type = .finish ∨
          ifAction sp.arch .ddr4 c.type = .invalid)) := by
      cases c.type <;> simp [direction, ifAction]
    rcases hcase with ⟨d, hd, ha⟩ | ⟨hd, ha⟩
    · rw [ha] at h1
      obtain ⟨j1, len, j2, j3, j4, t1, t2, t3, t4, t5⟩ := handleData_ok h1
      obtain ⟨⟨_, _, _, _, _, e1, _, _⟩, m1, w1, l1⟩ := transfer_ok t1
      obtain ⟨_, _, e2⟩ := dqs_ok t2
      obtain ⟨_, e3⟩ := runWck_ok t3
      obtain ⟨_, _, e3'⟩ := overrides_eq j3 len d
      rw [e3'] at t4
      obtain ⟨_, _, _, _, _, _, e4⟩ := handleCommandBus_ok t4
      have hlen : len = burstBeats sp c := by
        rw [l1 (by decide), h.mode, h.width]
        unfold burstBeats IfSpec.mode
        cases sp.toggling <;> simp
      have r4 : j4.ranks = i.ranks := by rw [e4]; show j3.ranks = _; rw [e3, e2]; show j1.ranks = _; rw [e1]
      have m4 : j4.dataBus.mode = i.dataBus.mode := by rw [e4]; show j3.dataBus.mode = _; rw [e3, e2]; exact m1
      have w4 : j4.width = i.width := by rw [e4]; show j3.width = _; rw [e3, e2]; exact w1
      rcases prePostamble_ok t5 with ⟨hn, _⟩ | ⟨_, r, r', hr, hacc, e5⟩
      · exact absurd rfl hn
      rw [r4] at hr
      have hru : r.unmerged := h.unmerged r (List.mem_of_getElem? hr)
      have hk := access_ok hacc hru
      subst e5
      refine ⟨⟨by show (j4.ranks.set _ _).length = _; rw [List.length_set, r4]; exact h.len, m4.trans h.mode,
        w4.trans h.width, ?_⟩, fun k rk read hrk => ?_⟩
      · intro x hx
        rcases List.mem_or_eq_of_mem_set hx with hx | hx
        · exact h.unmerged x (by rw [← r4]; exact hx)
        · rw [hx]; exact (hk true).1
      · show ∃ r'', (j4.ranks.set c.co.rank r')[k]? = some r'' ∧ _
        rw [List.getElem?_set, r4]
        by_cases hkr : c.co.rank = k
        · subst hkr
          have hlt : c.co.rank < i.ranks.length := (List.getElem?_eq_some_iff.1 hrk).1
          rw [if_pos rfl, if_pos hlt]
          refine ⟨r', rfl, ?_⟩
          rw [hr] at hrk
          injection hrk with hrk
          subst hrk
          by_cases hrd : read = d
          · have := (hk read).2.1 hrd
            simp only [spanOf, hd, hrd, true_and, if_true]
            rw [← hlen, ← hrd]
            exact this
          · have := (hk read).2.2 hrd
            have hne : ¬ (direction c.type = some read ∧ c.co.rank = c.co.rank) := by
              rw [hd]; rintro ⟨e, _⟩; injection e with e; exact hrd e.symm
            have hs : spanOf sp read c.co.rank (.cmd c) = none := if_neg hne
            rw [hs]
            exact this
        · rw [if_neg hkr]
          refine ⟨rk, hrk, ?_⟩
          have hs : spanOf sp read k (.cmd c) = none := by
            simp only [spanOf]
            exact if_neg (fun e => hkr e.2)
          rw [hs]
          exact ⟨rfl, rfl⟩
    · have hn : ∀ read k, spanOf sp read k (.cmd c) = none := by
        intro read k
        simp only [spanOf, hd]
        simp
      rcases ha with ha | ha | ha <;> rw [ha] at h1
      · obtain ⟨_, _, _, _, _, _, e4⟩ := handleCommandBus_ok h1
        subst e4
        exact same rfl rfl rfl hn
      · obtain ⟨_, _, _, e4, _, _⟩ := endOfSimulation_ok h1
        subst e4
        exact same rfl rfl rfl hn
      · exact absurd h1 (by simp [Interface.act])

theorem run_ranks : ∀ (ops : List IfOp) {i i' : Interface .ddr4 N} {R : Nat}, RanksAt sp i R → i.run sp ops = .ok i' →
    RanksAt sp i' R ∧ ∀ (k : Nat) (r : RankIf) (read : Bool), i.ranks[k]? = some r → ∃ r', i'.ranks[k]? = some r' ∧
      r'.seamless read = r.seamless read + counted' (r.lastEnd read) (spans sp read k ops)
  | [], i, i', R, h, hr => by
    rw [← ok_inj hr]
    exact ⟨h, fun k r read hk => ⟨r, hk, by simp [spans, counted']⟩⟩
  | op :: ops, i, i', R, h, hr => by
    obtain ⟨j, h1, h2⟩ := Interface.run_cons hr
    obtain ⟨hj, k1⟩ := step_ranks h h1
    obtain ⟨hi', k2⟩ := run_ranks ops hj h2
    refine ⟨hi', fun k r read hk => ?_⟩
    obtain ⟨r1, hr1, p1⟩ := k1 k r read hk
    obtain ⟨r2, hr2, p2⟩ := k2 k r1 read hr1
    refine ⟨r2, hr2, ?_⟩
    rw [p2]
    cases hsp : spanOf sp read k op with
    | none =>
      rw [hsp] at p1
      have hc : spans sp read k (op :: ops) = spans sp read k ops := List.filterMap_cons_none hsp
      rw [p1.1, p1.2, hc]
    | some a =>
      rw [hsp] at p1
      have hc : spans sp read k (op :: ops) = a :: spans sp read k ops := List.filterMap_cons_some hsp
      rw [p1.1, p1.2.2, hc, counted']
      omega

theorem init_ok {std : Std} {i : Interface std N} (h : Interface.init std N sp = .ok i) :
    i.dataBus.mode = sp.mode ∧ i.width = sp.bitWidth * sp.devices ∧
      i.ranks = (if std = .ddr4 then List.replicate sp.ranks {} else []) := by
  unfold Interface.init at h
  obtain ⟨cb, _, h⟩ := bind_ok h
  obtain ⟨db, h2, h⟩ := bind_ok h
  obtain ⟨di, _, h⟩ := bind_ok h
  split at h
  · exact absurd h (by simp)
  · rw [← pure_ok h]
    unfold DataBus.init at h2
    obtain ⟨ir, _, h2⟩ := bind_ok h2
    obtain ⟨br, h4, h2⟩ := bind_ok h2
    obtain ⟨iw, _, h2⟩ := bind_ok h2
    obtain ⟨bw, _, h2⟩ := bind_ok h2
    obtain ⟨tr, _, h2⟩ := bind_ok h2
    obtain ⟨tw, _, h2⟩ := bind_ok h2
    have e := pure_ok h2
    subst e
    refine ⟨rfl, ?_, rfl⟩
    show br.width = _
    unfold Bus.init at h4
    split at h4
    · exact absurd h4 (by simp)
    · rw [← ok_inj h4]
      rfl

end DRAMPower
