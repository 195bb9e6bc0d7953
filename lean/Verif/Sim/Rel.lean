import Verif.Sim.Basic

/-!
# The simulation relation between a rank-local machine and the reference timeline
-/

namespace DRAMPower

open Spec

/-! ## Queue bookkeeping -/

def Imp.isMode : Imp → Bool
  | .pre _ | .refEnd _ => false
  | _ => true

def Imp.forBank (b : Nat) : Imp → Bool
  | .pre b' | .refEnd b' => b' = b
  | _ => false

/-- Pending entries of bank `b`. -/
def bq (b : Nat) (q : List (Nat × Imp)) : List (Nat × Imp) := q.filter fun e => e.2.forBank b

/-- Pending mode changes. -/
def mq (q : List (Nat × Imp)) : List (Nat × Imp) := q.filter fun e => e.2.isMode

/-- Queue order: by time, and a mode change comes after the bank entries of the same time. -/
def qord (a b : Nat × Imp) : Prop :=
  a.1 < b.1 ∨ (a.1 = b.1 ∧ (a.2.isMode = true → b.2.isMode = true))

def expBQ (b : Nat) : Status → List (Nat × Imp)
  | .idle | .opened none => []
  | .opened (some p) => [(p, .pre b)]
  | .refreshing u => [(u, .refEnd b)]

def enterImp (a : Bool) : Imp := if a then .pdaEnter else .pdpEnter
def exitImp (a : Bool) : Imp := if a then .pdaExit else .pdpExit

/-- Pending mode changes in mode `m`; `ent` tells whether the entry has been executed. -/
def expMQ (m : Mode) (ent : Bool) : List (Nat × Imp) :=
  match m with
  | .normal | .dsm => []
  | .pd a e x => (if ent then [] else [(e, enterImp a)]) ++
      (match x with | some x => [(x, exitImp a)] | none => [])
  | .sref s => if ent then [] else [(s, .srefEnter)]

/-- Low-power category the code is in. -/
def lowNow (m : Mode) (ent : Bool) : Option Cat :=
  match m with
  | .normal => none
  | .pd a _ _ => if ent then some (if a then .pda else .pdp) else none
  | .sref _ => if ent then some .sref else none
  | .dsm => some .dsm

def expMem (m : Mode) (ent : Bool) : MemState :=
  match lowNow m ent with
  | some .pda => .pdnAct
  | some .pdp => .pdnPre
  | some .sref => .sref
  | some .dsm => .dsm
  | _ => .notInPD

/-- Time accumulated per category: `act b` for bank `b`, the rest for the rank. -/
structure Acc where
  act : Nat → Nat
  ract : Nat
  pda : Nat
  pdp : Nat
  sref : Nat
  dsm : Nat

/-! ## The relation -/

def sinceOK (m : Mode) (s : BankS) (start : Nat) : Prop :=
  match m with
  | .pd true _ (some x) => if s.isOpen x then s.since = x else start = s.since
  | _ => start = s.since

structure BankRel (std : Std) (m : Mode) (ent : Bool) (T : Nat) (s : BankS) (x : Bank) (k : Nat) : Prop where
  state : x.state = if s.status = .idle then .precharged else .active
  tr : Tr x.act T k (decide (s.status ≠ .idle) && decide (lowNow m ent = none))
  acted : x.counter.act = 0 ↔ s.acted = false
  pre : x.counter.pre = s.pres ∧ match s.preAt with | none => s.pres = 0 | some p => s.pres ≠ 0 ∧ x.latestPre = p
  refEnd : x.refreshEndTime = s.refEnd
  since : s.acted = true → sinceOK m s x.act.getStart
  opAct : ∀ o, s.status = .opened o → s.acted = true
  refr : ∀ u, s.status = .refreshing u → s.refEnd = u
  stop : std ≠ .ddr4 → s.status = .idle → s.acted = true →
    s.preAt = some x.act.getEnd ∨ x.act.getEnd = s.refEnd
  stopPd : std ≠ .ddr4 → ∀ e y, m = .pd true e y → ent = true → s.status ≠ .idle → x.act.getEnd = e

structure ModeRel (m : Mode) (ent : Bool) (T : Nat) (r : Rank) (acc : Acc) : Prop where
  mem : r.memState = expMem m ent
  pda : Tr r.powerDownAct T acc.pda (decide (lowNow m ent = some .pda))
  pdp : Tr r.powerDownPre T acc.pdp (decide (lowNow m ent = some .pdp))
  sref : Tr r.sref T (acc.sref + acc.dsm)
    (decide (lowNow m ent = some .sref) || decide (lowNow m ent = some .dsm))
  dsm : Tr r.deepSleepMode T acc.dsm (decide (lowNow m ent = some .dsm))
  entT : ent = true → ∀ a e x, m = .pd a e x → e ≤ T
  srefT : ent = true → ∀ s, m = .sref s → s ≤ T
  pdaStart : ent = true → ∀ e x, m = .pd true e x → r.powerDownAct.getStart = e

/-- Facts about the timeline that follow from legality while a low-power mode is requested. -/
def ModeOK (std : Std) (n : Nat) (σ : State) (ent : Bool) : Prop :=
  match σ.mode with
  | .normal => True
  | .pd true e x =>
    (∀ b < n, ∀ u, (σ.bank b).status = .refreshing u → u ≤ e) ∧
    (std ≠ .ddr4 → ∀ b < n, (∀ p, (σ.bank b).status = .opened (some p) → p < e) ∧
      ((σ.bank b).acted = true → (σ.bank b).refEnd ≠ e ∧ ∀ p, (σ.bank b).preAt = some p → p < e)) ∧
    (std = .lpddr6 → ∃ b < n, (σ.bank b).status = .opened none) ∧
    (∀ y, x = some y → e ≤ y) ∧
    (ent = true → ∀ b < n, ∀ u, (σ.bank b).status ≠ .refreshing u) ∧
    (ent = true → std ≠ .ddr4 → ∀ b < n, ∀ p, (σ.bank b).status ≠ .opened (some p))
  | .pd false e x => (∀ b < n, (σ.bank b).isOpen e = false) ∧ (∀ y, x = some y → e ≤ y) ∧
    (ent = true → ∀ b < n, (σ.bank b).status = .idle)
  | .sref s => (∀ b < n, (σ.bank b).isOpen s = false) ∧
    (ent = true → ∀ b < n, (σ.bank b).status = .idle)
  | .dsm => ∀ b < n, (σ.bank b).status = .idle

structure Rel (std : Std) (n T : Nat) (q : List (Nat × Imp)) (r : Rank) (σ : State) (ent : Bool)
    (acc : Acc) : Prop where
  nb : r.nBanks = n
  npos : 0 < n
  qge : ∀ e ∈ q, T ≤ e.1
  qord : q.Pairwise qord
  qbank : ∀ b < n, bq b q = expBQ b (σ.bank b).status
  qin : ∀ e ∈ q, e.2.isMode = true ∨ ∃ b < n, e.2.forBank b = true
  qmode : mq q = expMQ σ.mode ent
  bank : ∀ b < n, BankRel std σ.mode ent T (σ.bank b) (r.banks b) (acc.act b)
  modeRel : ModeRel σ.mode ent T r acc
  ract : Tr r.act T acc.ract
    (decide (∃ b < n, (σ.bank b).status ≠ .idle) && decide (lowNow σ.mode ent = none))
  modeOK : ModeOK std n σ ent
  endRef : T < r.endRefreshTime → ∃ b < n, (σ.bank b).status = .refreshing r.endRefreshTime

/-- The relation only looks at the first `n` banks of the timeline. -/
theorem Rel.congr {std n T q r σ σ' ent acc} (h : Rel std n T q r σ ent acc) (hm : σ'.mode = σ.mode)
    (hb : ∀ b < n, σ'.bank b = σ.bank b) : Rel std n T q r σ' ent acc := by
  have hex : (∃ b < n, (σ'.bank b).status ≠ .idle) ↔ (∃ b < n, (σ.bank b).status ≠ .idle) := by
    constructor <;> rintro ⟨b, hb', h'⟩ <;> exact ⟨b, hb', by simpa [hb b hb'] using h'⟩
  refine ⟨h.nb, h.npos, h.qge, h.qord, ?_, h.qin, ?_, ?_, ?_, ?_, ?_, ?_⟩
  · intro b hb'; rw [hb b hb']; exact h.qbank b hb'
  · rw [hm]; exact h.qmode
  · intro b hb'; rw [hb b hb', hm]; exact h.bank b hb'
  · rw [hm]; exact h.modeRel
  · rw [hm]; have := h.ract; simp only [hex]; exact this
  · have := h.modeOK
    unfold ModeOK at this ⊢
    rw [hm]
    split at this
    · trivial
    · obtain ⟨h1, h2, h3, h4, h5, h6⟩ := this
      refine ⟨?_, ?_, ?_, h4, ?_, ?_⟩
      · intro b hb'; rw [hb b hb']; exact h1 b hb'
      · intro hs b hb'; rw [hb b hb']; exact h2 hs b hb'
      · intro hs; obtain ⟨b, hb', hx⟩ := h3 hs; exact ⟨b, hb', by rw [hb b hb']; exact hx⟩
      · intro he b hb'; rw [hb b hb']; exact h5 he b hb'
      · intro he hs b hb'; rw [hb b hb']; exact h6 he hs b hb'
    · obtain ⟨h1, h2, h3⟩ := this
      refine ⟨?_, h2, ?_⟩
      · intro b hb'; rw [hb b hb']; exact h1 b hb'
      · intro he b hb'; rw [hb b hb']; exact h3 he b hb'
    · obtain ⟨h1, h3⟩ := this
      refine ⟨?_, ?_⟩
      · intro b hb'; rw [hb b hb']; exact h1 b hb'
      · intro he b hb'; rw [hb b hb']; exact h3 he b hb'
    · intro b hb'; rw [hb b hb']; exact this b hb'
  · intro ht
    obtain ⟨b, hb', hx⟩ := h.endRef ht
    exact ⟨b, hb', by rw [hb b hb']; exact hx⟩

/-! ## Passing of time -/

/-- Accumulated time after `d` more cycles in which nothing happens. -/
def Acc.adv (acc : Acc) (n d : Nat) (σ : State) (ent : Bool) : Acc where
  act b := acc.act b + if (decide ((σ.bank b).status ≠ .idle) && decide (lowNow σ.mode ent = none)) then d else 0
  ract := acc.ract +
    if (decide (∃ b < n, (σ.bank b).status ≠ .idle) && decide (lowNow σ.mode ent = none)) then d else 0
  pda := acc.pda + if decide (lowNow σ.mode ent = some .pda) then d else 0
  pdp := acc.pdp + if decide (lowNow σ.mode ent = some .pdp) then d else 0
  sref := acc.sref + if decide (lowNow σ.mode ent = some .sref) then d else 0
  dsm := acc.dsm + if decide (lowNow σ.mode ent = some .dsm) then d else 0

theorem Rel.advance {std n T q r σ ent acc} (h : Rel std n T q r σ ent acc) {T' : Nat} (hT : T ≤ T')
    (hq : ∀ e ∈ q, T' ≤ e.1) : Rel std n T' q r σ ent (acc.adv n (T' - T) σ ent) := by
  refine ⟨h.nb, h.npos, hq, h.qord, h.qbank, h.qin, h.qmode, ?_, ?_, h.ract.adv hT, h.modeOK, ?_⟩
  · intro b hb
    have hr := h.bank b hb
    exact ⟨hr.state, hr.tr.adv hT, hr.acted, hr.pre, hr.refEnd, hr.since, hr.opAct, hr.refr, hr.stop, hr.stopPd⟩
  · have hm := h.modeRel
    refine ⟨hm.mem, hm.pda.adv hT, hm.pdp.adv hT, ?_, hm.dsm.adv hT, ?_, ?_, hm.pdaStart⟩
    · have := hm.sref.adv hT
      simp only [Acc.adv]
      have heq : acc.sref + acc.dsm + (if (decide (lowNow σ.mode ent = some Cat.sref) || decide (lowNow σ.mode ent = some Cat.dsm)) = true then T' - T else 0) =
          acc.sref + (if decide (lowNow σ.mode ent = some Cat.sref) = true then T' - T else 0) +
          (acc.dsm + (if decide (lowNow σ.mode ent = some Cat.dsm) = true then T' - T else 0)) := by
        by_cases h1 : lowNow σ.mode ent = some .sref
        · simp [h1]; omega
        · by_cases h2 : lowNow σ.mode ent = some .dsm
          · simp [h2]; omega
          · simp [h1, h2]
      rw [← heq]; exact this
    · intro he a e x hx; have := hm.entT he a e x hx; omega
    · intro he s hx; have := hm.srefT he s hx; omega
  · intro ht
    exact h.endRef (by omega)

/-! ## Small facts -/

theorem Rel.state_iff {std n T q r σ ent acc} (h : Rel std n T q r σ ent acc) {b : Nat} (hb : b < n) :
    (r.banks b).state = .active ↔ (σ.bank b).status ≠ .idle := by
  rw [(h.bank b hb).state]
  split <;> simp_all

theorem isActive_iff {r : Rank} {t : Nat}
    (he : t < r.endRefreshTime → ∃ b < r.nBanks, (r.banks b).state = .active) :
    r.isActive t = true ↔ ∃ b < r.nBanks, (r.banks b).state = .active := by
  have hc : r.countActiveBanks > 0 ↔ ∃ b < r.nBanks, (r.banks b).state = .active := by
    unfold Rank.countActiveBanks
    rw [gt_iff_lt, List.countP_pos_iff]
    simp
  unfold Rank.isActive
  rw [Bool.or_eq_true, decide_eq_true_eq, decide_eq_true_eq, hc]
  constructor
  · rintro (h | h)
    · exact h
    · exact he h
  · exact .inl

theorem Rel.isActive_iff {std n T q r σ ent acc} (h : Rel std n T q r σ ent acc) :
    r.isActive T = true ↔ ∃ b < n, (σ.bank b).status ≠ .idle := by
  have key : ∀ b < n, ((r.banks b).state = .active ↔ (σ.bank b).status ≠ .idle) :=
    fun b hb => h.state_iff hb
  rw [DRAMPower.isActive_iff]
  · rw [h.nb]
    constructor <;> rintro ⟨b, hb, hx⟩
    · exact ⟨b, hb, (key b hb).1 hx⟩
    · exact ⟨b, hb, (key b hb).2 hx⟩
  · intro ht
    obtain ⟨b, hb, hx⟩ := h.endRef ht
    rw [h.nb]
    exact ⟨b, hb, (key b hb).2 (by rw [hx]; simp)⟩

/-! ## Queue operations -/

theorem bq_cons_ne {b : Nat} {e : Nat × Imp} {q} (h : e.2.forBank b = false) : bq b (e :: q) = bq b q := by
  simp [bq, h]

theorem bq_cons_eq {b : Nat} {e : Nat × Imp} {q} (h : e.2.forBank b = true) : bq b (e :: q) = e :: bq b q := by
  simp [bq, h]

theorem mq_cons_ne {e : Nat × Imp} {q} (h : e.2.isMode = false) : mq (e :: q) = mq q := by
  simp [mq, h]

theorem mq_cons_eq {e : Nat × Imp} {q} (h : e.2.isMode = true) : mq (e :: q) = e :: mq q := by
  simp [mq, h]

theorem Imp.forBank_of_isMode {i : Imp} (h : i.isMode = true) (b : Nat) : i.forBank b = false := by
  cases i <;> simp_all [Imp.isMode, Imp.forBank]

theorem Imp.isMode_of_forBank {i : Imp} {b : Nat} (h : i.forBank b = true) : i.isMode = false := by
  cases i <;> simp_all [Imp.isMode, Imp.forBank]

theorem mem_rinsert {e x : Nat × Imp} {q : List (Nat × Imp)} : x ∈ rinsert e q ↔ x = e ∨ x ∈ q := by
  induction q with
  | nil => simp [rinsert]
  | cons y q ih =>
    simp only [rinsert]
    split
    · simp
    · simp only [List.mem_cons, ih]
      constructor
      · rintro (h | h | h) <;> simp [h]
      · rintro (h | h | h) <;> simp [h]

theorem filter_rinsert_neg {p : Nat × Imp → Bool} {e : Nat × Imp} (he : p e = false)
    (q : List (Nat × Imp)) : (rinsert e q).filter p = q.filter p := by
  induction q with
  | nil => simp [rinsert, he]
  | cons y q ih =>
    simp only [rinsert]
    split
    · simp [List.filter_cons, he]
    · simp [List.filter_cons, ih]

theorem filter_rinsert_nil {p : Nat × Imp → Bool} {e : Nat × Imp} (he : p e = true)
    {q : List (Nat × Imp)} (hq : q.filter p = []) : (rinsert e q).filter p = [e] := by
  induction q with
  | nil => simp [rinsert, he]
  | cons y q ih =>
    simp only [rinsert]
    have hy : p y = false := by
      cases hpy : p y
      · rfl
      · simp [hpy] at hq
    have hq' : q.filter p = [] := by simpa [List.filter_cons, hy] using hq
    split
    · simp [he, hy, hq']
    · simp [hy, ih hq']

/-- Insertion at the end of the filtered entries when nothing filtered is later. -/
theorem filter_rinsert_last {p : Nat × Imp → Bool} {e : Nat × Imp} (he : p e = true)
    {q : List (Nat × Imp)} (hq : ∀ x ∈ q, p x = true → x.1 ≤ e.1) (hs : q.Pairwise (·.1 ≤ ·.1)) :
    (rinsert e q).filter p = q.filter p ++ [e] := by
  induction q with
  | nil => simp [rinsert, he]
  | cons y q ih =>
    have hs' := List.pairwise_cons.1 hs
    simp only [rinsert]
    split
    · rename_i hlt
      have hnone : (y :: q).filter p = [] := by
        rw [List.filter_eq_nil_iff]
        intro x hx hpx
        have h1 := hq x hx hpx
        rcases List.mem_cons.1 hx with rfl | hx
        · omega
        · have := hs'.1 x hx; omega
      rw [List.filter_cons, he, if_pos rfl, hnone]; rfl
    · rw [List.filter_cons, List.filter_cons, ih (fun x hx => hq x (by simp [hx])) hs'.2]
      split <;> simp

theorem qord.le {a b : Nat × Imp} (h : qord a b) : a.1 ≤ b.1 := by
  rcases h with h | h <;> omega

theorem pairwise_le_of_qord {q : List (Nat × Imp)} (h : q.Pairwise qord) : q.Pairwise (·.1 ≤ ·.1) :=
  h.imp fun h => h.le

/-- Inserting a mode change keeps the order. -/
theorem rinsert_qord_mode {e : Nat × Imp} (he : e.2.isMode = true) {q : List (Nat × Imp)}
    (h : q.Pairwise qord) : (rinsert e q).Pairwise qord := by
  induction q with
  | nil => simp [rinsert]
  | cons y q ih =>
    have h' := List.pairwise_cons.1 h
    simp only [rinsert]
    split
    · rename_i hlt
      refine List.pairwise_cons.2 ⟨?_, h⟩
      intro x hx
      rcases List.mem_cons.1 hx with rfl | hx
      · exact .inl hlt
      · have := (h'.1 x hx).le; exact .inl (by omega)
    · rename_i hge
      refine List.pairwise_cons.2 ⟨?_, ih h'.2⟩
      intro x hx
      rcases mem_rinsert.1 hx with rfl | hx
      · by_cases hyx : y.1 < x.1
        · exact .inl hyx
        · exact .inr ⟨by omega, fun _ => he⟩
      · exact h'.1 x hx

/-- Inserting a bank entry keeps the order when no mode change is pending. -/
theorem rinsert_qord_bank {e : Nat × Imp} {q : List (Nat × Imp)} (hm : mq q = [])
    (h : q.Pairwise qord) : (rinsert e q).Pairwise qord := by
  induction q with
  | nil => simp [rinsert]
  | cons y q ih =>
    have h' := List.pairwise_cons.1 h
    have hy : y.2.isMode = false := by
      cases hpy : y.2.isMode
      · rfl
      · rw [mq_cons_eq hpy] at hm; simp at hm
    rw [mq_cons_ne hy] at hm
    simp only [rinsert]
    split
    · rename_i hlt
      refine List.pairwise_cons.2 ⟨?_, h⟩
      intro x hx
      rcases List.mem_cons.1 hx with rfl | hx
      · exact .inl hlt
      · have := (h'.1 x hx).le; exact .inl (by omega)
    · rename_i hge
      refine List.pairwise_cons.2 ⟨?_, ih hm h'.2⟩
      intro x hx
      rcases mem_rinsert.1 hx with rfl | hx
      · by_cases hyx : y.1 < x.1
        · exact .inl hyx
        · exact .inr ⟨by omega, fun hc => by simp [hy] at hc⟩
      · exact h'.1 x hx

end DRAMPower
