import Verif.Props.C03
import Verif.Lemmas.SelfRefresh

/-!
# C14: self-refresh and deep-sleep accounting

The two figures in closed form, directly from the timestamps of the commands, without a timeline.
-/

namespace DRAMPower

open Spec

namespace Spec

/-- Self-refresh time of a rank up to time `T`: every self-refresh phase lasts from `tRFC` after its
SREFEN to its SREFEX (or to `T`). `begin`: start of the phase in progress, if any. -/
def selfRefreshSpans (tRFC T : Nat) : Option Nat → List Cmd → Nat
  | none, [] => 0
  | some b, [] => T - b
  | none, c :: h => if c.type = .SREFEN then selfRefreshSpans tRFC T (some (c.t + tRFC)) h else selfRefreshSpans tRFC T none h
  | some b, c :: h => if c.type = .SREFEX then (c.t - b) + selfRefreshSpans tRFC T none h else selfRefreshSpans tRFC T (some b) h

/-- Deep-sleep time of a rank up to time `T`: from each DSMEN to the following DSMEX (or to `T`). -/
def deepSleepSpans (T : Nat) : Option Nat → List Cmd → Nat
  | none, [] => 0
  | some b, [] => T - b
  | none, c :: h => if c.type = .DSMEN then deepSleepSpans T (some c.t) h else deepSleepSpans T none h
  | some b, c :: h => if c.type = .DSMEX then (c.t - b) + deepSleepSpans T none h else deepSleepSpans T (some b) h

end Spec

/-- Full statement: the reported deep-sleep time is the time between DSM entry and exit, and the reported
self-refresh time is what remains of the self-refresh phases (the sum is exact: nothing wraps). -/
def C14_statement (std : Std) : Prop :=
  ∀ ms cmds, ValidSpec std ms → LegalTrace std ms cmds →
  ∀ c, (Core.init ms).run std ms cmds = .ok c → ∀ t, NotBefore cmds t → ∀ i < ms.numberOfRanks,
    (∀ b < ms.numberOfBanks, ∃ x, (c.getWindowStats std ms t).2.bank[i * ms.numberOfBanks + b]? = some x ∧
      x.cycles.deepSleepMode = deepSleepSpans t none (forRank std i cmds) ∧
      x.cycles.selfRefresh + x.cycles.deepSleepMode = selfRefreshSpans ms.tRFC t none (forRank std i cmds)) ∧
    ∃ x, (c.getWindowStats std ms t).2.rankTotal[i]? = some x ∧
      x.deepSleepMode = deepSleepSpans t none (forRank std i cmds) ∧
      x.selfRefresh + x.deepSleepMode = selfRefreshSpans ms.tRFC t none (forRank std i cmds)

/-! ## Counting over the timeline -/

/-- Number of `τ` with `a ≤ τ < b` satisfying `p`. -/
def cnt (p : Nat → Bool) (a b : Nat) : Nat := (List.range' a (b - a)).countP p

theorem cnt_split {p : Nat → Bool} {a b c : Nat} (h1 : a ≤ b) (h2 : b ≤ c) : cnt p a c = cnt p a b + cnt p b c := by
  unfold cnt
  rw [← List.countP_append]
  have : c - a = (b - a) + (c - b) := by omega
  rw [this, ← List.range'_append_1]
  congr 3
  omega

theorem cnt_congr {p q : Nat → Bool} {a b : Nat} (h : ∀ τ, a ≤ τ → τ < b → p τ = q τ) : cnt p a b = cnt q a b := by
  unfold cnt
  apply List.countP_congr
  intro τ hτ
  have := List.mem_range'_1.1 hτ
  rw [h τ (by omega) (by omega)]

theorem cnt_false {p : Nat → Bool} {a b : Nat} (h : ∀ τ, a ≤ τ → τ < b → p τ = false) : cnt p a b = 0 := by
  unfold cnt
  rw [List.countP_eq_zero]
  intro τ hτ
  have := List.mem_range'_1.1 hτ
  rw [h τ (by omega) (by omega)]
  simp

theorem cnt_true {p : Nat → Bool} {a b : Nat} (h : ∀ τ, a ≤ τ → τ < b → p τ = true) : cnt p a b = b - a := by
  unfold cnt
  rw [List.countP_eq_length.2, List.length_range']
  intro τ hτ
  have := List.mem_range'_1.1 hτ
  exact h τ (by omega) (by omega)

/-- `p` holds exactly from `s` on. -/
theorem cnt_from {p : Nat → Bool} {a b s : Nat} (hab : a ≤ b) (h : ∀ τ, a ≤ τ → τ < b → p τ = decide (s ≤ τ)) :
    cnt p a b = b - max a s := by
  by_cases h1 : s ≤ a
  · rw [cnt_true]
    · omega
    · intro τ h2 h3; rw [h τ h2 h3]; simp; omega
  · by_cases h2 : s ≤ b
    · rw [cnt_split (b := s) (by omega) h2, cnt_false, cnt_true]
      · omega
      · intro τ h3 h4; rw [h τ (by omega) h4]; simp; omega
      · intro τ h3 h4; rw [h τ h3 (by omega)]; simp; omega
    · rw [cnt_false]
      · omega
      · intro τ h3 h4; rw [h τ h3 h4]; simp; omega

/-- The state governing `τ` when the history `h` starts in state `s`. -/
def stateFrom (std : Std) (ms : MemSpec) (s : State) (h : List Cmd) (τ : Nat) : State :=
  (h.filter (·.t ≤ τ)).foldl (apply std ms) s

theorem stateFrom_before {std ms s} {h : List Cmd} {τ now : Nat} (ht : TimesFrom now h) (hlt : τ < now) : stateFrom std ms s h τ = s := by
  unfold stateFrom
  rw [List.filter_eq_nil_iff.2]
  · rfl
  · intro x hx
    have := ht.mem_ge x hx
    simp; omega

theorem stateFrom_before_cons {std ms s c} {h : List Cmd} {τ : Nat} (ht : TimesFrom c.t h) (hlt : τ < c.t) :
    stateFrom std ms s (c :: h) τ = s :=
  stateFrom_before (now := c.t) ⟨Nat.le_refl _, ht⟩ hlt

theorem stateFrom_after_cons {std ms s c} {h : List Cmd} {τ : Nat} (hlt : c.t ≤ τ) :
    stateFrom std ms s (c :: h) τ = stateFrom std ms (apply std ms s c) h τ := by
  unfold stateFrom
  rw [List.filter_cons_of_pos (by simpa using hlt), List.foldl_cons]

/-- In self-refresh or deep sleep. -/
def lowSD (s : State) (τ : Nat) : Bool := decide (s.mode.low τ = some .sref) || decide (s.mode.low τ = some .dsm)
/-- In deep sleep. -/
def lowD (s : State) (τ : Nat) : Bool := decide (s.mode.low τ = some .dsm)

theorem lowSD_pd {s : State} {τ a e x} (h : s.mode = .pd a e x) : lowSD s τ = false := by
  unfold lowSD
  rw [h]
  simp only [Mode.low]
  split <;> cases a <;> simp

theorem lowD_pd {s : State} {τ a e x} (h : s.mode = .pd a e x) : lowD s τ = false := by
  unfold lowD
  rw [h]
  simp only [Mode.low]
  split <;> cases a <;> simp

/-- Neither in self-refresh nor in deep sleep. -/
def Spec.Mode.awake : Mode → Prop
  | .normal => True
  | .pd _ _ _ => True
  | _ => False

theorem awake_low {s : State} (h : s.mode.awake) (τ : Nat) : lowSD s τ = false ∧ lowD s τ = false := by
  cases hm : s.mode with
  | normal => unfold lowSD lowD; simp [hm, Mode.low]
  | pd => exact ⟨lowSD_pd hm, lowD_pd hm⟩
  | sref => rw [hm] at h; exact h.elim
  | dsm => rw [hm] at h; exact h.elim

theorem awake_settle {s : State} {t : Nat} (h : s.mode.awake) : (s.settle t).mode.awake := by
  cases hm : s.mode with
  | normal => simp [State.settle, hm, Mode.settle, Mode.awake]
  | pd a e x => cases x <;> simp only [State.settle, hm, Mode.settle] <;> (try split) <;> exact trivial
  | sref => rw [hm] at h; exact h.elim
  | dsm => rw [hm] at h; exact h.elim

/-- A legal command in an awake state other than SREFEN keeps the rank awake; none of the exits and no DSM
command is legal. -/
theorem awake_step {std ms} {s : State} {c : Cmd} (h : s.mode.awake) (hl : legalCmd std ms (s.settle c.t) c) :
    (c.type = .SREFEN ∧ (apply std ms s c).mode = .sref (c.t + ms.tRFC)) ∨
    (c.type ≠ .SREFEN ∧ c.type ≠ .DSMEN ∧ (apply std ms s c).mode.awake) := by
  have hs := awake_settle (t := c.t) h
  unfold apply
  unfold legalCmd at hl
  generalize s.settle c.t = s' at hs hl
  obtain ⟨_, _, hl⟩ := hl
  cases hty : c.type <;> simp only [hty] at hl ⊢ <;> simp only [State.onBanks, reduceCtorEq, not_false_eq_true, ne_eq,
    false_and, true_and, or_false, false_or, not_true]
  case SREFEX => cases hm : s'.mode <;> rw [hm] at hl hs <;> first | exact hl.elim | exact hs.elim
  case DSMEN => cases hm : s'.mode <;> rw [hm] at hl hs <;> first | exact hl.elim | exact hs.elim
  case DSMEX => rw [hl] at hs; exact hs.elim
  case PDXA => cases hm : s'.mode <;> rw [hm] at hs <;> first | exact trivial | exact hs.elim | (simp only [hm]; trivial)
  case PDXP => cases hm : s'.mode <;> rw [hm] at hs <;> first | exact trivial | exact hs.elim | (simp only [hm]; trivial)
  case PDEA | PDEP => exact trivial
  all_goals exact hs

/-- In self-refresh only SREFEX and DSMEN are legal. -/
theorem sref_step {std ms} {s : State} {c : Cmd} {b : Nat} (h : s.mode = .sref b) (hl : legalCmd std ms (s.settle c.t) c) :
    b ≤ c.t ∧ ((c.type = .SREFEX ∧ (apply std ms s c).mode = .normal) ∨ (c.type = .DSMEN ∧ (apply std ms s c).mode = .dsm)) := by
  have hs : (s.settle c.t).mode = .sref b := by simp [State.settle, h, Mode.settle]
  unfold apply
  unfold legalCmd at hl
  generalize s.settle c.t = s' at hs hl
  obtain ⟨_, _, hl⟩ := hl
  cases hty : c.type <;> simp only [hty, hs, Mode.selfRefreshing, Mode.inPd, reduceCtorEq, false_and] at hl ⊢
  · exact ⟨hl, .inl ⟨trivial, trivial⟩⟩
  · exact ⟨hl, .inr ⟨trivial, trivial⟩⟩

/-- In deep sleep only DSMEX is legal. -/
theorem dsm_step {std ms} {s : State} {c : Cmd} (h : s.mode = .dsm) (hl : legalCmd std ms (s.settle c.t) c) :
    c.type = .DSMEX ∧ (apply std ms s c).mode = .sref c.t := by
  have hs : (s.settle c.t).mode = .dsm := by simp [State.settle, h, Mode.settle]
  unfold apply
  unfold legalCmd at hl
  generalize s.settle c.t = s' at hs hl
  obtain ⟨_, _, hl⟩ := hl
  cases hty : c.type <;> simp only [hty, hs, Mode.selfRefreshing, Mode.inPd, reduceCtorEq, false_and] at hl ⊢
  exact ⟨trivial, trivial⟩

theorem tame_legal {std ms} {h : List Cmd} : ∀ {s now}, TameFrom std ms s now h → LegalFrom std ms s now h := by
  induction h with
  | nil => intros; trivial
  | cons c h ih => intro s now hl; exact ⟨hl.1, hl.2.1.1, ih hl.2.2⟩

theorem legal_times {std ms} {h : List Cmd} : ∀ {s now}, LegalFrom std ms s now h → TimesFrom now h := by
  induction h with
  | nil => intros; trivial
  | cons c h ih => intro s now hl; exact ⟨hl.1, ih hl.2.2⟩

/-- The spans agree with the timeline. -/
theorem spans_timeline {std ms} {T : Nat} {h : List Cmd} : ∀ {s now}, LegalFrom std ms s now h → NotBefore h T → now ≤ T →
    (s.mode.awake →
      cnt (fun τ => lowSD (stateFrom std ms s h τ) τ) now T = selfRefreshSpans ms.tRFC T none h ∧
      cnt (fun τ => lowD (stateFrom std ms s h τ) τ) now T = deepSleepSpans T none h) ∧
    (∀ b b', s.mode = .sref b' → max now b' = max now b →
      cnt (fun τ => lowSD (stateFrom std ms s h τ) τ) now T + (now - b) = selfRefreshSpans ms.tRFC T (some b) h ∧
      cnt (fun τ => lowD (stateFrom std ms s h τ) τ) now T = deepSleepSpans T none h) ∧
    (∀ b d, s.mode = .dsm → b ≤ now → d ≤ now →
      cnt (fun τ => lowSD (stateFrom std ms s h τ) τ) now T + (now - b) = selfRefreshSpans ms.tRFC T (some b) h ∧
      cnt (fun τ => lowD (stateFrom std ms s h τ) τ) now T + (now - d) = deepSleepSpans T (some d) h) := by
  induction h with
  | nil =>
    intro s now _ _ hle
    have hst : ∀ τ, stateFrom std ms s [] τ = s := fun τ => rfl
    simp only [hst, selfRefreshSpans, deepSleepSpans]
    refine ⟨?_, ?_, ?_⟩
    · intro ha
      exact ⟨cnt_false fun τ _ _ => (awake_low ha τ).1, cnt_false fun τ _ _ => (awake_low ha τ).2⟩
    · intro b b' hm hb
      constructor
      · rw [cnt_from (s := b') hle]
        · omega
        · intro τ _ _
          simp only [lowSD, hm, Mode.low]
          split <;> simp_all
      · apply cnt_false
        intro τ _ _
        simp only [lowD, hm, Mode.low]
        split <;> simp_all
    · intro b d hm hb hd
      constructor
      · rw [cnt_true]
        · omega
        · intro τ _ _; simp [lowSD, hm, Mode.low]
      · rw [cnt_true]
        · omega
        · intro τ _ _; simp [lowD, hm, Mode.low]
  | cons c h ih =>
    intro s now hl hT hle
    obtain ⟨hct, hcmd, hrest⟩ := hl
    have htimes : TimesFrom c.t h := legal_times hrest
    have hcT : c.t ≤ T := hT c (by simp)
    obtain ⟨ihA, ihS, ihD⟩ := ih hrest (fun x hx => hT x (by simp [hx])) hcT
    have split : ∀ (p : State → Nat → Bool), cnt (fun τ => p (stateFrom std ms s (c :: h) τ) τ) now T =
        cnt (fun τ => p s τ) now c.t + cnt (fun τ => p (stateFrom std ms (apply std ms s c) h τ) τ) c.t T := by
      intro p
      rw [cnt_split hct hcT]
      congr 1
      · apply cnt_congr
        intro τ _ h2
        rw [stateFrom_before_cons htimes h2]
      · apply cnt_congr
        intro τ h1 _
        rw [stateFrom_after_cons h1]
    rw [split lowSD, split lowD]
    refine ⟨?_, ?_, ?_⟩
    · intro ha
      rw [cnt_false (p := fun τ => lowSD s τ) fun τ _ _ => (awake_low ha τ).1, cnt_false (p := fun τ => lowD s τ) fun τ _ _ => (awake_low ha τ).2]
      rcases awake_step ha hcmd with ⟨hty, hm⟩ | ⟨hty, hty', hm⟩
      · obtain ⟨h1, h2⟩ := ihS (c.t + ms.tRFC) _ hm rfl
        simp only [selfRefreshSpans, deepSleepSpans, hty, if_true, reduceCtorEq, if_false]
        omega
      · obtain ⟨h1, h2⟩ := ihA hm
        simp only [selfRefreshSpans, deepSleepSpans, hty, hty', if_false]
        omega
    · intro b b' hm hb
      obtain ⟨hbt, hstep⟩ := sref_step hm hcmd
      have e1 : cnt (fun τ => lowSD s τ) now c.t = c.t - max now b' := by
        apply cnt_from hct
        intro τ _ _
        simp only [lowSD, hm, Mode.low]
        split <;> simp_all
      have e2 : cnt (fun τ => lowD s τ) now c.t = 0 := by
        apply cnt_false
        intro τ _ _
        simp only [lowD, hm, Mode.low]
        split <;> simp_all
      rw [e1, e2]
      rcases hstep with ⟨hty, hm'⟩ | ⟨hty, hm'⟩
      · obtain ⟨h1, h2⟩ := ihA (by rw [hm']; trivial)
        simp only [selfRefreshSpans, deepSleepSpans, hty, if_true, reduceCtorEq, if_false]
        omega
      · obtain ⟨h1, h2⟩ := ihD b c.t hm' (by omega) (Nat.le_refl _)
        simp only [selfRefreshSpans, deepSleepSpans, hty, if_true, reduceCtorEq, if_false]
        omega
    · intro b d hm hb hd
      obtain ⟨hty, hm'⟩ := dsm_step hm hcmd
      have e1 : cnt (fun τ => lowSD s τ) now c.t = c.t - now := by
        apply cnt_true
        intro τ _ _; simp [lowSD, hm, Mode.low]
      have e2 : cnt (fun τ => lowD s τ) now c.t = c.t - now := by
        apply cnt_true
        intro τ _ _; simp [lowD, hm, Mode.low]
      rw [e1, e2]
      obtain ⟨h1, h2⟩ := ihS b _ hm' (by omega)
      simp only [selfRefreshSpans, deepSleepSpans, hty, if_true, reduceCtorEq, if_false]
      omega

/-! ## The two intervals of the rank -/

/-- What the two intervals and the queue of a rank look like; `b`: begin of the self-refresh phase, `d` of the
deep-sleep phase. -/
structure SDinv (now : Nat) (r : Rank) (q : List (Nat × Imp)) (b d : Option Nat) : Prop where
  sorted : RSorted q
  sref : match b with
    | none => srefQ q = [] ∧ r.sref.isOpen = false
    | some b => (srefQ q = [(b, .srefEnter)] ∧ r.sref.isOpen = false) ∨ (srefQ q = [] ∧ r.sref.start = some b ∧ r.sref.stop = none ∧ b ≤ now)
  dsm : match d with
    | none => r.deepSleepMode.isOpen = false
    | some d => r.deepSleepMode.start = some d ∧ r.deepSleepMode.stop = none ∧ d ≤ now

theorem Interval.isOpen_of {I : Interval} {b : Nat} (h1 : I.start = some b) (h2 : I.stop = none) : I.isOpen = true := by
  simp [Interval.isOpen, h1, h2]

theorem Interval.close_of {I : Interval} {b t : Nat} (h1 : I.start = some b) (h2 : I.stop = none) (hb : b ≤ t) :
    (I.close t).isOpen = false ∧ (I.close t).count = I.count + (t - b) := by
  unfold Interval.close
  rw [if_pos (Interval.isOpen_of h1 h2)]
  constructor
  · simp [Interval.isOpen]
  · simp only [Interval.getStart, h1, Option.getD_some, usub]
    rw [if_pos (by omega)]
    omega

theorem Interval.countAt_of {I : Interval} {b t : Nat} (h1 : I.start = some b) (h2 : I.stop = none) :
    I.countAt t = I.count + (t - b) := by
  unfold Interval.countAt
  rw [Interval.isOpen_of h1 h2]
  simp only [Interval.getStart, h1, Option.getD_some, Bool.true_and, decide_eq_true_eq]
  split <;> omega

/-- Processing the queue keeps the description; a self-refresh entry that is due has happened. -/
theorem sd_process {std now t r q b d} (h : SDinv now r q b d) (ht : now ≤ t) :
    SDinv t (rprocess std t r q).1 (rprocess std t r q).2 b d ∧
    (rprocess std t r q).1.sref.count = r.sref.count ∧ (rprocess std t r q).1.deepSleepMode.count = r.deepSleepMode.count ∧
    (∀ b', b = some b' → b' ≤ t → srefQ (rprocess std t r q).2 = []) := by
  obtain ⟨hs, h1, h2⟩ := h
  obtain ⟨g1, g2⟩ := rprocess_sd (std := std) (t := t) (r := r) hs
  have e1 : (rprocess std t r q).1.sref = ((srefQ q).filter (·.1 ≤ t)).foldl (fun I e => I.startAt e.1) r.sref := congrArg Prod.fst g1
  have e2 : (rprocess std t r q).1.deepSleepMode = r.deepSleepMode := congrArg Prod.snd g1
  have hd : match (generalizing := false) d with
      | none => (rprocess std t r q).1.deepSleepMode.isOpen = false
      | some d => (rprocess std t r q).1.deepSleepMode.start = some d ∧ (rprocess std t r q).1.deepSleepMode.stop = none ∧ d ≤ t := by
    rw [e2]
    cases d with
    | none => exact h2
    | some d => exact ⟨h2.1, h2.2.1, by have := h2.2.2; omega⟩
  cases b with
  | none =>
    simp only at h1
    rw [h1.1] at e1 g2
    refine ⟨⟨rprocess_sorted hs, ⟨g2, by rw [e1]; exact h1.2⟩, hd⟩, by rw [e1]; rfl, by rw [e2], fun b' hb => by cases hb⟩
  | some b =>
    rcases h1 with ⟨h1, h1'⟩ | ⟨h1, h1', h1'', h1b⟩
    · rw [h1] at e1 g2
      by_cases hb : b ≤ t
      · rw [List.filter_cons_of_pos (by simpa using hb)] at e1
        rw [List.filter_cons_of_neg (by simp; omega)] at g2
        refine ⟨⟨rprocess_sorted hs, .inr ⟨g2, ?_, ?_, hb⟩, hd⟩, ?_, by rw [e2], fun _ _ _ => g2⟩ <;> rw [e1] <;> rfl
      · rw [List.filter_cons_of_neg (by simpa using hb)] at e1
        rw [List.filter_cons_of_pos (by simp; omega)] at g2
        refine ⟨⟨rprocess_sorted hs, .inl ⟨g2, ?_⟩, hd⟩, ?_, by rw [e2], ?_⟩
        · rw [e1]; exact h1'
        · rw [e1]; rfl
        · intro b' hb'; cases hb'; omega
    · rw [h1] at e1 g2
      refine ⟨⟨rprocess_sorted hs, .inr ⟨g2, ?_, ?_, by omega⟩, hd⟩, ?_, by rw [e2], fun _ _ _ => g2⟩
      · rw [e1]; exact h1'
      · rw [e1]; exact h1''
      · rw [e1]; rfl

theorem sd_final {std now T r q b d} (h : SDinv now r q b d) (ht : now ≤ T) :
    (rprocess std T r q).1.sref.countAt T = r.sref.count + (match b with | none => 0 | some b => T - b) ∧
    (rprocess std T r q).1.deepSleepMode.countAt T = r.deepSleepMode.count + (match d with | none => 0 | some d => T - d) := by
  obtain ⟨⟨_, h1, h2⟩, c1, c2, h3⟩ := sd_process (std := std) h ht
  constructor
  · cases b with
    | none => rw [Interval.countAt_closed h1.2, c1]; rfl
    | some b =>
      rcases h1 with ⟨h1, h1'⟩ | ⟨h1, h1', h1'', h1b⟩
      · rw [Interval.countAt_closed h1', c1]
        by_cases hb : b ≤ T
        · rw [h3 b rfl hb] at h1; cases h1
        · simp only; omega
      · rw [Interval.countAt_of h1' h1'', c1]
  · cases d with
    | none => rw [Interval.countAt_closed h2, c2]; rfl
    | some d => rw [Interval.countAt_of h2.1 h2.2.1, c2]

/-- The mode of the timeline matches the two intervals. -/
def SDmode (now : Nat) : Mode → Option Nat → Option Nat → Prop
  | .normal, b, d => b = none ∧ d = none
  | .pd _ _ _, b, d => b = none ∧ d = none
  | .sref b', b, d => (∃ x, b = some x ∧ x ≤ b') ∧ d = none
  | .dsm, b, d => (∃ x, b = some x ∧ x ≤ now) ∧ ∃ y, d = some y

theorem SDmode.awake {now m b d} (h : SDmode now m b d) (ha : m.awake) : b = none ∧ d = none := by
  cases m with
  | normal => exact h
  | pd => exact h
  | sref => exact ha.elim
  | dsm => exact ha.elim

theorem SDmode.ofAwake {now m} (ha : m.awake) : SDmode now m none none := by
  cases m with
  | normal => exact ⟨rfl, rfl⟩
  | pd => exact ⟨rfl, rfl⟩
  | sref => exact ha.elim
  | dsm => exact ha.elim

theorem sd_main {std ms} {T : Nat} {h : List Cmd} : ∀ {S now r q s' b d}, LegalFrom std ms S now h → NotBefore h T → now ≤ T →
    SDinv now r q b d → SDmode now S.mode b d → rrun std ms (r, q) h = .ok s' →
    (rproc std T s').1.sref.countAt T = r.sref.count + selfRefreshSpans ms.tRFC T b h ∧
    (rproc std T s').1.deepSleepMode.countAt T = r.deepSleepMode.count + deepSleepSpans T d h := by
  induction h with
  | nil =>
    intro S now r q s' b d _ _ hle hi _ hr
    simp only [rrun] at hr
    injection hr with hr
    subst hr
    have := sd_final (std := std) hi hle
    cases b <;> cases d <;> exact this
  | cons c h ih =>
    intro S now r q s' b d hl hT hle hi hm hr
    obtain ⟨hct, hcmd, hrest⟩ := hl
    have hcT : c.t ≤ T := hT c (by simp)
    obtain ⟨hi', c1, c2, hfire⟩ := sd_process (std := std) hi hct
    simp only [rrun, rstep] at hr
    generalize hp : rprocess std c.t r q = p at hr hi' c1 c2 hfire
    cases hh : handle std ms p.1 c with
    | error e => rw [hh] at hr; exact absurd hr (by simp)
    | ok res =>
      obtain ⟨r2, imps⟩ := res
      rw [hh] at hr
      simp only at hr
      have hsd := handle_sd hh
      have srt : RSorted (imps.foldl (fun q i => rinsert i q) p.2) := foldl_rinsert_sorted hi'.sorted
      rw [← c1, ← c2]
      have go : ∀ {b' d'}, SDinv c.t r2 (imps.foldl (fun q i => rinsert i q) p.2) b' d' → SDmode c.t (apply std ms S c).mode b' d' → _ :=
        fun h1 h2 => ih hrest (fun x hx => hT x (by simp [hx])) hcT h1 h2 hr
      obtain ⟨_, hps, hpd⟩ := hi'
      rcases (show S.mode.awake ∨ (∃ b', S.mode = .sref b') ∨ S.mode = .dsm by
        cases S.mode <;> simp [Mode.awake]) with ha | ⟨b', hb'⟩ | hd
      · obtain ⟨rfl, rfl⟩ := hm.awake ha
        rcases awake_step ha hcmd with ⟨hty, hm'⟩ | ⟨hty, hty', hm'⟩
        · rw [hty] at hsd
          obtain ⟨hsd, l, hl, hie⟩ := hsd
          have s1 : r2.sref = p.1.sref := congrArg Prod.fst hsd
          have s2 : r2.deepSleepMode = p.1.deepSleepMode := congrArg Prod.snd hsd
          have := go (b' := some (c.t + ms.tRFC)) (d' := none) ⟨srt, .inl ⟨?_, ?_⟩, ?_⟩ (by rw [hm']; exact ⟨⟨_, rfl, Nat.le_refl _⟩, rfl⟩)
          · rw [s1, s2] at this
            simpa only [selfRefreshSpans, deepSleepSpans, hty, if_true, reduceCtorEq, if_false] using this
          · rw [hie]; exact srefQ_insert_last hl hps.1
          · rw [s1]; exact hps.2
          · simp only [s2]; exact hpd
        · have hne : c.type ≠ .SREFEX ∧ c.type ≠ .DSMEX := by
            have hs := awake_settle (t := c.t) ha
            unfold legalCmd at hcmd
            obtain ⟨_, _, hcmd⟩ := hcmd
            constructor <;> intro e <;> rw [e] at hcmd <;> simp only at hcmd
            · cases hq : (S.settle c.t).mode <;> rw [hq] at hcmd hs <;> first | exact hcmd.elim | exact hs.elim
            · rw [hcmd] at hs; exact hs.elim
          have hsd' : r2.sd = p.1.sd ∧ srefQ imps = [] := by
            cases hc : c.type <;> simp only [hc] at hsd <;> first | exact hsd | (rw [hc] at hty hty' hne; simp at hty hty' hne)
          have s1 : r2.sref = p.1.sref := congrArg Prod.fst hsd'.1
          have s2 : r2.deepSleepMode = p.1.deepSleepMode := congrArg Prod.snd hsd'.1
          have := go (b' := none) (d' := none) ⟨srt, ⟨?_, ?_⟩, ?_⟩ (SDmode.ofAwake hm')
          · rw [s1, s2] at this
            simpa only [selfRefreshSpans, deepSleepSpans, hty, hty', if_false] using this
          · rw [srefQ_insert_none hsd'.2]; exact hps.1
          · rw [s1]; exact hps.2
          · simp only [s2]; exact hpd
      · rw [hb'] at hm
        obtain ⟨⟨x, rfl, hx⟩, rfl⟩ := hm
        obtain ⟨hbt, hstep⟩ := sref_step hb' hcmd
        have hf := hfire x rfl (by omega)
        have hop : p.1.sref.start = some x ∧ p.1.sref.stop = none ∧ x ≤ c.t := by
          rcases hps with ⟨h1, _⟩ | ⟨_, h1⟩
          · rw [hf] at h1; cases h1
          · exact h1
        rcases hstep with ⟨hty, hm'⟩ | ⟨hty, hm'⟩ <;> rw [hty] at hsd <;> obtain ⟨hsd, hq⟩ := hsd
        · have s1 : r2.sref = p.1.sref.close c.t := congrArg Prod.fst hsd
          have s2 : r2.deepSleepMode = p.1.deepSleepMode := congrArg Prod.snd hsd
          obtain ⟨k1, k2⟩ := Interval.close_of hop.1 hop.2.1 hop.2.2
          have := go (b' := none) (d' := none) ⟨srt, ⟨?_, ?_⟩, ?_⟩ (by rw [hm']; exact ⟨rfl, rfl⟩)
          · rw [s1, s2, k2] at this
            simp only [selfRefreshSpans, deepSleepSpans, hty, if_true, reduceCtorEq, if_false]
            omega
          · rw [srefQ_insert_none hq]; exact hf
          · rw [s1]; exact k1
          · simp only [s2]; exact hpd
        · have s1 : r2.sref = p.1.sref := congrArg Prod.fst hsd
          have s2 : r2.deepSleepMode = p.1.deepSleepMode.startAt c.t := congrArg Prod.snd hsd
          have := go (b' := some x) (d' := some c.t) ⟨srt, .inr ⟨?_, ?_⟩, ?_⟩ (by rw [hm']; exact ⟨⟨_, rfl, hop.2.2⟩, _, rfl⟩)
          · rw [s1, s2] at this
            simp only [selfRefreshSpans, deepSleepSpans, hty, if_true, reduceCtorEq, if_false]
            exact this
          · rw [srefQ_insert_none hq]; exact hf
          · rw [s1]; exact hop
          · simp only [s2]; exact ⟨rfl, rfl, Nat.le_refl _⟩
      · rw [hd] at hm
        obtain ⟨⟨x, rfl, hx⟩, y, rfl⟩ := hm
        obtain ⟨hty, hm'⟩ := dsm_step hd hcmd
        rw [hty] at hsd
        obtain ⟨hsd, hq⟩ := hsd
        have s1 : r2.sref = p.1.sref := congrArg Prod.fst hsd
        have s2 : r2.deepSleepMode = p.1.deepSleepMode.close c.t := congrArg Prod.snd hsd
        obtain ⟨k1, k2⟩ := Interval.close_of hpd.1 hpd.2.1 hpd.2.2
        have hf := hfire x rfl (by omega)
        have hop : p.1.sref.start = some x ∧ p.1.sref.stop = none ∧ x ≤ c.t := by
          rcases hps with ⟨h1, _⟩ | ⟨_, h1⟩
          · rw [hf] at h1; cases h1
          · exact h1
        have := go (b' := some x) (d' := none) ⟨srt, .inr ⟨?_, ?_⟩, ?_⟩ (by rw [hm']; exact ⟨⟨_, rfl, hop.2.2⟩, rfl⟩)
        · rw [s1, s2, k2] at this
          simp only [selfRefreshSpans, deepSleepSpans, hty, if_true, reduceCtorEq, if_false]
          omega
        · rw [srefQ_insert_none hq]; exact hf
        · rw [s1]; exact hop
        · simp only [s2]; exact k1

theorem spans_le {std ms} {h : List Cmd} (hl : Legal std ms h) {t : Nat} (hT : NotBefore h t) :
    deepSleepSpans t none h ≤ selfRefreshSpans ms.tRFC t none h := by
  obtain ⟨h1, h2⟩ := (spans_timeline hl hT (Nat.zero_le _)).1 trivial
  rw [← h1, ← h2]
  unfold cnt
  apply List.countP_mono_left
  intro τ _ hτ
  simp only [lowSD, lowD] at hτ ⊢
  rw [hτ, Bool.or_true]

theorem deepSleep_zero {std ms} (hstd : std ≠ .lpddr5) {t : Nat} {h : List Cmd} : ∀ {s now}, LegalFrom std ms s now h →
    deepSleepSpans t none h = 0 := by
  induction h with
  | nil => intros; rfl
  | cons c h ih =>
    intro s now hl
    have hne : c.type ≠ .DSMEN := by
      intro e
      have := hl.2.1.1
      rw [e] at this
      simp [supports, hstd] at this
    simp only [deepSleepSpans, hne, if_false]
    exact ih hl.2.2

/-- The full statement, for all standards. -/
theorem C14 (std : Std) : C14_statement std := by
  intro ms cmds hv hl c hr t hT i hi
  obtain ⟨hs, s, h1, h2⟩ := run_rank hl.ordered hr i
  have hle := hl.legal i hi
  obtain ⟨g1, g2⟩ := sd_main (T := t) (b := none) (d := none) hle hT.forRank (Nat.zero_le _)
    ⟨List.Pairwise.nil, ⟨rfl, rfl⟩, rfl⟩ ⟨rfl, rfl⟩ h1
  rw [← h2 t hT] at g1 g2
  simp only [Core.local, Nat.zero_add] at g1 g2
  have hle1 := spans_le hle hT.forRank
  have hz : std ≠ .lpddr5 → deepSleepSpans t none (forRank std i cmds) = 0 := fun h => deepSleep_zero h hle
  constructor
  · intro b hb
    refine ⟨_, stats_bank hi hb, ?_⟩
    simp only [bankStats, g1, g2, usub, hle1, if_true]
    by_cases h5 : std = .lpddr5
    · subst h5
      exact ⟨rfl, Nat.sub_add_cancel hle1⟩
    · rw [hz h5]
      cases std <;> exact ⟨rfl, rfl⟩
  · refine ⟨_, stats_rank hi, ?_⟩
    simp only [rankStats, g1, g2, usub, hle1, if_true]
    by_cases h5 : std = .lpddr5
    · subst h5
      exact ⟨rfl, Nat.sub_add_cancel hle1⟩
    · rw [hz h5]
      cases std <;> exact ⟨rfl, rfl⟩

/-! ## The hypotheses can be met -/

/-- A self-refresh phase with a deep-sleep phase inside, and a second self-refresh phase that is not left. -/
def c14Trace : List Cmd :=
  [ { t := 4, type := .SREFEN }, { t := 20, type := .DSMEN }, { t := 33, type := .DSMEX }, { t := 40, type := .SREFEX },
    { t := 50, type := .SREFEN } ]

example : ValidSpec .lpddr5 Ex.ms ∧ LegalTrace .lpddr5 Ex.ms c14Trace ∧ (∀ c ∈ c14Trace, c.type ≠ .PDEA) ∧
    NotBefore c14Trace 70 ∧ ((Core.init Ex.ms).run .lpddr5 Ex.ms c14Trace).isOk = true := by
  refine ⟨?_, ?_, ?_, ?_, ?_⟩ <;> decide +kernel

/-- 13 cycles of deep sleep, 28 - 13 + 12 of self-refresh. -/
example : deepSleepSpans 70 none c14Trace = 13 ∧ selfRefreshSpans Ex.ms.tRFC 70 none c14Trace = 28 + 12 := by decide

example (std : Std) : LegalTrace std Ex.ms Ex.traffic ∧ selfRefreshSpans Ex.ms.tRFC 44 none (forRank std 1 Ex.traffic) = 10 := by
  cases std <;> decide +kernel

end DRAMPower
