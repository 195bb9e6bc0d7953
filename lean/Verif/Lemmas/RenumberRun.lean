import Verif.Lemmas.RenumberCore

/-!
# Runs of a rank with renumbered banks
-/

namespace DRAMPower
open Spec

variable {std : Std} {ms : MemSpec} {f : Nat → Nat}

/-! ## Queues that differ in the order of simultaneous ends of refreshes -/

/-- The queues differ in the order of simultaneous ends of refreshes. -/
inductive QEq : List (Nat × Imp) → List (Nat × Imp) → Prop
  | nil : QEq [] []
  | cons (e : Nat × Imp) {q q'} : QEq q q' → QEq (e :: q) (e :: q')
  | swap (t a b : Nat) (q) : QEq ((t, .refEnd a) :: (t, .refEnd b) :: q) ((t, .refEnd b) :: (t, .refEnd a) :: q)
  | trans {q₁ q₂ q₃} : QEq q₁ q₂ → QEq q₂ q₃ → QEq q₁ q₃

theorem QEq.refl : ∀ q : List (Nat × Imp), QEq q q
  | [] => .nil
  | e :: q => .cons e (QEq.refl q)

theorem QEq.insert (e : Nat × Imp) {q q' : List (Nat × Imp)} (h : QEq q q') : QEq (rinsert e q) (rinsert e q') := by
  induction h with
  | nil => exact .refl _
  | cons x _ ih =>
    simp only [rinsert]
    split
    · rename_i hq _; exact .cons _ (.cons _ hq)
    · exact .cons _ ih
  | swap t a b q =>
    simp only [rinsert]
    split
    · exact .cons _ (.swap ..)
    · exact .swap ..
  | trans _ _ h1 h2 => exact .trans h1 h2

theorem QEq.insert_swap (t a b : Nat) : ∀ q : List (Nat × Imp),
    QEq (rinsert (t, .refEnd b) (rinsert (t, .refEnd a) q)) (rinsert (t, .refEnd a) (rinsert (t, .refEnd b) q))
  | [] => by simp only [rinsert, Nat.lt_irrefl, if_false]; exact .swap ..
  | x :: q => by
    by_cases h : t < x.1
    · simp only [rinsert, if_pos h, Nat.lt_irrefl, if_false]
      exact .swap ..
    · simp only [rinsert, if_neg h]
      exact .cons _ (QEq.insert_swap t a b q)

theorem QEq.insertAll {q q' : List (Nat × Imp)} (h : QEq q q') : ∀ L : List (Nat × Imp),
    QEq (L.foldl (fun q i => rinsert i q) q) (L.foldl (fun q i => rinsert i q) q')
  | [] => h
  | e :: L => by
    rw [List.foldl_cons, List.foldl_cons]
    exact QEq.insertAll (h.insert e) L

/-- Refreshes that end at the same time may be queued in any order. -/
theorem QEq.insertPerm (t : Nat) {L L' : List Nat} (h : L.Perm L') : ∀ q : List (Nat × Imp),
    QEq ((L.map fun b => (t, Imp.refEnd b)).foldl (fun q i => rinsert i q) q)
      ((L'.map fun b => (t, Imp.refEnd b)).foldl (fun q i => rinsert i q) q) := by
  induction h with
  | nil => exact fun q => .refl _
  | cons x _ ih => exact fun q => ih _
  | swap x y L =>
    intro q
    simp only [List.map_cons, List.foldl_cons]
    exact QEq.insertAll (QEq.insert_swap t y x q) _
  | trans _ _ h1 h2 => exact fun q => .trans (h1 q) (h2 q)

theorem QEq.process {q q' : List (Nat × Imp)} (h : QEq q q') (T : Nat) : ∀ r : Rank,
    (rprocess std T r q).1 = (rprocess std T r q').1 ∧ QEq (rprocess std T r q).2 (rprocess std T r q').2 := by
  induction h with
  | nil => exact fun r => ⟨rfl, .nil⟩
  | cons e h ih =>
    intro r
    simp only [rprocess]
    split
    · exact ih _
    · exact ⟨rfl, .cons _ h⟩
  | swap t a b q =>
    intro r
    simp only [rprocess]
    split
    · rw [refEndComm]
      exact ⟨rfl, .refl _⟩
    · exact ⟨rfl, .swap ..⟩
  | trans _ _ h1 h2 => exact fun r => ⟨(h1 r).1.trans (h2 r).1, .trans (h1 r).2 (h2 r).2⟩

/-! ## Ranks -/

/-- The implicit command of the renumbered rank. -/
def Imp.ren (f : Nat → Nat) : Imp → Imp
  | .pre b => .pre (f b)
  | .refEnd b => .refEnd (f b)
  | i => i

/-- The bank of an implicit command. -/
def Imp.bankLt (n : Nat) : Imp → Prop
  | .pre b | .refEnd b => b < n
  | _ => True

def qren (f : Nat → Nat) (e : Nat × Imp) : Nat × Imp := (e.1, e.2.ren f)

/-- The same rank with renumbered banks. -/
structure RankRen (ms : MemSpec) (f : Nat → Nat) (r r' : Rank) : Prop where
  n : r.nBanks = ms.numberOfBanks
  rest : r' = { r with banks := r'.banks }
  banks : ∀ b < ms.numberOfBanks, r'.banks (f b) = r.banks b

namespace RankRen

variable {r r' : Rank}

theorem n' (h : RankRen ms f r r') : r'.nBanks = ms.numberOfBanks := by rw [h.rest]; exact h.n

theorem perm {p : Bank → Bool} (h : RankRen ms f r r') (hf : BankSymmetry std ms f) :
    (List.range r'.nBanks).countP (fun i => p (r'.banks i)) = (List.range r.nBanks).countP fun i => p (r.banks i) := by
  rw [h.n, h.n', ← hf.perm.countP_eq, List.countP_map]
  refine List.countP_congr fun b hb => ?_
  simp only [Function.comp]
  rw [h.banks b (List.mem_range.1 hb)]

theorem any {p : Bank → Bool} (h : RankRen ms f r r') (hf : BankSymmetry std ms f) :
    (List.range r'.nBanks).any (fun i => p (r'.banks i)) = (List.range r.nBanks).any fun i => p (r.banks i) := by
  have := h.perm (p := p) hf
  rw [Bool.eq_iff_iff, List.any_eq_true, List.any_eq_true, ← List.countP_pos_iff, ← List.countP_pos_iff, this]

theorem isActive (h : RankRen ms f r r') (hf : BankSymmetry std ms f) (t : Nat) : r'.isActive t = r.isActive t := by
  unfold Rank.isActive Rank.countActiveBanks
  rw [h.perm (p := fun b => b.state == .active) hf]
  rw [h.rest]

/-- Changes of the rest of the rank. -/
theorem change (h : RankRen ms f r r') (g : Rank → Rank) (hn : ∀ r, (g r).nBanks = r.nBanks) (hb : ∀ r, (g r).banks = r.banks)
    (hg : ∀ r b, g { r with banks := b } = { g r with banks := b }) : RankRen ms f (g r) (g r') := by
  refine ⟨by rw [hn]; exact h.n, ?_, fun b hb' => by rw [hb, hb]; exact h.banks b hb'⟩
  rw [hb]
  have := hg r r'.banks
  rw [← h.rest] at this
  exact this

theorem put (h : RankRen ms f r r') (hf : BankSymmetry std ms f) {a : Nat} (ha : a < ms.numberOfBanks) (x : Bank) (i : Interval) :
    RankRen ms f (r.put a x i) (r'.put (f a) x i) := by
  refine ⟨h.n, ?_, fun b hb => ?_⟩
  · unfold Rank.put
    rw [h.rest]
  · show upd r'.banks (f a) x (f b) = upd r.banks a x b
    unfold upd
    by_cases hab : b = a
    · rw [if_pos hab, if_pos (by rw [hab])]
    · rw [if_neg hab, if_neg fun e => hab (hf.inj b hb a ha e)]
      exact h.banks b hb

theorem act (h : RankRen ms f r r') : r'.act = r.act := by rw [h.rest]

theorem setBank (h : RankRen ms f r r') (hf : BankSymmetry std ms f) {a : Nat} (ha : a < ms.numberOfBanks) (x : Bank) :
    RankRen ms f (r.setBank a x) (r'.setBank (f a) x) := by
  have := h.put hf ha x r.act
  rw [show r'.put (f a) x r.act = r'.setBank (f a) x by rw [← h.act]; rfl] at this
  exact this

theorem mapBanks (h : RankRen ms f r r') (hf : BankSymmetry std ms f) (g : Bank → Bank) : RankRen ms f (r.mapBanks g) (r'.mapBanks g) := by
  refine ⟨h.n, ?_, fun b hb => ?_⟩
  · unfold Rank.mapBanks
    rw [h.rest]
  · show (if f b < r'.nBanks then _ else _) = if b < r.nBanks then _ else _
    rw [h.n, h.n', if_pos hb, if_pos (hf.range b hb), h.banks b hb]

theorem startIf (h : RankRen ms f r r') (hf : BankSymmetry std ms f) (t : Nat) (g : Interval → Interval) :
    RankRen ms f (if r.isActive t then r else { r with act := g r.act }) (if r'.isActive t then r' else { r' with act := g r'.act }) := by
  rw [h.isActive hf]
  split
  · exact h
  · exact h.change (fun r => { r with act := g r.act }) (fun _ => rfl) (fun _ => rfl) (fun _ _ => rfl)

theorem handlePre (h : RankRen ms f r r') (hf : BankSymmetry std ms f) {a : Nat} (ha : a < ms.numberOfBanks) (s : Std) (t : Nat) :
    RankRen ms f (handlePre s r a t) (handlePre s r' (f a) t) := by
  have := (h.setBank hf ha ((r.banks a).prech t)).isActive hf t
  rw [handlePre_put, handlePre_put, h.banks a ha, this, h.act]
  exact h.put hf ha _ _

theorem refEnd (h : RankRen ms f r r') (hf : BankSymmetry std ms f) {a : Nat} (ha : a < ms.numberOfBanks) (s : Std) (t : Nat) :
    RankRen ms f (exec s r t (.refEnd a)) (exec s r' t (.refEnd (f a))) := by
  have := (h.setBank hf ha ((r.banks a).refEnded t)).isActive hf t
  rw [refEnd_put, refEnd_put, h.banks a ha, this, h.act]
  exact h.put hf ha _ _

theorem preFold (hf : BankSymmetry std ms f) (s : Std) (t : Nat) : ∀ (L : List Nat) {r r' : Rank}, RankRen ms f r r' →
    (∀ a ∈ L, a < ms.numberOfBanks) →
    RankRen ms f (L.foldl (fun r b => DRAMPower.handlePre s r b t) r) ((L.map f).foldl (fun r b => DRAMPower.handlePre s r b t) r')
  | [], _, _, h, _ => h
  | a :: L, _, _, h, hL => by
    rw [List.map_cons, List.foldl_cons, List.foldl_cons]
    exact preFold hf s t L (h.handlePre hf (hL a (by simp)) s t) fun b hb => hL b (by simp [hb])

theorem refresh (hf : BankSymmetry std ms f) (cnt : Counters → Counters) (d t : Nat) {L L' : List (Nat × Imp)} (h : RankRen ms f r r')
    {a : Nat} (ha : a < ms.numberOfBanks) :
    RankRen ms f (Shared.handleRefreshOnBank cnt d t (r, L) a).1 (Shared.handleRefreshOnBank cnt d t (r', L') (f a)).1 := by
  rw [refresh_put, refresh_put]
  simp only
  rw [h.banks a ha, h.isActive hf, h.act]
  exact h.put hf ha _ _

theorem refreshFold (hf : BankSymmetry std ms f) (cnt : Counters → Counters) (d t : Nat) : ∀ (A : List Nat) {r r' : Rank} {L L' : List (Nat × Imp)},
    RankRen ms f r r' → (∀ a ∈ A, a < ms.numberOfBanks) →
    RankRen ms f (A.foldl (Shared.handleRefreshOnBank cnt d t) (r, L)).1 ((A.map f).foldl (Shared.handleRefreshOnBank cnt d t) (r', L')).1
  | [], _, _, _, _, h, _ => h
  | a :: A, _, _, L, L', h, hA => by
    rw [List.map_cons, List.foldl_cons, List.foldl_cons]
    have := h.refresh (L := L) (L' := L') hf cnt d t (hA a (by simp))
    exact refreshFold hf cnt d t A (L := (Shared.handleRefreshOnBank cnt d t (_, L) a).2) this fun b hb => hA b (by simp [hb])

end RankRen

/-! ## Order of the banks of a command -/

theorem preFold_perm (std : Std) (t : Nat) {L L' : List Nat} (h : L.Perm L') : ∀ {r : Rank}, (∀ a ∈ L, a < r.nBanks) →
    L.foldl (fun r b => handlePre std r b t) r = L'.foldl (fun r b => handlePre std r b t) r := by
  induction h with
  | nil => intros; rfl
  | cons x _ ih =>
    intro r hL
    exact ih fun a ha => by rw [handlePre_nBanks]; exact hL a (by simp [ha])
  | swap x y L =>
    intro r hL
    rw [List.foldl_cons, List.foldl_cons, List.foldl_cons, List.foldl_cons, preComm std t (hL y (by simp)) (hL x (by simp))]
  | trans h1 _ i1 i2 =>
    intro r hL
    rw [i1 hL, i2 fun a ha => hL a (h1.mem_iff.2 ha)]

theorem refreshFold_snd (cnt : Counters → Counters) (d t : Nat) : ∀ (A : List Nat) (res : HRes),
    (A.foldl (Shared.handleRefreshOnBank cnt d t) res).2 = res.2 ++ A.map fun b => (t + d, Imp.refEnd b)
  | [], res => by simp
  | a :: A, res => by
    rw [List.foldl_cons, refreshFold_snd cnt d t A]
    simp [Shared.handleRefreshOnBank]

theorem refreshFold_fst (cnt : Counters → Counters) (d t : Nat) : ∀ (A : List Nat) (r : Rank) (L L' : List (Nat × Imp)),
    (A.foldl (Shared.handleRefreshOnBank cnt d t) (r, L)).1 = (A.foldl (Shared.handleRefreshOnBank cnt d t) (r, L')).1
  | [], _, _, _ => rfl
  | a :: A, r, L, L' => by
    rw [List.foldl_cons, List.foldl_cons, refresh_put, refresh_put]
    exact refreshFold_fst cnt d t A _ _ _

theorem refreshFold_perm (cnt : Counters → Counters) (d t : Nat) {A A' : List Nat} (h : A.Perm A') : ∀ {r : Rank} {L : List (Nat × Imp)},
    (∀ a ∈ A, a < r.nBanks) →
    (A.foldl (Shared.handleRefreshOnBank cnt d t) (r, L)).1 = (A'.foldl (Shared.handleRefreshOnBank cnt d t) (r, L)).1 := by
  induction h with
  | nil => intros; rfl
  | cons x _ ih =>
    intro r L hL
    exact ih fun a ha => lt_of_lt_of_eq (hL a (by simp [ha])) (refreshOnBank_nBanks cnt d t (r, L) x).symm
  | swap x y A =>
    intro r L hL
    rw [List.foldl_cons, List.foldl_cons, List.foldl_cons, List.foldl_cons]
    have := refreshComm cnt d t (res := (r, L)) (a := y) (b := x) (hL y (by simp)) (hL x (by simp))
    rw [show Shared.handleRefreshOnBank cnt d t (Shared.handleRefreshOnBank cnt d t (r, L) y) x =
      ((Shared.handleRefreshOnBank cnt d t (Shared.handleRefreshOnBank cnt d t (r, L) y) x).1, _) from rfl, this]
    exact refreshFold_fst ..
  | trans h1 _ i1 i2 =>
    intro r L hL
    rw [i1 hL, i2 fun a ha => hL a (h1.mem_iff.2 ha)]

/-! ## Implicit commands -/

theorem RankRen.earliest {r r' : Rank} (h : RankRen ms f r r') (hf : BankSymmetry std ms f) (s : Std) :
    earliestPossible s ms r' = earliestPossible s ms r := by
  unfold earliestPossible
  have : RightCommutative (fun (acc i : Nat) => max (max (max acc (if (r'.banks i).counter.act = 0 then 0 else (r'.banks i).act.getStart + effRCD s ms))
      (if (r'.banks i).counter.pre = 0 then 0 else (r'.banks i).latestPre + ms.tRP)) (r'.banks i).refreshEndTime) := ⟨fun a b c => by omega⟩
  rw [h.n, h.n', ← hf.perm.foldl_eq, List.foldl_map]
  have : ∀ (L : List Nat), (∀ b ∈ L, b < ms.numberOfBanks) → ∀ acc, L.foldl (fun acc i => max (max (max acc (if (r'.banks (f i)).counter.act = 0 then 0 else (r'.banks (f i)).act.getStart + effRCD s ms))
      (if (r'.banks (f i)).counter.pre = 0 then 0 else (r'.banks (f i)).latestPre + ms.tRP)) (r'.banks (f i)).refreshEndTime) acc =
      L.foldl (fun acc i => max (max (max acc (if (r.banks i).counter.act = 0 then 0 else (r.banks i).act.getStart + effRCD s ms))
      (if (r.banks i).counter.pre = 0 then 0 else (r.banks i).latestPre + ms.tRP)) (r.banks i).refreshEndTime) acc := by
    intro L
    induction L with
    | nil => intro _ _; rfl
    | cons a L ih =>
      intro hL acc
      rw [List.foldl_cons, List.foldl_cons, h.banks a (hL a (by simp)), ih fun b hb => hL b (by simp [hb])]
  exact this _ (fun b hb => List.mem_range.1 hb) 0

theorem RankRen.restarts {r r' : Rank} (h : RankRen ms f r r') : Shared.restarts r' = Shared.restarts r := by
  funext b
  unfold Shared.restarts
  rw [h.rest]

theorem RankRen.exec {r r' : Rank} (h : RankRen ms f r r') (hf : BankSymmetry std ms f) (s : Std) (t : Nat) {i : Imp}
    (hi : i.bankLt ms.numberOfBanks) : RankRen ms f (exec s r t i) (exec s r' t (i.ren f)) := by
  have pda : RankRen ms f { r with memState := .notInPD, powerDownAct := r.powerDownAct.close t }
      { r' with memState := .notInPD, powerDownAct := r'.powerDownAct.close t } :=
    h.change (fun r => { r with memState := .notInPD, powerDownAct := r.powerDownAct.close t }) (fun _ => rfl) (fun _ => rfl) (fun _ _ => rfl)
  have pdp : RankRen ms f { r with memState := .notInPD, powerDownPre := r.powerDownPre.close t }
      { r' with memState := .notInPD, powerDownPre := r'.powerDownPre.close t } :=
    h.change (fun r => { r with memState := .notInPD, powerDownPre := r.powerDownPre.close t }) (fun _ => rfl) (fun _ => rfl) (fun _ _ => rfl)
  cases i with
  | pre a => exact h.handlePre hf hi s t
  | refEnd a => exact h.refEnd hf hi s t
  | srefEnter => exact h.change (fun r => execSrefEnter r t) (fun _ => rfl) (fun _ => rfl) (fun _ _ => rfl)
  | pdaEnter =>
    have e := (h.change (fun r => { r with memState := .pdnAct, powerDownAct := r.powerDownAct.startAt t, act := r.act.close t })
      (fun _ => rfl) (fun _ => rfl) (fun _ _ => rfl)).mapBanks hf fun bank => { bank with act := bank.act.close t }
    cases s
    case ddr4 =>
      show RankRen ms f (DDR4.execPdaEnter r t) (DDR4.execPdaEnter r' t)
      exact e
    all_goals
      show RankRen ms f (Shared.execPdaEnter r t) (Shared.execPdaEnter r' t)
      exact e
  | pdaExit =>
    have shared : RankRen ms f (Shared.execPdaExit r t) (Shared.execPdaExit r' t) := by
      unfold Shared.execPdaExit
      have e := pda.any (p := Shared.restarts { r with memState := .notInPD, powerDownAct := r.powerDownAct.close t }) hf
      simp only [pda.restarts]
      simp only at e
      rw [e]
      have m := pda.mapBanks hf fun bank =>
        if Shared.restarts { r with memState := .notInPD, powerDownAct := r.powerDownAct.close t } bank = true then
          { bank with act := bank.act.startAt t } else bank
      split
      · exact m.change (fun r => { r with act := r.act.startAt t }) (fun _ => rfl) (fun _ => rfl) (fun _ _ => rfl)
      · exact m
    cases s
    case ddr4 =>
      show RankRen ms f (DDR4.execPdaExit r t) (DDR4.execPdaExit r' t)
      unfold DDR4.execPdaExit
      have m := pda.mapBanks hf fun bank => if bank.state = .active then { bank with act := bank.act.startAt t } else bank
      simp only [m.isActive hf]
      split
      · exact m.change (fun r => { r with act := r.act.startAt t }) (fun _ => rfl) (fun _ => rfl) (fun _ _ => rfl)
      · exact m
    case lpddr6 =>
      show RankRen ms f (LPDDR6.execPdaExit r t) (LPDDR6.execPdaExit r' t)
      unfold LPDDR6.execPdaExit
      have p2 := pda.change (fun r => { r with act := r.act.startAt t }) (fun _ => rfl) (fun _ => rfl) (fun _ _ => rfl)
      simp only [p2.restarts]
      exact p2.mapBanks hf _
    all_goals
      show RankRen ms f (Shared.execPdaExit r t) (Shared.execPdaExit r' t)
      exact shared
  | pdpEnter =>
    cases s
    case ddr4 =>
      show RankRen ms f (DDR4.execPdpEnter r t) (DDR4.execPdpEnter r' t)
      exact (h.mapBanks hf fun bank => { bank with act := bank.act.close t }).change
        (fun r => { r with memState := .pdnPre, powerDownPre := r.powerDownPre.startAt t, act := r.act.close t })
        (fun _ => rfl) (fun _ => rfl) (fun _ _ => rfl)
    all_goals
      show RankRen ms f (Shared.execPdpEnter r t) (Shared.execPdpEnter r' t)
      exact h.change (fun r => Shared.execPdpEnter r t) (fun _ => rfl) (fun _ => rfl) (fun _ _ => rfl)
  | pdpExit =>
    cases s
    case ddr4 =>
      show RankRen ms f (DDR4.execPdpExit r t) (DDR4.execPdpExit r' t)
      exact pdp.mapBanks hf fun bank => if bank.state = .active then { bank with act := bank.act.startAt t } else bank
    all_goals
      show RankRen ms f (Shared.execPdpExit r t) (Shared.execPdpExit r' t)
      exact pdp

theorem RankRen.process (hf : BankSymmetry std ms f) (s : Std) (t : Nat) : ∀ (q : List (Nat × Imp)) {r r' : Rank}, RankRen ms f r r' →
    (∀ e ∈ q, e.2.bankLt ms.numberOfBanks) →
    RankRen ms f (rprocess s t r q).1 (rprocess s t r' (q.map (qren f))).1 ∧
      (rprocess s t r' (q.map (qren f))).2 = (rprocess s t r q).2.map (qren f) ∧
      ∀ e ∈ (rprocess s t r q).2, e.2.bankLt ms.numberOfBanks
  | [], _, _, h, _ => ⟨h, rfl, by simp [rprocess]⟩
  | e :: q, r, r', h, hq => by
    simp only [List.map_cons, rprocess]
    have : (qren f e).1 = e.1 := rfl
    rw [this]
    split
    · exact RankRen.process hf s t q (h.exec hf s e.1 (hq e (by simp))) fun x hx => hq x (by simp [hx])
    · exact ⟨h, rfl, hq⟩

/-! ## Commands -/

theorem sameBankIdx_ren (hf : BankSymmetry std ms f) (hs : std = .ddr5) (hg : ms.numberOfBanks = ms.numberOfBankGroups * ms.banksPerGroup)
    {b : Nat} (hb : b < ms.numberOfBanks) : ((sameBankIdx ms b).map f).Perm (sameBankIdx ms (f b)) := by
  have hp : 0 < ms.banksPerGroup := by
    rcases Nat.eq_zero_or_pos ms.banksPerGroup with h | h
    · rw [hg, h] at hb; simp at hb
    · exact h
  have mem : ∀ b x, x ∈ sameBankIdx ms b ↔ x < ms.numberOfBanks ∧ x % ms.banksPerGroup = b % ms.banksPerGroup := by
    intro b x
    unfold sameBankIdx
    simp only [List.mem_map, List.mem_range]
    have hm := Nat.mod_lt b hp
    constructor
    · rintro ⟨g, h1, rfl⟩
      refine ⟨?_, ?_⟩
      · rw [hg]
        calc g * ms.banksPerGroup + b % ms.banksPerGroup < g * ms.banksPerGroup + ms.banksPerGroup := by omega
          _ = (g + 1) * ms.banksPerGroup := by rw [Nat.succ_mul]
          _ ≤ _ := Nat.mul_le_mul_right _ h1
      · rw [Nat.mul_comm, Nat.mul_add_mod, Nat.mod_mod]
    · rintro ⟨h1, h2⟩
      refine ⟨x / ms.banksPerGroup, ?_, ?_⟩
      · rw [Nat.div_lt_iff_lt_mul hp, ← hg]; exact h1
      · rw [← h2, Nat.mul_comm]; exact Nat.div_add_mod x _
  have nodup : ∀ b, (sameBankIdx ms b).Nodup := by
    intro b
    unfold sameBankIdx
    refine List.Nodup.map_on ?_ List.nodup_range
    intro x _ y _ hxy
    exact Nat.eq_of_mul_eq_mul_right hp (Nat.add_right_cancel hxy)
  have n1 : ((sameBankIdx ms b).map f).Nodup :=
    (nodup b).map_on fun x hx y hy hxy => hf.inj x ((mem b x).1 hx).1 y ((mem b y).1 hy).1 hxy
  refine (n1.subperm ?_).perm_of_length_le (by simp [sameBankIdx])
  intro x hx
  obtain ⟨y, hy, rfl⟩ := List.mem_map.1 hx
  have := (mem b y).1 hy
  exact (mem (f b) (f y)).2 ⟨hf.range y this.1, (hf.sameBank hs y this.1 b hb).2 this.2⟩

/-- What the commands of the two numberings queue. -/
def Queues (ms : MemSpec) (f : Nat → Nat) (imps imps' : List (Nat × Imp)) : Prop :=
  (∀ e ∈ imps, e.2.bankLt ms.numberOfBanks) ∧
  ∀ q, QEq ((imps.map (qren f)).foldl (fun q i => rinsert i q) q) (imps'.foldl (fun q i => rinsert i q) q)

theorem Queues.nil : Queues ms f [] [] := ⟨by simp, fun q => .refl q⟩

theorem Queues.one {t : Nat} {i : Imp} (h : i.bankLt ms.numberOfBanks) : Queues ms f [(t, i)] [(t, i.ren f)] :=
  ⟨by simpa using h, fun q => .refl _⟩

theorem Queues.refs {t : Nat} {A A' : List Nat} (h : (A.map f).Perm A') (hA : ∀ a ∈ A, a < ms.numberOfBanks) :
    Queues ms f (A.map fun b => (t, Imp.refEnd b)) (A'.map fun b => (t, Imp.refEnd b)) := by
  refine ⟨?_, fun q => ?_⟩
  · intro e he
    obtain ⟨a, ha, rfl⟩ := List.mem_map.1 he
    exact hA a ha
  · have := QEq.insertPerm t h q
    rw [List.map_map] at this ⊢
    exact this

theorem Queues.append {A A' B B' : List (Nat × Imp)} (h : Queues ms f A A') (k : Queues ms f B B') : Queues ms f (A ++ B) (A' ++ B') := by
  refine ⟨fun e he => (List.mem_append.1 he).elim (h.1 e) (k.1 e), fun q => ?_⟩
  rw [List.map_append, List.foldl_append, List.foldl_append]
  exact .trans ((h.2 q).insertAll _) (k.2 _)

/-- What a handler returns for the two numberings. -/
def ResRen (ms : MemSpec) (f : Nat → Nat) (x x' : HRes) : Prop := RankRen ms f x.1 x'.1 ∧ Queues ms f x.2 x'.2

theorem RankRen.refreshes {r r' : Rank} (h : RankRen ms f r r') (hf : BankSymmetry std ms f) (cnt : Counters → Counters) (d t : Nat)
    {A A' : List Nat} (hA : ∀ a ∈ A, a < ms.numberOfBanks) (hp : (A.map f).Perm A') :
    ResRen ms f (A.foldl (Shared.handleRefreshOnBank cnt d t) (r, [])) (A'.foldl (Shared.handleRefreshOnBank cnt d t) (r', [])) := by
  refine ⟨?_, ?_⟩
  · rw [← refreshFold_perm cnt d t hp]
    · exact RankRen.refreshFold hf cnt d t A h hA
    · intro a ha
      obtain ⟨x, hx, rfl⟩ := List.mem_map.1 ha
      rw [h.n']
      exact hf.range x (hA x hx)
  · rw [refreshFold_snd, refreshFold_snd]
    exact Queues.refs hp hA

theorem RankRen.handleRefAll {r r' : Rank} (h : RankRen ms f r r') (hf : BankSymmetry std ms f) (s : Std) (t : Nat) :
    ResRen ms f (handleRefAll s ms r t) (handleRefAll s ms r' t) := by
  have hp : ((List.range r.nBanks).map f).Perm (List.range r'.nBanks) := by rw [h.n, h.n']; exact hf.perm
  have hl : ∀ a ∈ List.range r.nBanks, a < ms.numberOfBanks := fun a ha => by rw [← h.n]; exact List.mem_range.1 ha
  have shared : ResRen ms f (Shared.handleRefAll ms r t) (Shared.handleRefAll ms r' t) := by
    have := h.refreshes hf (fun c => { c with refAllBank := c.refAllBank + 1 }) ms.tRFC t hl hp
    exact ⟨this.1.change (fun r => { r with endRefreshTime := t + ms.tRFC }) (fun _ => rfl) (fun _ => rfl) (fun _ _ => rfl), this.2⟩
  cases s
  case ddr4 =>
    refine ⟨?_, Queues.refs hp hl⟩
    show RankRen ms f (DDR4.handleRefAll ms r t).1 (DDR4.handleRefAll ms r' t).1
    exact (h.change (fun r => { r with endRefreshTime := t + ms.tRFC, act := r.act.startIfNotRunning t })
      (fun _ => rfl) (fun _ => rfl) (fun _ _ => rfl)).mapBanks hf fun bank =>
        { bank with state := .active,
                    counter := { bank.counter with refAllBank := bank.counter.refAllBank + 1 },
                    act := bank.act.startIfNotRunning t,
                    refreshEndTime := t + ms.tRFC }
  all_goals exact shared

theorem handleAct_put (std : Std) (r : Rank) (a t : Nat) (ha : a < r.nBanks) : handleAct std r a t = r.put a ((r.banks a).activ t)
    (match std with
     | .ddr4 => r.act.startIfNotRunning t
     | _ => if r.isActive t then r.act else r.act.startAt t) := by
  have h1 : (r.setBank a { r.banks a with counter := { (r.banks a).counter with act := (r.banks a).counter.act + 1 }, act := (r.banks a).act.startAt t }).isActive t = r.isActive t := by
    refine isActive_congr (r := r) (r' := r.setBank a _) rfl rfl (fun b _ => ?_) t
    simp only [Rank.setBank, upd]
    split
    · rename_i h; rw [h]
    · rfl
  have h2 : ∀ x y, upd (upd r.banks a x) a y = upd r.banks a y := by
    intro x y; funext i; unfold upd; split <;> rfl
  cases std
  case ddr4 => rfl
  all_goals
    simp only [handleAct, Shared.handleAct, h1]
    split <;> simp only [Rank.setBank, Rank.put, Bank.activ, upd_eq, h2]

theorem handle_ren (hf : BankSymmetry std ms f) (hg : std = .ddr5 → ms.numberOfBanks = ms.numberOfBankGroups * ms.banksPerGroup)
    {r r' : Rank} (h : RankRen ms f r r') {c : Cmd} {x : HRes} (hc : handle std ms r c = .ok x) :
    ∃ x', handle std ms r' (bankRen f c) = .ok x' ∧ ResRen ms f x x' := by
  have wb : ∀ {b : Nat} {k : Except Err HRes}, b < ms.numberOfBanks → withBank r' (f b) k = k := by
    intro b k hb
    unfold withBank
    rw [if_pos]
    rw [h.n']; exact hf.range b hb
  have e2 : (bankRen f c).type = c.type := rfl
  have mem : r'.memState = r.memState := by rw [h.rest]
  unfold handle at hc ⊢
  simp only [e2]
  cases hty : c.type <;> simp only [hty] at hc ⊢
  case ACT =>
    obtain ⟨hb, hc⟩ := withBank_ok hc
    have hb' := hb
    rw [h.n] at hb'
    cases hc
    refine ⟨_, wb hb', ?_, Queues.nil⟩
    rw [handleAct_put std r _ _ hb, handleAct_put std r' _ _ (by rw [h.n']; exact hf.range _ hb')]
    show RankRen ms f _ (r'.put (f c.bank) ((r'.banks (f c.bank)).activ c.t) _)
    rw [h.banks _ hb', h.act, h.isActive hf]
    exact h.put hf hb' _ _
  case PRE =>
    obtain ⟨hb, hc⟩ := withBank_ok hc
    rw [h.n] at hb
    cases hc
    exact ⟨_, wb hb, h.handlePre hf hb std c.t, Queues.nil⟩
  case RD =>
    obtain ⟨hb, hc⟩ := withBank_ok hc
    rw [h.n] at hb
    cases hc
    refine ⟨_, wb hb, ?_, Queues.nil⟩
    show RankRen ms f (handleRead r c.bank) (handleRead r' (f c.bank))
    unfold handleRead
    rw [h.banks _ hb]
    exact h.setBank hf hb _
  case WR =>
    obtain ⟨hb, hc⟩ := withBank_ok hc
    rw [h.n] at hb
    cases hc
    refine ⟨_, wb hb, ?_, Queues.nil⟩
    show RankRen ms f (handleWrite r c.bank) (handleWrite r' (f c.bank))
    unfold handleWrite
    rw [h.banks _ hb]
    exact h.setBank hf hb _
  case RDA =>
    obtain ⟨hb, hc⟩ := withBank_ok hc
    rw [h.n] at hb
    cases hc
    refine ⟨_, wb hb, ?_⟩
    show ResRen ms f (handleReadAuto ms r c.bank c.t) (handleReadAuto ms r' (f c.bank) c.t)
    unfold handleReadAuto
    rw [h.banks _ hb]
    have e : ∀ q : Rank, ∀ a y, (q.setBank a y).banks a = y := fun q a y => upd_eq y
    simp only [e]
    exact ⟨h.setBank hf hb _, Queues.one (i := .pre c.bank) hb⟩
  case WRA =>
    obtain ⟨hb, hc⟩ := withBank_ok hc
    rw [h.n] at hb
    cases hc
    refine ⟨_, wb hb, ?_⟩
    show ResRen ms f (handleWriteAuto ms r c.bank c.t) (handleWriteAuto ms r' (f c.bank) c.t)
    unfold handleWriteAuto
    rw [h.banks _ hb]
    have e : ∀ q : Rank, ∀ a y, (q.setBank a y).banks a = y := fun q a y => upd_eq y
    simp only [e]
    exact ⟨h.setBank hf hb _, Queues.one (i := .pre c.bank) hb⟩
  case PREA =>
    cases hc
    refine ⟨_, rfl, ?_, Queues.nil⟩
    show RankRen ms f (handlePreAll std r c.t) (handlePreAll std r' c.t)
    unfold handlePreAll
    have hp : ((List.range r.nBanks).map f).Perm (List.range r'.nBanks) := by rw [h.n, h.n']; exact hf.perm
    have hl : ∀ a ∈ List.range r.nBanks, a < ms.numberOfBanks := fun a ha => by rw [← h.n]; exact List.mem_range.1 ha
    rw [← preFold_perm std c.t hp]
    · exact RankRen.preFold hf std c.t _ h hl
    · intro a ha
      obtain ⟨y, hy, rfl⟩ := List.mem_map.1 ha
      rw [h.n']
      exact hf.range y (hl y hy)
  case REFA =>
    cases hc
    exact ⟨_, rfl, h.handleRefAll hf std c.t⟩
  case SREFEN =>
    cases hc
    have := h.handleRefAll hf std c.t
    exact ⟨_, rfl, this.1, this.2.append (Queues.one (i := .srefEnter) trivial)⟩
  case SREFEX =>
    unfold handleSelfRefreshExit at hc ⊢
    rw [mem]
    split at hc
    · rename_i hm
      cases hc
      rw [if_pos hm]
      exact ⟨_, rfl, h.change (fun r => { r with sref := r.sref.close c.t, memState := .notInPD }) (fun _ => rfl) (fun _ => rfl)
        (fun _ _ => rfl), Queues.nil⟩
    · cases hc
  case DSMEN =>
    split at hc
    · rename_i hs
      rw [if_pos hs]
      unfold handleDSMEntry at hc ⊢
      rw [mem]
      split at hc
      · rename_i hm
        cases hc
        rw [if_pos hm]
        exact ⟨_, rfl, h.change (fun r => { r with deepSleepMode := r.deepSleepMode.startAt c.t, deepSleepCounter := r.deepSleepCounter + 1, memState := .dsm })
          (fun _ => rfl) (fun _ => rfl) (fun _ _ => rfl), Queues.nil⟩
      · cases hc
    · cases hc
  case DSMEX =>
    split at hc
    · rename_i hs
      rw [if_pos hs]
      unfold handleDSMExit at hc ⊢
      rw [mem]
      split at hc
      · rename_i hm
        cases hc
        rw [if_pos hm]
        exact ⟨_, rfl, h.change (fun r => { r with deepSleepMode := r.deepSleepMode.close c.t, memState := .sref })
          (fun _ => rfl) (fun _ => rfl) (fun _ _ => rfl), Queues.nil⟩
      · cases hc
    · cases hc
  case PDEA =>
    cases hc
    refine ⟨_, rfl, h, ?_⟩
    show Queues ms f [(max c.t (earliestPossible std ms r), .pdaEnter)] [(max c.t (earliestPossible std ms r'), .pdaEnter)]
    rw [h.earliest hf]
    exact Queues.one (i := .pdaEnter) trivial
  case PDEP =>
    cases hc
    refine ⟨_, rfl, h, ?_⟩
    show Queues ms f [(max c.t (earliestPossible std ms r), .pdpEnter)] [(max c.t (earliestPossible std ms r'), .pdpEnter)]
    rw [h.earliest hf]
    exact Queues.one (i := .pdpEnter) trivial
  case PDXP =>
    cases hc
    refine ⟨_, rfl, h, ?_⟩
    show Queues ms f [(max c.t (earliestPossible std ms r), .pdpExit)] [(max c.t (earliestPossible std ms r'), .pdpExit)]
    rw [h.earliest hf]
    exact Queues.one (i := .pdpExit) trivial
  case PDXA =>
    unfold handlePowerDownActExit at hc ⊢
    rw [mem]
    split at hc
    · cases hc
    · rename_i hm
      cases hc
      rw [if_neg hm]
      refine ⟨_, rfl, h, ?_⟩
      show Queues ms f [(max c.t (earliestPossible std ms r), .pdaExit)] [(max c.t (earliestPossible std ms r'), .pdaExit)]
      rw [h.earliest hf]
      exact Queues.one (i := .pdaExit) trivial
  case REFB =>
    split at hc
    · rename_i hs
      rw [if_pos hs]
      obtain ⟨hb, hc⟩ := withBank_ok hc
      rw [h.n] at hb
      cases hc
      refine ⟨_, wb hb, ?_⟩
      exact h.refreshes hf (fun c => { c with refPerBank := c.refPerBank + 1 }) ms.tRFCPB c.t (A := [c.bank]) (A' := [f c.bank])
        (by simpa using hb) (List.Perm.refl _)
    · cases hc
  case REFP2B =>
    split at hc
    · rename_i hs
      rw [if_pos hs]
      split at hc
      · cases hc
      · rename_i ha
        rw [if_neg ha]
        obtain ⟨hb, hc⟩ := withBank_ok hc
        rw [h.n] at hb
        unfold handleRefPerTwoBanks at hc
        simp only at hc
        split at hc
        · rename_i hb2
          rw [h.n] at hb2
          cases hc
          have hp := hf.pairs hs c.bank hb hb2
          refine ⟨_, ?_, h.refreshes hf (fun c => { c with refPerTwoBanks := c.refPerTwoBanks + 1 }) ms.tRFCPB c.t
            (A := [c.bank, (c.bank + ms.perTwoBankOffset) % 16]) (by simpa using ⟨hb, hb2⟩) (List.Perm.refl _)⟩
          refine (wb hb).trans ?_
          unfold handleRefPerTwoBanks
          simp only [show (bankRen f c).bank = f c.bank from rfl, ← hp]
          rw [if_pos]
          · rfl
          · rw [h.n']; exact hf.range _ hb2
        · cases hc
    · cases hc
  case REFDB =>
    split at hc
    · rename_i hs
      rw [if_pos hs]
      obtain ⟨hb, hc⟩ := withBank_ok hc
      obtain ⟨hb2, hc⟩ := withBank_ok hc
      rw [h.n] at hb hb2
      cases hc
      refine ⟨_, (wb hb).trans (wb hb2), ?_⟩
      exact h.refreshes hf (fun c => { c with refDualBanks := c.refDualBanks + 1 }) ms.tRFCDB c.t (A := [c.bank, c.dbank])
        (A' := [f c.bank, f c.dbank]) (by simpa using ⟨hb, hb2⟩) (List.Perm.refl _)
    · cases hc
  case PRESB =>
    split at hc
    · rename_i hs
      rw [if_pos hs]
      obtain ⟨hb, hc⟩ := withBank_ok hc
      rw [h.n] at hb
      unfold handlePreSameBank at hc
      split at hc
      · cases hc
      rename_i hz
      split at hc
      · rename_i hl
        cases hc
        have hp := sameBankIdx_ren hf hs (hg hs) hb
        have hl' : ∀ a ∈ sameBankIdx ms c.bank, a < ms.numberOfBanks := by
          intro a ha; have := List.all_eq_true.1 hl a ha; rw [h.n] at this; simpa using this
        have hl2 : ∀ a ∈ (sameBankIdx ms c.bank).map f, a < r'.nBanks := by
          intro a ha
          obtain ⟨y, hy, rfl⟩ := List.mem_map.1 ha
          rw [h.n']; exact hf.range y (hl' y hy)
        have := RankRen.preFold hf .ddr5 c.t _ h hl'
        rw [preFold_perm .ddr5 c.t hp hl2] at this
        refine ⟨((sameBankIdx ms (f c.bank)).foldl (fun r b => Shared.handlePre r b c.t) r', []), ?_, this, Queues.nil⟩
        refine (wb hb).trans ?_
        unfold handlePreSameBank
        rw [if_neg hz, if_pos]
        · rfl
        · rw [List.all_eq_true]
          intro a ha
          simpa using hl2 a (hp.mem_iff.2 ha)
      · cases hc
    · cases hc
  case REFSB =>
    split at hc
    · rename_i hs
      rw [if_pos hs]
      obtain ⟨hb, hc⟩ := withBank_ok hc
      rw [h.n] at hb
      unfold handleRefSameBank at hc
      split at hc
      · cases hc
      rename_i hz
      split at hc
      · rename_i hl
        cases hc
        have hp := sameBankIdx_ren hf hs (hg hs) hb
        have hl' : ∀ a ∈ sameBankIdx ms c.bank, a < ms.numberOfBanks := by
          intro a ha; have := List.all_eq_true.1 hl a ha; rw [h.n] at this; simpa using this
        refine ⟨_, ?_, h.refreshes hf (fun c => { c with refSameBank := c.refSameBank + 1 }) ms.tRFCsb c.t hl' hp⟩
        refine (wb hb).trans ?_
        unfold handleRefSameBank
        rw [if_neg hz, if_pos]
        · rfl
        · rw [List.all_eq_true]
          intro a ha
          obtain ⟨y, hy, rfl⟩ := List.mem_map.1 (hp.mem_iff.2 ha)
          rw [h.n']
          simpa using hf.range y (hl' y hy)
      · cases hc
    · cases hc
  all_goals cases hc

/-! ## Runs -/

/-- A rank and its queue in the two numberings. -/
structure LocalRen (ms : MemSpec) (f : Nat → Nat) (s s' : HRes) : Prop where
  rank : RankRen ms f s.1 s'.1
  lt : ∀ e ∈ s.2, e.2.bankLt ms.numberOfBanks
  queue : QEq (s.2.map (qren f)) s'.2

theorem LocalRen.init : LocalRen ms f ({ nBanks := ms.numberOfBanks }, []) ({ nBanks := ms.numberOfBanks }, []) :=
  ⟨⟨rfl, rfl, fun _ _ => rfl⟩, by simp, .nil⟩

theorem LocalRen.process {s s' : HRes} (h : LocalRen ms f s s') (hf : BankSymmetry std ms f) (t : Nat) :
    LocalRen ms f (rproc std t s) (rproc std t s') := by
  obtain ⟨p1, p2, p3⟩ := RankRen.process hf std t s.2 h.rank h.lt
  obtain ⟨q1, q2⟩ := h.queue.process (std := std) t s'.1
  refine ⟨?_, p3, ?_⟩
  · show RankRen ms f _ (rprocess std t s'.1 s'.2).1
    rw [← q1]; exact p1
  · rw [p2] at q2; exact q2

theorem map_rinsert (e : Nat × Imp) : ∀ q : List (Nat × Imp), (rinsert e q).map (qren f) = rinsert (qren f e) (q.map (qren f))
  | [] => rfl
  | x :: q => by
    simp only [rinsert, List.map_cons]
    have : ∀ y, (qren f y).1 = y.1 := fun _ => rfl
    rw [this, this]
    split
    · rfl
    · rw [List.map_cons, map_rinsert e q]

theorem map_insertAll : ∀ (L q : List (Nat × Imp)), (L.foldl (fun q i => rinsert i q) q).map (qren f) =
    (L.map (qren f)).foldl (fun q i => rinsert i q) (q.map (qren f))
  | [], _ => rfl
  | e :: L, q => by
    rw [List.map_cons, List.foldl_cons, List.foldl_cons, map_insertAll L, map_rinsert]

theorem mem_insertAll {x : Nat × Imp} : ∀ {L q : List (Nat × Imp)}, x ∈ L.foldl (fun q i => rinsert i q) q → x ∈ L ∨ x ∈ q
  | [], _, h => .inr h
  | e :: L, q, h => by
    rw [List.foldl_cons] at h
    rcases mem_insertAll h with h | h
    · exact .inl (by simp [h])
    · rcases mem_rinsert.1 h with h | h
      · exact .inl (by simp [h])
      · exact .inr h

theorem LocalRen.step {s s' u : HRes} (h : LocalRen ms f s s') (hf : BankSymmetry std ms f)
    (hg : std = .ddr5 → ms.numberOfBanks = ms.numberOfBankGroups * ms.banksPerGroup) {c : Cmd} (hc : rstep std ms s c = .ok u) :
    ∃ u', rstep std ms s' (bankRen f c) = .ok u' ∧ LocalRen ms f u u' := by
  have hp := h.process hf c.t
  unfold rstep at hc ⊢
  simp only at hc ⊢
  have e1 : (bankRen f c).t = c.t := rfl
  rw [e1]
  split at hc
  · rename_i r1 imps hh
    cases hc
    obtain ⟨⟨r1', imps'⟩, h1, h2, h3, h4⟩ := handle_ren hf hg hp.rank hh
    have h1' : handle std ms (rprocess std c.t s'.1 s'.2).1 (bankRen f c) = .ok (r1', imps') := h1
    rw [h1']
    refine ⟨_, rfl, h2, fun e he => ?_, ?_⟩
    · rcases mem_insertAll he with he | he
      · exact h3 e he
      · exact hp.lt e he
    · rw [map_insertAll]
      exact .trans (h4 _) (hp.queue.insertAll _)
  · cases hc

theorem LocalRen.run (hf : BankSymmetry std ms f) (hg : std = .ddr5 → ms.numberOfBanks = ms.numberOfBankGroups * ms.banksPerGroup) :
    ∀ (L : List Cmd) {s s' u : HRes}, LocalRen ms f s s' → rrun std ms s L = .ok u →
    ∃ u', rrun std ms s' (L.map (bankRen f)) = .ok u' ∧ LocalRen ms f u u'
  | [], s, s', u, h, hr => by
    cases hr
    exact ⟨s', rfl, h⟩
  | c :: L, s, s', u, h, hr => by
    simp only [rrun] at hr
    split at hr
    · rename_i v hv
      obtain ⟨v', h1, h2⟩ := h.step hf hg hv
      obtain ⟨u', h3, h4⟩ := LocalRen.run hf hg L h2 hr
      exact ⟨u', by simp only [List.map_cons, rrun, h1]; exact h3, h4⟩
    · cases hr

end DRAMPower
