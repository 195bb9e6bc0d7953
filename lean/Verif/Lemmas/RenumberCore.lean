import Verif.Lemmas.Renumber
import Verif.Lemmas.Banks
import Verif.Lemmas.Locality

/-!
# A rank with renumbered banks

The order in which a command treats several banks, and in which their refreshes end, does not matter; so a rank that gets the renumbered
commands is in the renumbered state.
-/

namespace DRAMPower
open Spec

variable {std : Std} {ms : MemSpec} {f : Nat → Nat}

/-! ## Commuting bank operations -/

theorem upd_comm {α : Type} {g : Nat → α} {a b : Nat} (h : a ≠ b) (x y : α) : upd (upd g a x) b y = upd (upd g b y) a x := by
  funext i
  unfold upd
  by_cases h1 : i = b
  · subst h1; simp [Ne.symm h]
  · simp [h1]

theorem upd_self {α : Type} (g : Nat → α) (a : Nat) : upd g a (g a) = g := by
  funext i; unfold upd; split
  · rename_i h; rw [h]
  · rfl

theorem upd_ne {α : Type} {g : Nat → α} {a b : Nat} (h : b ≠ a) (x : α) : upd g a x b = g b := if_neg h

theorem upd_eq {α : Type} {g : Nat → α} {a : Nat} (x : α) : upd g a x a = x := if_pos rfl

theorem isActive_or {r : Rank} {t : Nat} : r.isActive t = true ↔ (∃ b < r.nBanks, (r.banks b).state = .active) ∨ t < r.endRefreshTime := by
  have hc : r.countActiveBanks > 0 ↔ ∃ b < r.nBanks, (r.banks b).state = .active := by
    unfold Rank.countActiveBanks
    rw [gt_iff_lt, List.countP_pos_iff]
    simp
  unfold Rank.isActive
  rw [Bool.or_eq_true, decide_eq_true_eq, decide_eq_true_eq, hc]

/-- The rank with bank `a` replaced and the activity interval `x`. -/
def Rank.put (r : Rank) (a : Nat) (b : Bank) (x : Interval) : Rank := { r with banks := upd r.banks a b, act := x }

theorem handlePre_put (std : Std) (r : Rank) (a t : Nat) : handlePre std r a t = r.put a ((r.banks a).prech t)
    (if (r.banks a).state = .precharged then r.act else if (r.setBank a ((r.banks a).prech t)).isActive t then r.act else r.act.close t) := by
  have : ∀ r : Rank, r.put a (r.banks a) r.act = r := by
    intro r; unfold Rank.put; rw [upd_self]
  cases std <;> simp only [handlePre, DDR4.handlePre, Shared.handlePre, Bank.prech] <;>
    (by_cases h : (r.banks a).state = .precharged
     · rw [if_pos h, if_pos h, if_pos h, this]
     · rw [if_neg h, if_neg h, if_neg h]
       split <;> rfl)

/-- What the end of a refresh does to the bank. -/
def Bank.refEnded (t : Nat) (x : Bank) : Bank := { x with state := .precharged, act := x.act.close t }

theorem refEnd_put (std : Std) (r : Rank) (a t : Nat) : exec std r t (.refEnd a) = r.put a ((r.banks a).refEnded t)
    (if (r.setBank a ((r.banks a).refEnded t)).isActive t then r.act else r.act.close t) := by
  cases std <;> simp only [exec, DDR4.execRefEnd, Shared.execRefEnd] <;> split <;> rename_i h <;>
    first | (rw [if_pos (show (r.setBank a ((r.banks a).refEnded t)).isActive t = true from h)]; rfl)
          | (rw [if_neg (show ¬ (r.setBank a ((r.banks a).refEnded t)).isActive t = true from h)]; rfl)

theorem refresh_put (cnt : Counters → Counters) (d t : Nat) (res : HRes) (a : Nat) : Shared.handleRefreshOnBank cnt d t res a =
    (res.1.put a ((res.1.banks a).refr cnt (t + d) t) (if res.1.isActive t then res.1.act else res.1.act.startAt t),
      res.2 ++ [(t + d, .refEnd a)]) := by
  obtain ⟨r, L⟩ := res
  have h1 : (r.setBank a { r.banks a with counter := cnt (r.banks a).counter }).isActive t = r.isActive t := by
    refine isActive_congr (r := r) (r' := r.setBank a _) rfl rfl (fun b _ => ?_) t
    simp only [Rank.setBank, upd]
    split
    · rename_i h; rw [h]
    · rfl
  unfold Shared.handleRefreshOnBank
  simp only [h1]
  refine Prod.ext ?_ rfl
  simp only
  have h2 : ∀ x y, upd (upd r.banks a x) a y = upd r.banks a y := by
    intro x y; funext i; unfold upd; split <;> rfl
  split <;> simp only [Rank.setBank, Rank.put, Bank.refr, upd_eq, h2, Interval.startIfNotRunning]

theorem active_put {r : Rank} {a : Nat} {x : Bank} {i : Interval} {t : Nat} : (r.put a x i).isActive t = (r.setBank a x).isActive t := rfl

theorem put_put {r : Rank} {a b : Nat} (h : a ≠ b) (x y : Bank) (i j k : Interval) : (r.put a x i).put b y k = (r.put b y j).put a x k := by
  unfold Rank.put
  simp only [upd_comm h]

theorem active_of_bank {r : Rank} {a : Nat} (ha : a < r.nBanks) (h : (r.banks a).state = .active) (t : Nat) : r.isActive t = true :=
  isActive_or.2 (.inl ⟨a, ha, h⟩)

theorem preComm (std : Std) (t : Nat) {r : Rank} {a b : Nat} (ha : a < r.nBanks) (hb : b < r.nBanks) :
    handlePre std (handlePre std r a t) b t = handlePre std (handlePre std r b t) a t := by
  by_cases h : a = b
  · rw [h]
  have ha' : (handlePre std r b t).banks a = r.banks a := by rw [handlePre_banks, if_neg h]
  have hb' : (handlePre std r a t).banks b = r.banks b := by rw [handlePre_banks, if_neg (Ne.symm h)]
  have pc : ∀ (q : Rank) x, (q.banks x).state = .precharged → handlePre std q x t = q := by
    intro q x hx
    cases std <;> simp only [handlePre, DDR4.handlePre, Shared.handlePre, if_pos hx]
  by_cases pa : (r.banks a).state = .precharged
  · rw [pc r a pa, pc _ a (by rw [ha']; exact pa)]
  by_cases pb : (r.banks b).state = .precharged
  · rw [pc r b pb, pc _ b (by rw [hb']; exact pb)]
  have act : ∀ x : Bank, x.state ≠ .precharged → x.state = .active := by
    intro x hx; cases hs : x.state
    · exact absurd hs hx
    · rfl
  have e1 : handlePre std r a t = r.put a ((r.banks a).prech t) r.act := by
    rw [handlePre_put, if_neg pa, if_pos]
    refine active_of_bank (r := r.setBank a _) (a := b) hb ?_ t
    show (upd r.banks a _ b).state = _
    rw [upd_ne (Ne.symm h)]
    exact act _ pb
  have e2 : handlePre std r b t = r.put b ((r.banks b).prech t) r.act := by
    rw [handlePre_put, if_neg pb, if_pos]
    refine active_of_bank (r := r.setBank b _) (a := a) ha ?_ t
    show (upd r.banks b _ a).state = _
    rw [upd_ne h]
    exact act _ pa
  have e3 : (r.put a ((r.banks a).prech t) r.act).banks b = r.banks b := upd_ne (Ne.symm h) _
  have e4 : (r.put b ((r.banks b).prech t) r.act).banks a = r.banks a := upd_ne h _
  have e5 : ((r.put a ((r.banks a).prech t) r.act).setBank b ((r.banks b).prech t)) =
      ((r.put b ((r.banks b).prech t) r.act).setBank a ((r.banks a).prech t)) := put_put h _ _ r.act r.act r.act
  rw [e1, e2, handlePre_put, handlePre_put, e3, e4, if_neg pa, if_neg pb, e5]
  exact put_put h _ _ _ _ _

theorem Interval.close_twice (i : Interval) (t : Nat) : (i.close t).close t = i.close t := by
  refine Interval.close_closed ?_ t
  unfold Interval.close
  split
  · simp [Interval.isOpen]
  · rename_i h; simpa using h

theorem refEndComm (std : Std) (t : Nat) {r : Rank} (a b : Nat) :
    exec std (exec std r t (.refEnd a)) t (.refEnd b) = exec std (exec std r t (.refEnd b)) t (.refEnd a) := by
  by_cases h : a = b
  · rw [h]
  have key : ∀ x y : Nat, x ≠ y → exec std (exec std r t (.refEnd x)) t (.refEnd y) =
      (r.put x ((r.banks x).refEnded t) r.act).put y ((r.banks y).refEnded t)
        (if ((r.put x ((r.banks x).refEnded t) r.act).setBank y ((r.banks y).refEnded t)).isActive t then r.act else r.act.close t) := by
    intro x y hxy
    rw [refEnd_put, refEnd_put]
    have e : ∀ i, (r.put x ((r.banks x).refEnded t) i).banks y = r.banks y := fun i => upd_ne (Ne.symm hxy) _
    rw [e]
    have e' : ∀ i, ((r.put x ((r.banks x).refEnded t) i).setBank y ((r.banks y).refEnded t)).isActive t =
        ((r.put x ((r.banks x).refEnded t) r.act).setBank y ((r.banks y).refEnded t)).isActive t := fun i => rfl
    rw [e']
    by_cases hact : ((r.put x ((r.banks x).refEnded t) r.act).setBank y ((r.banks y).refEnded t)).isActive t = true
    · rw [if_pos hact, if_pos hact]
      have : (r.setBank x ((r.banks x).refEnded t)).isActive t = true := by
        rw [isActive_or] at hact ⊢
        rcases hact with ⟨c, hc, hs⟩ | hs
        · left
          refine ⟨c, hc, ?_⟩
          by_cases hcy : c = y
          · subst hcy
            exact absurd hs (by show (upd (upd r.banks x _) c _ c : Bank).state ≠ _; rw [upd_eq]; simp [Bank.refEnded])
          · have : ((r.put x ((r.banks x).refEnded t) r.act).setBank y ((r.banks y).refEnded t)).banks c =
              (r.setBank x ((r.banks x).refEnded t)).banks c := upd_ne hcy _
            rwa [this] at hs
        · exact .inr hs
      rw [if_pos this]
      rfl
    · rw [if_neg hact, if_neg hact]
      have : ∀ p : Prop, [Decidable p] → (if p then r.act else r.act.close t).close t = r.act.close t := by
        intro p _
        split
        · rfl
        · exact Interval.close_twice _ _
      show Rank.put _ _ _ (Interval.close (if _ then _ else _) _) = _
      rw [this]
      rfl
  rw [key a b h, key b a (Ne.symm h)]
  have e5 : ((r.put a ((r.banks a).refEnded t) r.act).setBank b ((r.banks b).refEnded t)) =
      ((r.put b ((r.banks b).refEnded t) r.act).setBank a ((r.banks a).refEnded t)) := put_put h _ _ r.act r.act r.act
  rw [e5]
  exact put_put h _ _ _ _ _

theorem refreshComm (cnt : Counters → Counters) (d t : Nat) {res : HRes} {a b : Nat} (ha : a < res.1.nBanks) (hb : b < res.1.nBanks) :
    (Shared.handleRefreshOnBank cnt d t (Shared.handleRefreshOnBank cnt d t res a) b).1 =
      (Shared.handleRefreshOnBank cnt d t (Shared.handleRefreshOnBank cnt d t res b) a).1 := by
  by_cases h : a = b
  · rw [h]
  have key : ∀ x y : Nat, x < res.1.nBanks → x ≠ y → (Shared.handleRefreshOnBank cnt d t (Shared.handleRefreshOnBank cnt d t res x) y).1 =
      (res.1.put x ((res.1.banks x).refr cnt (t + d) t) res.1.act).put y ((res.1.banks y).refr cnt (t + d) t)
        (if res.1.isActive t then res.1.act else res.1.act.startAt t) := by
    intro x y hx hxy
    rw [refresh_put, refresh_put]
    simp only
    have e : ∀ i, (res.1.put x ((res.1.banks x).refr cnt (t + d) t) i).banks y = res.1.banks y := fun i => upd_ne (Ne.symm hxy) _
    have e' : ∀ i, (res.1.put x ((res.1.banks x).refr cnt (t + d) t) i).isActive t = true := fun i =>
      active_of_bank (r := res.1.put x _ i) (a := x) hx (by show (upd _ _ _ _ : Bank).state = _; rw [upd_eq]; rfl) t
    rw [e, if_pos (e' _)]
    rfl
  rw [key a b ha h, key b a hb (Ne.symm h)]
  exact put_put h _ _ _ _ _

end DRAMPower
