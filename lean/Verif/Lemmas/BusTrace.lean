import Verif.Lemmas.Bus

/-!
# Statistics of a bus that accepted a history of bursts
-/

namespace DRAMPower
open Spec
variable {N : Nat}

/-- Two lines that are always on and agree on the wires of a bus. -/
def LinesAgree (width : Nat) (l l' : Line) : Prop := ∀ k, ∃ a a', l k = some a ∧ l' k = some a' ∧ ∀ j < width, a j = a' j

theorem wires_ext {width : Nat} {p q : Nat → Bool} (h : ∀ j < width, p j = q j) : wires width p = wires width q := by
  unfold wires
  refine List.countP_congr fun j hj => ?_
  rw [h j (List.mem_range.1 hj)]

theorem LinesAgree.stats {width : Nat} {l l' : Line} {idle idle' : Levels} (h : LinesAgree width l l') (hi : ∀ j < width, idle j = idle' j) :
    ∀ T, l.stats width idle T = l'.stats width idle' T
  | 0 => rfl
  | T + 1 => by
    rw [Line.stats, Line.stats, h.stats hi T]
    congr 1
    obtain ⟨a, a', e, e', hj⟩ := h T
    unfold Line.at
    rw [e, e']
    have hb : ∀ j < width, l.before idle T j = l'.before idle' T j := by
      cases T with
      | zero => exact hi
      | succ T =>
        obtain ⟨b, b', e, e', hj⟩ := h T
        unfold Line.before
        dsimp only
        rw [e, e']
        exact hj
    simp only [beat]
    congr 1
    all_goals exact wires_ext fun j h => by simp only [hj j h, hb j h]

theorem Bus.run_append {b : Bus N} {xs ys : List BusOp} {b1 : Bus N} (h : b.run xs = .ok b1) : b.run (xs ++ ys) = b1.run ys := by
  induction xs generalizing b with
  | nil => cases h; rfl
  | cons x xs ih =>
    rw [List.cons_append, Bus.run]
    rw [Bus.run] at h
    split at h
    · rename_i e; exact ih h
    · cases h

/-- A call that is a burst of at least one word. -/
def BusOp.IsLoad (width : Nat) : BusOp → Prop
  | .load _ _ n => width ≤ n
  | _ => False

theorem loads_proper {width : Nat} {op : BusOp} (h : op.IsLoad width) : op.Proper width := by
  cases op <;> first | exact h | cases h

theorem loads_reEnabled {width dr : Nat} : ∀ {ops : List BusOp}, (∀ op ∈ ops, op.IsLoad width) → reEnabled dr true ops = 0
  | [], _ => rfl
  | op :: ops, h => by
    have h1 := h op (by simp)
    cases op with
    | load t data n => exact loads_reEnabled (ops := ops) fun o ho => h o (List.mem_cons_of_mem _ ho)
    | _ => cases h1

/-- Accepted bursts do not overlap, so they are in order. -/
theorem loads_timed {idle : Levels} : ∀ {ops : List BusOp} {b b' : Bus N} {line : Line} {X : Nat}, BusActive b line idle X →
    b.run ops = .ok b' → (∀ op ∈ ops, op.IsLoad b.width) → BusTimed b.datarate b.lastLoad ops
  | [], _, _, _, _, _, _, _ => trivial
  | op :: ops, b, b', line, X, ha, hr, h => by
    have h1 := h op (by simp)
    unfold Bus.run at hr
    split at hr
    rotate_left
    · cases hr
    rename_i b1 hb1
    cases op with
    | load t data n =>
      have hb1 : b.load t data n = .ok b1 := hb1
      obtain ⟨a1, a2, a3, a4, a5, a6⟩ := bus_load_active ha h1 hb1
      have ht : b.lastLoad ≤ t * b.datarate := by
        unfold Bus.load at hb1
        rw [if_neg (by simp [ha.enabled])] at hb1
        split at hb1
        · cases hb1
        dsimp only at hb1
        split at hb1
        · cases hb1
        · omega
      have := loads_timed a1 hr (fun o ho => by rw [a3]; exact h o (by simp [ho]))
      rw [a4, a6] at this
      exact ⟨ht, this⟩
    | _ => cases h1

/-- Whatever sequence of bursts a bus has accepted: an accepted query returns the sums over the beats of the waveform. -/
theorem accepted_stats {width datarate : Nat} {pat : IdlePattern} (hw : 0 < width) (hN : width ≤ N) (hd : 0 < datarate)
    {start b : Bus N} (hs : Bus.init N width datarate pat = .ok start) {ops : List BusOp} (hr : start.run ops = .ok b)
    (hl : ∀ op ∈ ops, op.IsLoad width) {t : Nat} {x : BusStats} (hq : b.getStats t = .ok x) :
    x = (Line.stats width (fun _ => pat == .H)
      (Line.after width datarate lastFirst (fun _ => pat == .H) true (ops.map BusOp.drive)) (t * datarate)) := by
  obtain ⟨hi, h1, h2, h3, h4, h5, h6⟩ := bus_init_inv hw hN hd hs
  have ha : BusActive start (fun _ => some (fun _ => pat == .H)) (fun _ => pat == .H) 0 := by
    rcases hi with ⟨X, ha, e⟩ | hn
    · rw [h5] at e
      have : X = 0 := by omega
      subst this; exact ha
    · rw [hn.enabled] at h4; cases h4
  have hl' : ∀ op ∈ ops, op.IsLoad start.width := by rw [h1]; exact hl
  have p2 := loads_timed ha hr hl'
  obtain ⟨k1, k2, k3, k4, k5, _⟩ := bus_run_inv ops hi hr (fun op ho => loads_proper (hl' op ho)) p2
  rw [h1, h2, h4, loads_reEnabled hl, Nat.zero_add] at k1
  have hlast : b.lastLoad ≤ t * b.datarate := by
    unfold Bus.getStats at hq
    dsimp only at hq
    split at hq
    · cases hq
    · omega
  have e : Line.after width datarate lastFirst (fun _ => pat == .H) true (ops.map BusOp.drive)
      = ops.foldl (fun l op => Line.drive width datarate lastFirst (fun _ => pat == .H) l op.drive)
        (fun _ => if true = true then some (fun _ => pat == .H) else none) := by
    unfold Line.after; rw [List.foldl_map]
  rw [e]
  rw [← h2, ← h1] at *
  rcases k1 with ⟨X, ha', e'⟩ | hn
  · have hX : X = 0 := by omega
    have hF : b.fresh = 0 := by omega
    have := ha'.getStats_last hF hlast
    rw [hX, BusStats.zero_mul, BusStats.add_zero, k2, k3, hq] at this
    exact Except.ok.inj this
  · have := hn.getStats hlast
    rw [BusStats.zero_mul, BusStats.add_zero, k2, k3, hq] at this
    exact Except.ok.inj this

end DRAMPower
