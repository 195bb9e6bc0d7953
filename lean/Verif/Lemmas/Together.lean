import Verif.Lemmas.Interface

/-!
# Two computations side by side
-/

namespace DRAMPower

/-- The results are related if there are two; if `p` holds, the computations fail together and with the same error. -/
def Together {α β : Type} (p : Prop) (R : α → β → Prop) (x : Except Err α) (y : Except Err β) : Prop :=
  (∀ a b, x = .ok a → y = .ok b → R a b) ∧ (p → ∀ e, x = .error e ↔ y = .error e)

namespace Together
variable {α β γ δ : Type} {p : Prop} {R : α → β → Prop} {S : γ → δ → Prop}

theorem ok {a : α} {b : β} (h : R a b) : Together p R (.ok a) (.ok b) :=
  ⟨fun _ _ e e' => ok_inj e ▸ ok_inj e' ▸ h, fun _ _ => ⟨fun h => (by cases h), fun h => (by cases h)⟩⟩

theorem error (e : Err) : Together p R (.error e) (.error e) :=
  ⟨fun _ _ h => (by cases h), fun _ e' => ⟨fun h => (by cases h; rfl), fun h => (by cases h; rfl)⟩⟩

/-- Without `p` nothing is said about errors. -/
theorem loose {x : Except Err α} {y : Except Err β} (hp : ¬ p) (h : ∀ a b, x = .ok a → y = .ok b → R a b) : Together p R x y :=
  ⟨h, fun h => absurd h hp⟩

theorem bind {x : Except Err α} {y : Except Err β} {f : α → Except Err γ} {g : β → Except Err δ} (h : Together p R x y)
    (hf : ∀ a b, R a b → Together p S (f a) (g b)) : Together p S (x >>= f) (y >>= g) := by
  cases x with
  | ok a =>
    cases y with
    | ok b => exact hf a b (h.1 a b rfl rfl)
    | error e =>
      refine ⟨fun _ _ _ h => (by cases h), fun hp => ?_⟩
      exact absurd ((h.2 hp e).2 rfl) (by simp)
  | error e =>
    refine ⟨fun _ _ h => (by cases h), fun hp => ?_⟩
    rw [(h.2 hp e).1 rfl]
    exact fun e' => ⟨fun h => by cases h; rfl, fun h => by cases h; rfl⟩

/-- Both sides run the same computation. -/
theorem same {x : Except Err α} {f : α → Except Err γ} {g : α → Except Err δ}
    (hf : ∀ a, x = .ok a → Together p S (f a) (g a)) : Together p S (x >>= f) (x >>= g) := by
  cases x with
  | ok a => exact hf a rfl
  | error e => exact error e

theorem mono {x : Except Err α} {y : Except Err β} {R' : α → β → Prop} (h : Together p R x y) (hm : ∀ a b, R a b → R' a b) : Together p R' x y :=
  ⟨fun a b e e' => hm a b (h.1 a b e e'), h.2⟩

theorem foldlM {ι : Type} {f : α → ι → Except Err α} {g : β → ι → Except Err β} : ∀ {l : List ι} {a : α} {b : β},
    R a b → (∀ x ∈ l, ∀ a b, R a b → Together p R (f a x) (g b x)) → Together p R (l.foldlM f a) (l.foldlM g b)
  | [], _, _, h, _ => ok h
  | x :: l, a, b, h, hf => by
    rw [List.foldlM_cons, List.foldlM_cons]
    exact bind (hf x (by simp) a b h) fun a' b' h' => foldlM h' fun y hy => hf y (by simp [hy])

theorem refl {x : Except Err α} {R : α → α → Prop} (h : ∀ a, x = .ok a → R a a) : Together p R x x := by
  cases x with
  | ok a => exact ok (h a rfl)
  | error e => exact error e

end Together

/-! ## A bus and the times and lengths of its bursts -/

/-- The buses agree in all but the words. -/
structure Bus.Shape {N : Nat} (b c : Bus N) : Prop where
  lastLoad : c.lastLoad = b.lastLoad
  enabled : c.enabled = b.enabled
  disableTime : c.disableTime = b.disableTime
  width : c.width = b.width
  datarate : c.datarate = b.datarate
  count : c.storage.count = b.storage.count
  loadTime : c.storage.loadTime = b.storage.loadTime
  pending : c.pending.pending = b.pending.pending
  timestamp : c.pending.timestamp = b.pending.timestamp

namespace Bus.Shape
variable {N : Nat} {b c : Bus N} {p : Prop}

theorem rfl' (b : Bus N) : b.Shape b := ⟨rfl, rfl, rfl, rfl, rfl, rfl, rfl, rfl, rfl⟩

theorem endTime (h : b.Shape c) : c.storage.endTime = b.storage.endTime := by
  unfold BusContainer.endTime
  rw [h.count, h.loadTime]

theorem at? (h : b.Shape c) (n : Nat) : Together p (fun _ _ => True) (b.at? n) (c.at? n) := by
  unfold Bus.at?
  rw [h.lastLoad]
  split
  · exact .error _
  · exact .ok trivial

theorem at' (h : b.Shape c) {n m : Nat} (e : m = n) : Together p (fun _ _ => True) (b.at? n) (c.at? m) := by
  subst e
  exact h.at? _

theorem advance (h : b.Shape c) (vt : Nat) (s s' : BusStats) : Together p (fun _ _ => True) (b.advance vt s) (c.advance vt s') := by
  unfold Bus.advance
  dsimp only
  rw [h.endTime]
  by_cases h1 : b.storage.endTime < vt ∧ 0 < b.storage.endTime
  · rw [if_pos h1, if_pos h1]
    refine (h.at? _).bind fun _ _ _ => (h.at? _).bind fun _ _ _ => ?_
    split
    · exact .ok trivial
    · exact .ok trivial
  · rw [if_neg h1, if_neg h1]
    split
    · exact .ok trivial
    · exact .ok trivial

theorem addPrevious (h : b.Shape c) (vt : Nat) : Together p Bus.Shape (b.addPrevious vt) (c.addPrevious vt) := by
  unfold Bus.addPrevious
  rw [h.timestamp, h.pending]
  split
  · exact .error _
  · have key : ∀ b c : Bus N, b.Shape c → Together p Bus.Shape
        (do let s ← b.advance vt b.stats
            let b := { b with stats := s }
            if 0 < vt then do
              let p ← b.at? (vt - 1)
              pure { b with lastPattern := p }
            else pure b)
        (do let s ← c.advance vt c.stats
            let c := { c with stats := s }
            if 0 < vt then do
              let p ← c.at? (vt - 1)
              pure { c with lastPattern := p }
            else pure c) := by
      intro b c h
      refine (h.advance vt _ _).bind fun s s' _ => ?_
      dsimp only
      have h' : Bus.Shape { b with stats := s } { c with stats := s' } := { h with }
      split
      · exact (h'.at? _).bind fun _ _ _ => .ok { h' with }
      · exact .ok h'
    refine key _ _ ?_
    split
    · exact { h with pending := rfl, timestamp := h.timestamp }
    · exact h

theorem insertData {d e : BusContainer N} {t width n : Nat} {x y : List UInt8} (hl : p → y.length = x.length) :
    Together p (fun a b => b.count = a.count ∧ b.loadTime = a.loadTime) (d.insertData t width x n) (e.insertData t width y n) := by
  unfold BusContainer.insertData
  split
  · exact .error _
  dsimp only
  split
  · exact .error _
  by_cases hp : p
  · rw [hl hp]
    split
    · exact .error _
    · exact .ok ⟨rfl, rfl⟩
  · refine .loose hp fun a b ha hb => ?_
    split at ha
    · cases ha
    · split at hb
      · cases hb
      · rw [← ok_inj ha, ← ok_inj hb]
        exact ⟨rfl, rfl⟩

theorem addData (h : b.Shape c) (vt n : Nat) {x y : List UInt8} (hl : p → y.length = x.length) :
    Together p Bus.Shape (b.addData vt x n) (c.addData vt y n) := by
  unfold Bus.addData
  refine Together.bind (R := fun a b => b.count = a.count ∧ b.loadTime = a.loadTime) (by rw [h.width]; exact insertData hl)
    fun d e ⟨h1, h2⟩ => ?_
  dsimp only
  have h'' : Bus.Shape { b with storage := d } { c with storage := e } := { h with count := h1, loadTime := h2 }
  refine (h''.at' h.lastLoad).bind fun _ _ _ => ?_
  by_cases hd : d.count ≠ 0
  · rw [if_pos hd, if_pos (h1 ▸ hd)]
    exact .ok { h'' with pending := rfl, timestamp := rfl }
  · rw [if_neg hd, if_neg (h1 ▸ hd)]
    exact .ok { h'' with pending := rfl, timestamp := rfl }

theorem load (h : b.Shape c) (t n : Nat) {x y : List UInt8} (hl : p → y.length = x.length) :
    Together p Bus.Shape (b.load t x n) (c.load t y n) := by
  unfold Bus.load
  rw [h.enabled, h.datarate, h.lastLoad, h.count]
  split
  · exact .ok h
  split
  · exact .error _
  dsimp only
  split
  · exact .error _
  refine (h.addPrevious _).bind fun b1 c1 h1 => ?_
  have h' : Bus.Shape { b1 with lastLoad := t * b.datarate, storage := b1.storage.clear }
      { c1 with lastLoad := t * b.datarate, storage := c1.storage.clear } := { h1 with lastLoad := rfl, count := rfl, loadTime := rfl }
  exact h'.addData _ _ hl

theorem leBytes_length : ∀ (n x : Nat), (Bus.leBytes x n).length = n
  | 0, _ => rfl
  | n + 1, x => by rw [Bus.leBytes, List.length_cons, leBytes_length n]

theorem loadWord (h : b.Shape c) (t x y n : Nat) : Together p Bus.Shape (b.loadWord t x n) (c.loadWord t y n) := by
  unfold Bus.loadWord
  rw [h.width]
  dsimp only
  split
  · exact .error _
  · exact h.load _ _ fun _ => by rw [leBytes_length, leBytes_length]

theorem getStats (h : b.Shape c) (t : Nat) : Together p (fun _ _ => True) (b.getStats t) (c.getStats t) := by
  unfold Bus.getStats
  rw [h.datarate, h.lastLoad, h.enabled, h.pending, h.timestamp]
  dsimp only
  split
  · exact .error _
  split
  · exact .ok trivial
  split
  · exact h.advance _ _ _
  · exact .ok trivial

end Bus.Shape
end DRAMPower
