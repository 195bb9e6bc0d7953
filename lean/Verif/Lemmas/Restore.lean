import Verif.Lemmas.Interface
import Verif.Lemmas.InterfaceSerialize
import Verif.Lemmas.Dbi
import Verif.Lemmas.Pattern
import Verif.Lemmas.Format

/-!
# Interfaces that differ only in what no later call can tell
-/

namespace DRAMPower

/-- The second computation behaves like the first one unless the first one is undefined. -/
def Follows {α β : Type} (R : α → β → Prop) (x : Except Err α) (y : Except Err β) : Prop :=
  (∀ a, x = .ok a → ∃ b, y = .ok b ∧ R a b) ∧ ∀ e, x = .error e → (∃ m, e = .ub m) ∨ y = .error e

namespace Follows
variable {α β γ δ : Type} {R : α → β → Prop} {S : γ → δ → Prop}

theorem ok {a : α} {b : β} (h : R a b) : Follows R (.ok a) (.ok b) :=
  ⟨fun _ e => ⟨b, rfl, (ok_inj e) ▸ h⟩, fun _ e => by cases e⟩

theorem error (e : Err) : Follows R (.error e) (.error e) :=
  ⟨fun _ h => (by cases h), fun e' h => .inr (by injection h with h; rw [h])⟩

theorem ub (m : String) (y : Except Err β) : Follows R (.error (.ub m)) y :=
  ⟨fun _ h => (by cases h), fun e' h => .inl ⟨m, by injection h with h; rw [h]⟩⟩

theorem bind {x : Except Err α} {y : Except Err β} {f : α → Except Err γ} {g : β → Except Err δ} (h : Follows R x y)
    (hf : ∀ a b, R a b → Follows S (f a) (g b)) : Follows S (x >>= f) (y >>= g) := by
  cases x with
  | ok a =>
    obtain ⟨b, e, r⟩ := h.1 a rfl
    rw [e]
    exact hf a b r
  | error e =>
    rcases h.2 e rfl with ⟨m, h1⟩ | h1
    · subst h1; exact ub m _
    · rw [h1]; exact error e

/-- Both sides run the same computation. -/
theorem same {x : Except Err α} {f : α → Except Err γ} {g : α → Except Err δ}
    (hf : ∀ a, x = .ok a → Follows S (f a) (g a)) : Follows S (x >>= f) (x >>= g) := by
  cases x with
  | ok a => exact hf a rfl
  | error e => exact error e

theorem mono {x : Except Err α} {y : Except Err β} {R' : α → β → Prop} (h : Follows R x y) (hm : ∀ a b, R a b → R' a b) : Follows R' x y :=
  ⟨fun a e => let ⟨b, e', r⟩ := h.1 a e; ⟨b, e', hm a b r⟩, h.2⟩

theorem foldlM {ι : Type} {f : α → ι → Except Err α} {g : β → ι → Except Err β} : ∀ {l : List ι} {a : α} {b : β},
    R a b → (∀ x ∈ l, ∀ a b, R a b → Follows R (f a x) (g b x)) → Follows R (l.foldlM f a) (l.foldlM g b)
  | [], _, _, h, _ => ok h
  | x :: l, a, b, h, hf => by
    rw [List.foldlM_cons, List.foldlM_cons]
    exact bind (hf x (by simp) a b h) fun a' b' h' => foldlM h' fun y hy => hf y (by simp [hy])

end Follows

/-! ## The inversion state -/

/-- Equal but for the capacity, which is at least the size of the vector and at most that of the first. -/
structure LastBurst.Alike {w : Nat} (l m : LastBurst w) : Prop where
  start : m.start = l.start
  stop : m.stop = l.stop
  nChunks : m.nChunks = l.nChunks
  init : m.init = l.init
  inversions : m.inversions = l.inversions
  lastbeat : m.lastbeat = l.lastbeat
  lower : l.inversions.length ≤ m.capacity
  upper : m.capacity ≤ l.capacity

structure Dbi.Alike {w : Nat} (d e : Dbi w) : Prop where
  enable : e.enable = d.enable
  lastBurstRead : e.lastBurstRead = d.lastBurstRead
  inverted : e.inverted = d.inverted
  last : ∀ read, (d.last read).Alike (e.last read)

namespace Dbi.Alike
variable {w : Nat} {p : DbiParams w} {d e : Dbi w}

theorem setLast (h : d.Alike e) {read : Bool} {l m : LastBurst w} (hl : l.Alike m) : (d.setLast read l).Alike (e.setLast read m) := by
  have hr := h.last
  refine ⟨?_, ?_, ?_, fun r => ?_⟩
  · cases read <;> exact h.enable
  · cases read <;> exact h.lastBurstRead
  · cases read <;> exact h.inverted
  · cases read <;> cases r
    · exact hl
    · exact hr true
    · exact hr false
    · exact hl

theorem short (h : d.Alike e) (read : Bool) : p.short (e.last read) = p.short (d.last read) := by
  unfold DbiParams.short
  rw [(h.last read).init, (h.last read).nChunks]

theorem reset (h : d.Alike e) (t : Nat) (read : Bool) :
    Follows (fun a b => a.1.Alike b.1 ∧ b.2 = a.2) (d.reset p t read) (e.reset p t read) := by
  have hl := h.last read
  unfold Dbi.reset
  simp only [h.short read, hl.init, hl.stop, hl.nChunks, hl.inversions]
  split
  · exact .error _
  rename_i hs
  split
  · exact .ok ⟨h, rfl⟩
  rename_i hi
  split
  · exact .ok ⟨h, rfl⟩
  split
  · exact .ok ⟨h, rfl⟩
  split
  · exact .error _
  rename_i hlen
  have hcnt : p.resetCount (d.last read) ≤ (d.last read).nChunks := by
    unfold DbiParams.resetCount
    unfold DbiParams.short at hs
    split
    · exact Nat.le_refl _
    · rename_i n hn
      simp only [hn] at hs
      simp_all
  have hc : p.resetCount (e.last read) = p.resetCount (d.last read) := by
    unfold DbiParams.resetCount
    rw [hl.nChunks]
  rw [hc]
  refine .ok ⟨h.setLast ⟨hl.start, rfl, rfl, rfl, rfl, hl.lastbeat, ?_, hl.upper⟩, rfl⟩
  have := hl.lower
  simp only [List.length_append, List.length_take, List.length_replicate, List.length_drop]
  omega

theorem resetBoth (h : d.Alike e) (t : Nat) :
    Follows (fun a b => a.1.Alike b.1 ∧ b.2 = a.2) (d.resetBoth p t) (e.resetBoth p t) := by
  unfold Dbi.resetBoth
  refine (h.reset t true).bind fun ⟨d1, ev1⟩ ⟨e1, ev1'⟩ h1 => ?_
  refine (h1.1.reset t false).bind fun ⟨d2, ev2⟩ ⟨e2, ev2'⟩ h2 => ?_
  refine .ok ⟨h2.1, ?_⟩
  have a := h1.2; have b := h2.2
  dsimp only at a b
  rw [a, b]

end Dbi.Alike

theorem DbiParams.visit_error {w : Nat} {p : DbiParams w} {t c : Nat} {read b : Bool} {s : DbiLoop w} {x : Err}
    (h : p.visit t read s b c = .error x) : ∃ m, x = .ub m := by
  unfold DbiParams.visit at h
  split at h
  · exact ⟨_, by injection h with h; exact h.symm⟩
  · split at h
    · exact ⟨_, by injection h with h; exact h.symm⟩
    · cases h

theorem DbiParams.visit_flags {w : Nat} {p : DbiParams w} {t c : Nat} {read b : Bool} {s s' : DbiLoop w}
    (h : p.visit t read s b c = .ok s') : s'.flags.length = s.flags.length ∧ s'.data.length = s.data.length ∧ c < s.flags.length := by
  unfold DbiParams.visit at h
  split at h
  · cases h
  · split at h
    · cases h
    · rw [← ok_inj h]
      refine ⟨by simp, ?_, by omega⟩
      cases b <;> simp [invertChunk]

theorem foldlM_error {σ ι : Type} {f : σ → ι → Except Err σ} {P : Err → Prop} (hf : ∀ s x e, f s x = .error e → P e) :
    ∀ {l : List ι} {s : σ} {e : Err}, l.foldlM f s = .error e → P e
  | [], s, e, h => by cases h
  | x :: l, s, e, h => by
    rw [List.foldlM_cons] at h
    cases hx : f s x with
    | ok s' => rw [hx] at h; exact foldlM_error hf (l := l) h
    | error e' => rw [hx] at h; injection h with h; exact h ▸ hf s x e' hx

theorem DbiParams.compute_error {w : Nat} {p : DbiParams w} {t : Nat} {before : Option (List (BitVec w))} {read : Bool} {s : DbiLoop w}
    {x : Err} (h : p.compute before t read s = .error x) : ∃ m, x = .ub m := by
  unfold DbiParams.compute at h
  split at h
  · refine foldlM_error (P := fun x => ∃ m, x = Err.ub m) (fun s i e he => ?_) h
    unfold DbiParams.staticStep at he
    dsimp only at he
    split at he
    · exact visit_error he
    · cases he
  · refine foldlM_error (P := fun x => ∃ m, x = Err.ub m) (fun s i e he => ?_) h
    unfold DbiParams.dynamicStep at he
    dsimp only at he
    split at he
    · exact visit_error he
    · cases he
  · refine foldlM_error (P := fun x => ∃ m, x = Err.ub m) (fun s i e he => ?_) h
    exact visit_error he

/-- A finished loop keeps the number of flags and has visited the first word of every chunk. -/
theorem DbiParams.compute_flags {w : Nat} {p : DbiParams w} (hs : 0 < p.sub) {t : Nat} {before : Option (List (BitVec w))} {read : Bool}
    {s s' : DbiLoop w} (h : p.compute before t read s = .ok s') :
    s'.flags.length = s.flags.length ∧ ∀ c, c * p.sub < s.data.length → c < s.flags.length := by
  have key : ∀ f : DbiLoop w → Nat → Except Err (DbiLoop w),
      (∀ a i b, f a i = .ok b → b.flags.length = a.flags.length ∧ (i % p.sub = 0 → i / p.sub < a.flags.length)) →
      (List.range s.data.length).foldlM f s = .ok s' →
      s'.flags.length = s.flags.length ∧ ∀ c, c * p.sub < s.data.length → c < s.flags.length := by
    intro f hf hr
    have := foldlM_range_inv (P := fun n (a : DbiLoop w) => a.flags.length = s.flags.length ∧ ∀ c, c * p.sub < n → c < s.flags.length)
      (n := s.data.length) (s := s) ⟨rfl, fun c hc => by omega⟩ (fun i a b _ ⟨h1, h2⟩ hv => by
        obtain ⟨k1, k2⟩ := hf a i b hv
        refine ⟨k1.trans h1, fun c hc => ?_⟩
        by_cases hci : c * p.sub < i
        · exact h2 c hci
        · have hic : i = c * p.sub := by omega
          have := k2 (by rw [hic]; exact Nat.mul_mod_left _ _)
          rw [hic, Nat.mul_div_cancel _ hs] at this
          omega) hr
    exact this
  unfold DbiParams.compute at h
  split at h
  · refine key _ (fun a i b hv => ?_) h
    unfold DbiParams.staticStep at hv
    dsimp only at hv
    split at hv
    · have := visit_flags hv
      exact ⟨this.1, fun _ => this.2.2⟩
    · rename_i hl
      rw [← ok_inj hv]
      exact ⟨rfl, fun e => absurd ((isLast_iff p i).2 e) hl⟩
  · refine key _ (fun a i b hv => ?_) h
    unfold DbiParams.dynamicStep at hv
    dsimp only at hv
    split at hv
    · have := visit_flags hv
      exact ⟨this.1, fun _ => this.2.2⟩
    · rename_i hl
      rw [← ok_inj hv]
      exact ⟨rfl, fun e => absurd ((isLast_iff p i).2 e) hl⟩
  · refine key _ (fun a i b hv => ?_) h
    have := visit_flags hv
    exact ⟨this.1, fun _ => this.2.2⟩

/-! ### An update -/

/-- The vector of flags as `updateDBI` resizes it (util/dbi.h 265-270). -/
def DbiParams.fitted {w : Nat} (p : DbiParams w) (l : LastBurst w) (n : Nat) : LastBurst w :=
  if l.capacity < n then
    { l with inversions := l.inversions.take n ++ List.replicate (n - l.inversions.length) false, capacity := max n (p.grow l.inversions.length n) }
  else l

/-- The state `updateDBI` leaves behind (util/dbi.h 289-297). -/
def DbiParams.finished {w : Nat} (p : DbiParams w) (d : Dbi w) (read : Bool) (l : LastBurst w) (t nBits n : Nat) (s : DbiLoop w) : Dbi w :=
  let stop := match p.width with | some width => t + nBits / width | none => t + p.burstLength
  let l := { l with inversions := s.flags, start := t, stop, nChunks := n, init := true }
  { d.setLast read l with inverted := s.data, lastBurstRead := read }

theorem DbiParams.saveLast_alike {w : Nat} {p : DbiParams w} {l m : LastBurst w} (h : l.Alike m) (inv : List (BitVec w)) (t : Nat) :
    (p.saveLast l inv t).Alike (p.saveLast m inv t) := by
  have hs : p.seamless m inv t = p.seamless l inv t := by
    unfold DbiParams.seamless
    rw [h.init, h.start, h.stop]
  unfold DbiParams.saveLast
  rw [hs]
  split
  · exact ⟨h.start, h.stop, h.nChunks, h.init, h.inversions, rfl, h.lower, h.upper⟩
  · exact h

theorem DbiParams.previous_alike {w : Nat} {p : DbiParams w} {l m : LastBurst w} (h : l.Alike m) (data : List (BitVec w)) (t : Nat) :
    p.previous m data t = p.previous l data t := by
  have hs : p.seamless m data t = p.seamless l data t := by
    unfold DbiParams.seamless
    rw [h.init, h.start, h.stop]
  unfold DbiParams.previous
  rw [hs, h.lastbeat]

theorem Dbi.Alike.update {w : Nat} {p : DbiParams w} {d e : Dbi w} (hs : 0 < p.sub) (hw : 0 < w) (h : d.Alike e) (t nBits : Nat)
    (data : Option (List (BitVec w))) (read : Bool) :
    Follows (fun a b => a.1.Alike b.1 ∧ b.2 = a.2) (d.update p t nBits data read) (e.update p t nBits data read) := by
  unfold Dbi.update
  split
  · exact .ok ⟨h, rfl⟩
  rename_i data
  rw [h.enable]
  split
  · exact .ok ⟨h, rfl⟩
  refine (h.reset t read).bind fun ⟨d1, ev⟩ ⟨e1, ev'⟩ ⟨h1, h2⟩ => ?_
  dsimp only at h1 h2 ⊢
  subst h2
  split
  · exact .error _
  rename_i hmod
  split
  · exact .error _
  rename_i hlen
  have hl := p.saveLast_alike (h1.last read) d1.inverted t
  rw [h1.inverted, DbiParams.previous_alike hl]
  refine .same fun before _ => ?_
  split
  · exact .error _
  rename_i hchunk
  have key : ∀ n, n = nBits / p.chunkSize → ∀ l m : LastBurst w, l.Alike m →
      Follows (fun a b => a.1.Alike b.1 ∧ b.2 = a.2)
        (p.compute before t read { data := data.take (nBits / w), flags := (p.fitted l n).inversions } >>= fun s =>
          pure (p.finished d1 read (p.fitted l n) t nBits n s, some s.data, p.deliver (ev' ++ s.events)))
        (p.compute before t read { data := data.take (nBits / w), flags := (p.fitted m n).inversions } >>= fun s =>
          pure (p.finished e1 read (p.fitted m n) t nBits n s, some s.data, p.deliver (ev' ++ s.events))) := by
    intro n hn l m hlm
    by_cases hbad : l.capacity < n ∨ n ≤ m.capacity
    · have he : (p.fitted m n).inversions = (p.fitted l n).inversions ∧ (p.fitted m n).lastbeat = (p.fitted l n).lastbeat ∧
          (p.fitted m n).capacity ≤ (p.fitted l n).capacity ∧ (p.fitted l n).inversions.length ≤ (p.fitted m n).capacity := by
        have hu := hlm.upper
        have hlo := hlm.lower
        unfold DbiParams.fitted
        rcases hbad with hb | hb
        · rw [if_pos hb, if_pos (by omega)]
          refine ⟨by rw [hlm.inversions], hlm.lastbeat, Nat.le_of_eq (by rw [hlm.inversions]), ?_⟩
          simp only [List.length_append, List.length_take, List.length_replicate]
          omega
        · rw [if_neg (by omega), if_neg (by omega)]
          exact ⟨hlm.inversions, hlm.lastbeat, hu, hlo⟩
      rw [he.1]
      refine .same fun s hc => ?_
      have hf := DbiParams.compute_flags hs hc
      refine .ok ⟨⟨?_, rfl, rfl, fun r => ?_⟩, rfl⟩
      · cases read <;> exact h1.enable
      · have hfin : LastBurst.Alike { p.fitted l n with inversions := s.flags, start := t, stop := (match p.width with | some width => t + nBits / width | none => t + p.burstLength), nChunks := n, init := true }
            { p.fitted m n with inversions := s.flags, start := t, stop := (match p.width with | some width => t + nBits / width | none => t + p.burstLength), nChunks := n, init := true } :=
          ⟨rfl, rfl, rfl, rfl, rfl, he.2.1, Nat.le_trans (Nat.le_of_eq hf.1) he.2.2.2, he.2.2.1⟩
        have hx := (h1.setLast (read := read) hfin).last r
        cases r <;> cases read <;> exact hx
    · -- the first vector is too short: undefined
      rw [not_or] at hbad
      have hfit : p.fitted l n = l := by unfold DbiParams.fitted; rw [if_neg hbad.1]
      rw [hfit]
      cases hc : p.compute before t read { data := data.take (nBits / w), flags := l.inversions } with
      | error x =>
        obtain ⟨msg, hm⟩ := DbiParams.compute_error hc
        subst hm
        exact .ub _ _
      | ok s =>
        exfalso
        have hf := (DbiParams.compute_flags hs hc).2 (n - 1)
        have hlo := hlm.lower
        have hd : (data.take (nBits / w)).length = nBits / w := by rw [List.length_take]; omega
        rw [hd] at hf
        have hnb : nBits / w = n * p.sub := by
          have h0 : nBits % p.chunkSize = 0 := by omega
          obtain ⟨q, hq⟩ := Nat.dvd_of_mod_eq_zero h0
          have hcs : 0 < p.chunkSize := Nat.mul_pos hs hw
          rw [hn, hq, Nat.mul_div_cancel_left _ hcs]
          unfold DbiParams.chunkSize
          rw [Nat.mul_right_comm, Nat.mul_div_cancel _ hw, Nat.mul_comm]
        have hn0 : 0 < n := by omega
        have := hf (by rw [hnb]; exact Nat.mul_lt_mul_of_pos_right (by omega) hs)
        dsimp only at this
        omega
  exact key _ rfl _ _ hl

/-! ## The formatter -/

/-- Lists with the same first `m` elements. -/
def SameHead {α : Type} (m : Nat) (r r' : List α) : Prop := ∃ a t t', r = a ++ t ∧ r' = a ++ t' ∧ a.length = m

theorem modify_head {α : Type} (f : α → α) (t : List α) : ∀ {a : List α} {k : Nat}, k < a.length → (a ++ t).modify k f = a.modify k f ++ t
  | [], _, h => absurd h (Nat.not_lt_zero _)
  | x :: a, 0, _ => by simp
  | x :: a, k + 1, h => by simpa using modify_head f t (a := a) (k := k) (by simpa using h)

theorem SameHead.orBit {m k : Nat} {r r' : List UInt8} {v : Bool} (h : SameHead m r r') (hk : k >>> 3 < m) :
    SameHead m (orBit r k v) (orBit r' k v) := by
  obtain ⟨a, t, t', e, e', hl⟩ := h
  subst e; subst e'
  refine ⟨DRAMPower.orBit a k v, t, t', ?_, ?_, by rw [orBit_length]; exact hl⟩ <;>
  · unfold DRAMPower.orBit
    exact modify_head _ _ (by omega)

theorem SameHead.payloadBit {m : Nat} {r r' : List UInt8} (h : SameHead m r r') {k : Nat} (hk : k < 8 * m) :
    payloadBit r' k = payloadBit r k := by
  obtain ⟨a, t, t', e, e', hl⟩ := h
  subst e; subst e'
  unfold DRAMPower.payloadBit
  rw [List.getD_eq_getElem?_getD, List.getD_eq_getElem?_getD, List.getElem?_append_left (by omega), List.getElem?_append_left (by omega)]

theorem formatBurst_follows {shift : Option (Nat → Bool)} {data : List UInt8} {f : Formatter} {dbi : BitVec 32} {nb b : Nat}
    (hb : b < nb) {r r' : List UInt8} (h : SameHead (nb * 36) r r') :
    Follows (SameHead (nb * 36)) (formatBurst shift data f dbi nb r b) (formatBurst shift data f dbi nb r' b) := by
  have key : Follows (fun (x y : FormatState) => SameHead (nb * 36) x.result y.result ∧ y.dataBitIdx = x.dataBitIdx ∧ y.burst = x.burst ∧ y.dq = x.dq)
      ((List.range 288).foldlM (formatStep shift data (f.metaOf b) dbi nb b) { result := r })
      ((List.range 288).foldlM (formatStep shift data (f.metaOf b) dbi nb b) { result := r' }) := by
    refine Follows.foldlM ⟨h, rfl, rfl, rfl⟩ fun i hi x y ⟨h1, h2, h3, h4⟩ => ?_
    have hi : i < 288 := List.mem_range.1 hi
    unfold formatStep
    simp only [h2, h3, h4]
    split
    · exact .error _
    split
    · exact .error _
    · refine .ok ⟨h1.orBit ?_, rfl, rfl, rfl⟩
      rw [Nat.shiftRight_eq_div_pow]
      omega
  unfold formatBurst
  revert key
  generalize (List.range 288).foldlM (formatStep shift data (f.metaOf b) dbi nb b) { result := r } = x
  generalize (List.range 288).foldlM (formatStep shift data (f.metaOf b) dbi nb b) { result := r' } = y
  intro key
  cases x with
  | ok x =>
    obtain ⟨y', e, hr⟩ := key.1 x rfl
    subst e
    exact .ok hr.1
  | error e =>
    rcases key.2 e rfl with ⟨m, hm⟩ | hy
    · subst hm; exact .ub _ _
    · subst hy; exact .error _

/-- The payload handed to the data bus: the bits that are read agree. -/
structure SamePayload (a b : Option (List UInt8) × Nat) : Prop where
  size : b.2 = a.2
  null : b.1 = none ↔ a.1 = none
  long : ∀ x, a.1 = some x → a.2 ≤ 8 * x.length
  long' : ∀ x, b.1 = some x → a.2 ≤ 8 * x.length
  bits : ∀ x y, a.1 = some x → b.1 = some y → ∀ k < a.2, payloadBit y k = payloadBit x k

theorem formatData_follows {shift : Option (Nat → Bool)} {f g : Formatter} (hm : g.metaData = f.metaData) (data : Option (List UInt8))
    (n : Nat) (inv : Option (List Bool)) :
    Follows (fun a b => b.1.metaData = a.1.metaData ∧ SamePayload a.2 b.2) (f.formatData shift data n inv) (g.formatData shift data n inv) := by
  unfold Formatter.formatData
  split
  · exact .error _
  dsimp only
  generalize hnb : (if 2 * (288 - 32) = n then 2 else 1) = nb
  have hnb2 : nb = 1 ∨ nb = 2 := by rw [← hnb]; split <;> simp
  split
  · exact .ok ⟨hm, rfl, Iff.rfl, fun x h => (by cases h), fun x h => (by cases h), fun x y h => (by cases h)⟩
  rename_i data
  have hfold : Follows (SameHead (nb * 36))
      ((List.range nb).foldlM (formatBurst shift data f (dbival inv) nb) (List.replicate (nb * 36) 0 ++ f.result.drop (nb * 36)))
      ((List.range nb).foldlM (formatBurst shift data g (dbival inv) nb) (List.replicate (nb * 36) 0 ++ g.result.drop (nb * 36))) := by
    refine Follows.foldlM ⟨_, _, _, rfl, rfl, by simp⟩ fun b hb r r' h => ?_
    have he : formatBurst shift data g (dbival inv) nb r' b = formatBurst shift data f (dbival inv) nb r' b := by
      unfold formatBurst Formatter.metaOf
      rw [hm]
    rw [he]
    exact formatBurst_follows (List.mem_range.1 hb) h
  revert hfold
  generalize (List.range nb).foldlM (formatBurst shift data f (dbival inv) nb) (List.replicate (nb * 36) 0 ++ f.result.drop (nb * 36)) = x
  generalize (List.range nb).foldlM (formatBurst shift data g (dbival inv) nb) (List.replicate (nb * 36) 0 ++ g.result.drop (nb * 36)) = y
  intro hfold
  cases x with
  | ok x =>
    obtain ⟨y', e, hr⟩ := hfold.1 x rfl
    subst e
    refine .ok ⟨hm, rfl, by simp, fun z hz => ?_, fun z hz => ?_, fun z z' hz hz' k hk => ?_⟩
    · obtain ⟨a, t, t', e, e', hl⟩ := hr
      injection hz with hz
      dsimp only at hz ⊢
      rw [← hz, e, List.length_append]; omega
    · obtain ⟨a, t, t', e, e', hl⟩ := hr
      injection hz with hz
      dsimp only at hz ⊢
      rw [← hz, e', List.length_append]; omega
    · injection hz with hz
      injection hz' with hz'
      dsimp only at hz hz' hk
      rw [← hz, ← hz']
      exact hr.payloadBit (by omega)
  | error e =>
    rcases hfold.2 e rfl with ⟨m, hm⟩ | hy
    · subst hm; exact .ub _ _
    · subst hy; exact .error _

/-- Loading a bus only looks at the first bits of the payload. -/
theorem load_congr {M : Nat} {b : Bus M} {t n : Nat} {x y : List UInt8} (hx : n ≤ 8 * x.length) (hy : n ≤ 8 * y.length)
    (h : ∀ k < n, payloadBit y k = payloadBit x k) : b.load t y n = b.load t x n := by
  have hins : ∀ (d : BusContainer M) (v width : Nat), d.insertData v width y n = d.insertData v width x n := by
    intro d v width
    have hd : n / width * width ≤ n := Nat.div_mul_le_self _ _
    unfold BusContainer.insertData
    split
    · rfl
    rename_i hw
    dsimp only
    split
    · rfl
    rw [if_neg (by omega), if_neg (by omega)]
    congr 3
    refine List.map_congr_left fun i hi => ?_
    have hi : i < n / width := List.mem_range.1 hi
    unfold fillWord
    have : ∀ (l : List Nat) (w : BitVec M), (∀ j ∈ l, j < width) →
        l.foldl (fun w j => setBit w j (payloadBit y (i * width + j))) w = l.foldl (fun w j => setBit w j (payloadBit x (i * width + j))) w := by
      intro l
      induction l with
      | nil => intros; rfl
      | cons j l ih =>
        intro w hl
        rw [List.foldl_cons, List.foldl_cons, h (i * width + j) ?_, ih _ fun a ha => hl a (by simp [ha])]
        have h1 := hl j (by simp)
        have h2 : (i + 1) * width ≤ n / width * width := Nat.mul_le_mul_right _ hi
        rw [Nat.add_mul] at h2
        omega
    exact this _ _ fun j hj => List.mem_range.1 hj
  unfold Bus.load Bus.addData
  simp only [hins]

end DRAMPower
