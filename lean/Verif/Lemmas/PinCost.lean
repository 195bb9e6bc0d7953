import Verif.Lemmas.InversionCost

/-!
# The costly levels a pin reports were all put on it
-/

namespace DRAMPower
open Spec

variable {std : Std} {P : Nat}

/-- Costly bits that are stored. -/
def stored (std : Std) (d : BitsetContainer P) : Nat := upTo d.count fun k => bit (d.bitset.getLsbD k == costlyLevel std)

/-- Costly levels that were counted, or will be. -/
def Pin.owed (std : Std) (p : Pin P) : Nat := Group.lossy std p.stats + stored std p.storage

/-- A pin that falls back to a level that costs nothing. -/
structure Thrifty (std : Std) (p : Pin P) : Prop where
  idle : p.idleState = plainLevel std
  time : p.storage.loadTime = p.lastSet
  size : p.storage.count ≤ P

theorem lossy_change (s : BusStats) (a b : PinState) : Group.lossy std (s + Pin.change a b) = Group.lossy std s := by
  rw [lossy_add]
  cases std <;> cases a <;> cases b <;> rfl

theorem lossy_duration (h5 : std ≠ .ddr5) (s : BusStats) (n : Nat) : Group.lossy std (s + Pin.duration (plainLevel std) n) = Group.lossy std s := by
  rw [lossy_add]
  cases std
  all_goals first | rfl | exact absurd rfl h5

theorem lossy_pending (t : Nat) (p : Pending (PinState × PinState)) (s : BusStats) : Group.lossy std (Pin.addPending t p s) = Group.lossy std s := by
  unfold Pin.addPending
  split
  · exact lossy_change _ _ _
  · rfl

theorem lossy_bits (f : Nat → Bool) (n : Nat) : Group.lossy std (bitsStats f n) = upTo n fun k => bit (f k == costlyLevel std) := by
  rw [← wires_upTo]
  have h0 : (wires n fun k => f k == false) = n - wires n f := by
    rw [← wires_not]
    congr 1
    funext k
    cases f k <;> rfl
  have h1 : (wires n fun k => f k == true) = wires n f := by
    congr 1
    funext k
    cases f k <;> rfl
  cases std
  · exact h0.symm
  · exact h0.symm
  · exact h1.symm
  · exact h1.symm
  · exact h1.symm

theorem count_cost (h5 : std ≠ .ddr5) {p : Pin P} (hp : Thrifty std p) {stop : Nat} {s s' : BusStats}
    (h : p.count stop p.lastSet p.idleState s = .ok s') : Group.lossy std s' ≤ Group.lossy std s + stored std p.storage := by
  unfold Pin.count at h
  rw [hp.idle] at h
  split at h
  · rw [← ok_inj h]; exact Nat.le_add_right _ _
  rename_i hlt
  split at h
  · rw [storage_stats p.storage hp.time (by omega) hp.size] at h
    have hb : Group.lossy std (s + bitsStats p.storage.bitset.getLsbD (min (stop - p.lastSet) p.storage.count)) ≤
        Group.lossy std s + stored std p.storage := by
      rw [lossy_add, lossy_bits]
      exact Nat.add_le_add_left (upTo_min_le (Nat.min_le_right _ _) _) _
    simp only [bind, Except.bind] at h
    split at h
    · split at h
      · cases h
      · rw [← pure_ok h, lossy_duration h5, lossy_change]
        exact hb
    · rw [← pure_ok h]
      exact hb
  · rw [← pure_ok h, lossy_duration h5]
    exact Nat.le_add_right _ _

theorem setInternal_cost (h5 : std ≠ .ddr5) {p : Pin P} (hp : Thrifty std p) {t : Nat} {s : BusStats} (h : p.setInternal t 1 p.stats = .ok s) :
    Group.lossy std s ≤ p.owed std ∧ (t = p.lastSet → Group.lossy std s = Group.lossy std p.stats) ∧ p.lastSet ≤ t := by
  unfold Pin.setInternal at h
  rw [Nat.mul_one] at h
  dsimp only at h
  split at h
  · cases h
  rename_i hle
  have hs : Group.lossy std (Pin.addPending t p.pending (if p.initLoad = true ∧ 0 < t then p.stats + Pin.change p.lastState p.idleState else p.stats)) =
      Group.lossy std p.stats := by
    rw [lossy_pending]
    split
    · exact lossy_change _ _ _
    · rfl
  refine ⟨?_, fun e => ?_, by omega⟩
  · have := count_cost h5 hp h
    rw [hs] at this
    exact this
  · unfold Pin.count at h
    rw [if_pos (by omega)] at h
    rw [← ok_inj h]
    exact hs

theorem pushBack_cost {d d' : BitsetContainer P} {t : Nat} {b : Bool} (h : d.pushBack t b = .ok d') :
    d'.loadTime = t ∧ d'.count ≤ P ∧
    stored std d' = (if t = d.loadTime then stored std d else 0) + bit (b == costlyLevel std) := by
  unfold BitsetContainer.pushBack at h
  dsimp only at h
  have key : ∀ n : Nat, n < P → upTo (n + 1) (fun k => bit ((setBit d.bitset n b).getLsbD k == costlyLevel std)) =
      upTo n (fun k => bit (d.bitset.getLsbD k == costlyLevel std)) + bit (b == costlyLevel std) := by
    intro n hn
    show upTo n _ + _ = _
    dsimp only
    rw [getLsbD_setBit _ _ _ _ hn, if_pos rfl]
    congr 1
    refine upTo_congr fun k hk => ?_
    rw [getLsbD_setBit _ _ _ _ hn, if_neg (by omega)]
  by_cases ht : t = d.loadTime
  · simp only [ht, ne_eq, not_true_eq_false, if_false] at h
    split at h
    · cases h
    rename_i hn
    rw [← ok_inj h, if_pos ht]
    exact ⟨ht.symm, by show d.count + 1 ≤ P; omega, key d.count (by omega)⟩
  · simp only [ne_eq, ht, not_false_eq_true, if_true] at h
    split at h
    · cases h
    rename_i hn
    rw [← ok_inj h, if_neg ht]
    exact ⟨rfl, by show 0 + 1 ≤ P; omega, key 0 (by omega)⟩

/-- A level put on a pin is owed if it is costly. -/
theorem set_cost (h5 : std ≠ .ddr5) {p p' : Pin P} (hp : Thrifty std p) {t : Nat} {st : PinState} (h : p.set t st 1 = .ok p') :
    Thrifty std p' ∧ p'.owed std ≤ p.owed std + bit ((st == .H) == costlyLevel std) := by
  unfold Pin.set at h
  rw [Nat.mul_one] at h
  obtain ⟨s, hs, h⟩ := bind_ok h
  dsimp only at h
  obtain ⟨d, hd, h⟩ := bind_ok h
  have e := pure_ok h
  obtain ⟨c1, c2, c3⟩ := setInternal_cost h5 hp hs
  have hd' : p.storage.pushBack t (st == .H) = .ok d := by
    revert hd
    split <;> split <;> exact id
  obtain ⟨k1, k2, k3⟩ := pushBack_cost (std := std) hd'
  have q1 : p'.stats = s := by rw [← e]; split <;> split <;> rfl
  have q2 : p'.storage = d := by rw [← e]
  have q3 : p'.idleState = p.idleState := by rw [← e]; split <;> split <;> rfl
  have q4 : p'.lastSet = t := by rw [← e]
  refine ⟨⟨q3.trans hp.idle, by rw [q2, q4]; exact k1, by rw [q2]; exact k2⟩, ?_⟩
  unfold Pin.owed at c1 ⊢
  rw [q1, q2, k3, hp.time]
  by_cases ht : t = p.lastSet
  · rw [if_pos ht, c2 ht]; omega
  · rw [if_neg ht]; omega

/-- A query. -/
theorem getStats_cost (h5 : std ≠ .ddr5) {p : Pin P} (hp : Thrifty std p) {t r : Nat} {s : BusStats} (h : p.getStats t r = .ok s) :
    Group.lossy std s ≤ p.owed std := by
  unfold Pin.getStats at h
  dsimp only at h
  split at h
  · cases h
  split at h
  · rw [← ok_inj h]; exact Nat.le_add_right _ _
  · have := count_cost h5 hp h
    rw [lossy_pending] at this
    refine Nat.le_trans this (Nat.le_of_eq ?_)
    unfold Pin.owed
    congr 1
    split
    · exact lossy_change _ _ _
    · rfl

/-! ## All pins of a direction -/

/-- What the pins of a list owe. -/
def owedAll (std : Std) (l : List (Pin P)) : Nat := (l.map (Pin.owed std)).sum

theorem owed_set {l : List (Pin P)} {n k : Nat} {p q : Pin P} (h : l[k]? = some p) (hq : q.owed std ≤ p.owed std + n) :
    owedAll std (l.set k q) ≤ owedAll std l + n := by
  induction l generalizing k with
  | nil => simp at h
  | cons a l ih =>
    unfold owedAll at *
    cases k with
    | zero =>
      obtain rfl : a = p := by simpa using h
      simp only [List.set_cons_zero, List.map_cons, List.sum_cons]
      omega
    | succ k =>
      have := ih (by simpa using h)
      simp only [List.set_cons_succ, List.map_cons, List.sum_cons]
      omega

theorem pinStats_cost (h5 : std ≠ .ddr5) {t : Nat} : ∀ {l : List (Pin P)} {s s' : BusStats}, (∀ p ∈ l, Thrifty std p) →
    Interface.pinStats l t s = .ok s' → Group.lossy std s' ≤ Group.lossy std s + owedAll std l
  | [], s, s', _, h => by rw [← pure_ok h]; exact Nat.le_add_right _ _
  | p :: l, s, s', hl, h => by
    unfold Interface.pinStats at h
    rw [List.foldlM_cons] at h
    obtain ⟨s1, h1, h⟩ := bind_ok h
    obtain ⟨x, hx, h1⟩ := bind_ok h1
    have ih := pinStats_cost h5 (fun p hp => hl p (by simp [hp])) h
    have hc := getStats_cost h5 (hl p (by simp)) hx
    rw [← pure_ok h1, lossy_add] at ih
    unfold owedAll at *
    rw [List.map_cons, List.sum_cons]
    omega

variable {N : Nat} {sp : IfSpec} {m : Setting} {i i' : Interface std N}

/-- All pins of both directions are thrifty. -/
def ThriftyPins (i : Interface std N) : Prop := ∀ r, ∀ p ∈ i.pinsOf r, Thrifty std p

/-- Flags that events put on the pins of a direction. -/
def raised (r : Bool) (es : List DbiEvent) : Nat := (es.map fun e => bit (e.inverted && e.read == r)).sum

theorem level_cost (h5 : std ≠ .ddr5) (b : Bool) : bit ((Interface.pinLevel std b == .H) == costlyLevel std) = bit b := by
  cases std
  case ddr5 => exact absurd rfl h5
  all_goals cases b <;> rfl

theorem pinChange_cost (h5 : std ≠ .ddr5) {e : DbiEvent} (hp : ThriftyPins i) (h : i.pinChange e = .ok i') :
    ThriftyPins i' ∧ ∀ r, owedAll std (i'.pinsOf r) ≤ owedAll std (i.pinsOf r) + bit (e.inverted && e.read == r) := by
  unfold Interface.pinChange at h
  split at h
  · cases h
  rename_i q hq
  obtain ⟨q', hq', h⟩ := bind_ok h
  have hmem : q ∈ i.pinsOf e.read := List.mem_of_getElem? hq
  obtain ⟨c1, c2⟩ := set_cost h5 (hp e.read q hmem) hq'
  rw [level_cost h5] at c2
  have hnew : ∀ l : List (Pin (pinSize std)), (∀ p ∈ l, Thrifty std p) → ∀ p ∈ l.set e.idx q', Thrifty std p := by
    intro l hl p hp
    rcases List.mem_or_eq_of_mem_set hp with h | h
    · exact hl p h
    · rw [h]; exact c1
  cases her : e.read with
  | true =>
    rw [her] at h hq
    simp only [if_true] at h hq
    rw [← pure_ok h]
    refine ⟨fun r => ?_, fun r => ?_⟩
    · cases r with
      | true => exact hnew _ (hp true)
      | false => exact hp false
    · cases r with
      | true => rw [beq_self_eq_true, Bool.and_true]; exact owed_set hq c2
      | false => exact Nat.le_add_right _ _
  | false =>
    rw [her] at h hq
    simp only [Bool.false_eq_true, if_false] at h hq
    rw [← pure_ok h]
    refine ⟨fun r => ?_, fun r => ?_⟩
    · cases r with
      | true => exact hp true
      | false => exact hnew _ (hp false)
    · cases r with
      | true => exact Nat.le_add_right _ _
      | false => rw [beq_self_eq_true, Bool.and_true]; exact owed_set hq c2

theorem pinChanges_cost (h5 : std ≠ .ddr5) : ∀ {es : List DbiEvent} {i i' : Interface std N}, ThriftyPins i → es.foldlM Interface.pinChange i = .ok i' →
    ThriftyPins i' ∧ ∀ r, owedAll std (i'.pinsOf r) ≤ owedAll std (i.pinsOf r) + raised r es
  | [], i, i', hp, h => by rw [← pure_ok h]; exact ⟨hp, fun _ => Nat.le_add_right _ _⟩
  | e :: es, i, i', hp, h => by
    rw [List.foldlM_cons] at h
    obtain ⟨i1, h1, h2⟩ := bind_ok h
    obtain ⟨a1, a2⟩ := pinChange_cost h5 hp h1
    obtain ⟨b1, b2⟩ := pinChanges_cost h5 a1 h2
    refine ⟨b1, fun r => ?_⟩
    have := a2 r
    have := b2 r
    unfold raised at *
    rw [List.map_cons, List.sum_cons]
    omega

theorem raised_map {r : Bool} {es : List DbiEvent} {l : List (Nat × Nat × Bool × Bool)}
    (h : es.map (fun e => (e.load, e.idx, e.inverted, e.read)) = l) : raised r es = (l.map fun e => bit (e.2.2.1 && e.2.2.2 == r)).sum := by
  rw [← h, List.map_map]
  rfl

theorem reset_raised (h6 : std ≠ .lpddr6) {d d' : Dbi 8} {t : Nat} {read r : Bool} {ev : List DbiEvent}
    (h : d.reset (sp.dbi std) t read = .ok (d', ev)) : raised r ev = 0 := by
  obtain ⟨_, _, _, _, _, k⟩ := reset_track h6 h
  rcases k with ⟨_, e⟩ | ⟨_, _, _, e, _⟩
  · rw [e]; rfl
  · rw [e]
    unfold raised
    rw [List.map_map]
    generalize (List.filter _ _ : List Nat) = l
    induction l with
    | nil => rfl
    | cons a l ih => rw [List.map_cons, List.sum_cons, ih]; rfl

theorem raised_append (r : Bool) (a b : List DbiEvent) : raised r (a ++ b) = raised r a + raised r b := by
  unfold raised
  rw [List.map_append, List.sum_append]

theorem sum_upTo (f : Nat → Nat) (n : Nat) : ((List.range n).map f).sum = upTo n f := by
  induction n with
  | zero => rfl
  | succ n ih => rw [List.range_succ, List.map_append, List.sum_append, ih]; simp [upTo]

theorem update_raised (hm : m.inverting = true) (h5 : std ≠ .ddr5) (h6 : std ≠ .lpddr6) {d d' : Dbi 8} {t nBits : Nat} {read : Bool}
    {data : List UInt8} {out : List (BitVec 8)} {ev : List DbiEvent}
    (h : d.update (sp.dbi std) t nBits (some (Interface.toWords data)) read = .ok (d', some out, ev)) (r : Bool) :
    raised r ev = if read = r then upTo (nBits / 8) fun q => bit (flagged std m data q) else 0 := by
  obtain ⟨⟨d1, before, hr, he⟩, _⟩ := update_all hm h5 h6 h
  rw [raised_map he, List.map_append, List.sum_append, ← raised_map rfl, reset_raised h6 hr, Nat.zero_add, List.map_map]
  refine Eq.trans (sum_upTo _ _) ?_
  split
  · rename_i hrd
    subst hrd
    refine upTo_congr fun q _ => ?_
    show bit (_ && _) = _
    rw [beq_self_eq_true, Bool.and_true]
  · rename_i hrd
    refine Eq.trans (upTo_congr (g := fun _ => 0) fun q _ => ?_) (upTo_zero _)
    have : (read == r) = false := by simpa using hrd
    show bit (_ && _) = _
    rw [this, Bool.and_false]
    rfl

theorem SamePins.pinsOf (h : SamePins i i') (r : Bool) : i'.pinsOf r = i.pinsOf r := by
  cases r
  · exact h.write
  · exact h.read

/-- Flags of a transfer of a direction, bytes that do not fill a beat included. -/
def callFlags (std : Std) (sp : IfSpec) (r : Bool) (m : Setting) : IfOp → Nat
  | .cmd c => match c.data with
    | some data => if direction c.type = some r ∧ m.inverting = true ∧ sp.toggling = none ∧ c.nBits ≠ 0 then
        upTo (c.nBits / 8) fun q => bit (flagged std m data q)
      else 0
    | none => 0
  | _ => 0

/-- The same for a session. -/
def runFlags (std : Std) (sp : IfSpec) (r : Bool) : Setting → List IfOp → Nat
  | _, [] => 0
  | m, op :: ops => callFlags std sp r m op + runFlags std sp r (m.after op) ops

/-- The flags a call puts on the pins of a direction: those of the transfer. -/
theorem step_cost (h5 : std ≠ .ddr5) (h6 : std ≠ .lpddr6) (hs : Shaped sp i) (hi : Set6 m i)
    {op : IfOp} (hp : ThriftyPins i) (h : i.step sp op = .ok i') :
    ThriftyPins i' ∧ ∀ r, owedAll std (i'.pinsOf r) ≤ owedAll std (i.pinsOf r) + callFlags std sp r m op := by
  have k := step_pins h5 hs hi h
  cases k with
  | same k _ =>
    refine ⟨fun r => ?_, fun r => ?_⟩
    · rw [k.pinsOf]; exact hp r
    · rw [k.pinsOf]; exact Nat.le_add_right _ _
  | @burst c read _ hd k =>
    obtain ⟨x, hx, d, out, ev, i1, h1, h2, h3⟩ := k.data
    obtain ⟨a1, a2⟩ := pinChanges_cost h5 (i := { i with dbi := d }) hp h2
    refine ⟨fun r => ?_, fun r => ?_⟩
    · rw [h3.pinsOf]; exact a1 r
    · rw [h3.pinsOf]
      refine Nat.le_trans (a2 r) (Nat.add_le_add_left ?_ _)
      rw [update_raised k.inverting h5 h6 h1]
      split
      · rename_i hr
        subst hr
        unfold callFlags
        simp only [hx]
        rw [if_pos ⟨hd, k.inverting, k.mode, k.some⟩]
        exact Nat.le_refl _
      · exact Nat.zero_le _
  | @finish c d ev i1 _ hc h1 h2 h3 =>
    obtain ⟨a1, a2⟩ := pinChanges_cost h5 (i := { i with dbi := d }) hp h2
    refine ⟨fun r => ?_, fun r => ?_⟩
    · rw [h3.pinsOf]; exact a1 r
    · rw [h3.pinsOf]
      refine Nat.le_trans (a2 r) (Nat.add_le_add_left ?_ _)
      unfold Dbi.resetBoth at h1
      obtain ⟨⟨d1, e1⟩, g1, h1⟩ := bind_ok h1
      obtain ⟨⟨d2, e2⟩, g2, h1⟩ := bind_ok h1
      have := congrArg Prod.snd (pure_ok h1)
      dsimp only at this
      rw [← this, raised_append, reset_raised h6 g1, reset_raised h6 g2]
      exact Nat.zero_le _

theorem run_pin_cost (h5 : std ≠ .ddr5) (h6 : std ≠ .lpddr6) (r : Bool) :
    ∀ (ops : List IfOp) {i i' : Interface std N} {m : Setting}, Shaped sp i → Set6 m i → ThriftyPins i → i.run sp ops = .ok i' →
      ThriftyPins i' ∧ owedAll std (i'.pinsOf r) ≤ owedAll std (i.pinsOf r) + runFlags std sp r m ops := by
  intro ops
  induction ops with
  | nil =>
    intro i i' m _ _ hp h
    cases h
    exact ⟨hp, Nat.le_add_right _ _⟩
  | cons op ops ih =>
    intro i i' m hs hi hp h
    obtain ⟨i1, h1, h2⟩ := Interface.run_cons h
    obtain ⟨a1, a2⟩ := step_cost h5 h6 hs hi hp h1
    obtain ⟨b1, b2⟩ := ih (step_clocks hs h1).shaped (step_data hs hi h1).set a1 h2
    refine ⟨b1, ?_⟩
    have := a2 r
    unfold runFlags
    omega

/-- In whole beats, the flags are those of the beats. -/
theorem flags_marks (h6 : std ≠ .lpddr6) (hw : 8 * inversionPins std sp = dataWidth sp) (r : Bool) : ∀ (ops : List IfOp) (m : Setting),
    WholeBeats sp ops → runFlags std sp r m ops ≤ upTo (inversionPins std sp) (marksOf (marked std sp r m ops))
  | [], _, _ => Nat.zero_le _
  | op :: ops, m, hwh => by
    have ih := flags_marks h6 hw r ops (m.after op) fun c hc => hwh c (List.mem_cons_of_mem _ hc)
    have h3 : upTo (inversionPins std sp) (marksOf (marked std sp r m (op :: ops))) =
        callMarks std sp r m op + upTo (inversionPins std sp) (marksOf (marked std sp r (m.after op) ops)) := by
      unfold callMarks
      rw [← upTo_add]
      exact upTo_congr fun p _ => marks_append _ _ p
    have h1 : callFlags std sp r m op ≤ callMarks std sp r m op := by
      cases op with
      | cmd c =>
        unfold callFlags callMarks markedOf
        dsimp only
        cases c.data with
        | none => exact Nat.zero_le _
        | some x =>
          dsimp only
          split
          · rename_i hc
            have h0 := hwh c (by simp)
            have h1 : dataBeats std sp c = c.nBits / dataWidth sp := by
              unfold dataBeats burstBeats
              rw [if_neg fun h => h6 h.1]
              simp [hc.2.2.2, dataWidth]
            have h2 : c.nBits = dataBeats std sp c * dataWidth sp := by
              rw [h1]
              exact (Nat.div_mul_cancel (Nat.dvd_of_mod_eq_zero h0)).symm
            have hb : c.nBits / 8 = dataBeats std sp c * inversionPins std sp := by
              rw [h2, ← hw, show dataBeats std sp c * (8 * inversionPins std sp) = 8 * (dataBeats std sp c * inversionPins std sp) by
                rw [Nat.mul_left_comm], Nat.mul_div_cancel_left _ (by decide)]
            rw [hb, ← upTo_mul, upTo_swap]
            refine upTo_le fun p _ => ?_
            simp [marksOf]
          · exact Nat.zero_le _
      | _ => exact Nat.zero_le _
    unfold runFlags
    omega

theorem init_thrifty (h : Interface.init std N sp = .ok i) : ThriftyPins i ∧ ∀ r, owedAll std (i.pinsOf r) = 0 := by
  have key : (∀ p ∈ sp.pins std, Thrifty std p) ∧ owedAll std (sp.pins std) = 0 := by
    unfold IfSpec.pins
    split
    · refine ⟨fun p hp => ?_, ?_⟩
      · rw [List.eq_of_mem_replicate hp]
        exact ⟨plain_eq std sp, rfl, Nat.zero_le _⟩
      · unfold owedAll
        rw [List.map_replicate, List.sum_replicate_nat]
        have : Pin.owed std (Pin.init (pinSize std) (sp.dbi std).idle (sp.dbi std).idle) = 0 := by cases std <;> rfl
        rw [this, Nat.mul_zero]
    · exact ⟨nofun, rfl⟩
  obtain ⟨_, _, _, _, _, _, _, _, _, _, _, _, r1, r2, _⟩ := init_parts h
  have hr : i.pinsRead = sp.pins std ∧ i.pinsWrite = sp.pins std := ⟨r1, r2⟩
  refine ⟨fun r => ?_, fun r => ?_⟩ <;> cases r
  · show ∀ p ∈ i.pinsWrite, _
    rw [hr.2]; exact key.1
  · show ∀ p ∈ i.pinsRead, _
    rw [hr.1]; exact key.1
  · show owedAll std i.pinsWrite = 0
    rw [hr.2]; exact key.2
  · show owedAll std i.pinsRead = 0
    rw [hr.1]; exact key.2

/-- The inversion lines report at most the flags of the transfers as costly levels. -/
theorem lines_cost (h5 : std ≠ .ddr5) (h6 : std ≠ .lpddr6) {ops : List IfOp} {a : Interface std N}
    {t : Nat} {x : SimStats} (hi : Interface.init std N sp = .ok i) (hm : Set6 {} i) (ha : i.run sp ops = .ok a) (hx : a.getWindowStats sp t {} = .ok x) :
    Group.lossy std x.readDBI ≤ runFlags std sp true {} ops ∧ Group.lossy std x.writeDBI ≤ runFlags std sp false {} ops := by
  obtain ⟨_, _, q1, q2, _⟩ := windowStats_ok hx
  obtain ⟨k1, k2⟩ := init_thrifty hi
  have z : Group.lossy std {} = 0 := by cases std <;> rfl
  obtain ⟨a1, a2⟩ := run_pin_cost h5 h6 true ops (init_shaped hi) hm k1 ha
  obtain ⟨_, b2⟩ := run_pin_cost h5 h6 false ops (init_shaped hi) hm k1 ha
  have c1 := pinStats_cost h5 (a1 true) q1
  have c2 := pinStats_cost h5 (a1 false) q2
  rw [k2] at a2 b2
  change Group.lossy std x.readDBI ≤ Group.lossy std {} + _ at c1
  change Group.lossy std x.writeDBI ≤ Group.lossy std {} + _ at c2
  rw [z] at c1 c2
  exact ⟨Nat.le_trans c1 (by omega), Nat.le_trans c2 (by omega)⟩

end DRAMPower
