import Verif.Lemmas.Together
import Verif.Lemmas.DataTrace

/-!
# Interfaces after the same commands with other payloads
-/

namespace DRAMPower
variable {std : Std} {N : Nat} {sp : IfSpec} {i j : Interface std N} {p : Prop}

/-! ## Inversion without a callback (LPDDR6): failures depend on lengths only -/

/-- The flag vectors have the same sizes, and both objects are enabled or neither. -/
structure Dbi.Shape (d e : Dbi 8) : Prop where
  read : e.lastRead.inversions.length = d.lastRead.inversions.length
  write : e.lastWrite.inversions.length = d.lastWrite.inversions.length
  capRead : e.lastRead.capacity = d.lastRead.capacity
  capWrite : e.lastWrite.capacity = d.lastWrite.capacity
  enable : e.enable = d.enable

theorem Dbi.Shape.rfl' (d : Dbi 8) : d.Shape d := ⟨rfl, rfl, rfl, rfl, rfl⟩

theorem Dbi.Shape.last {d e : Dbi 8} (h : d.Shape e) (read : Bool) :
    (e.last read).inversions.length = (d.last read).inversions.length ∧ (e.last read).capacity = (d.last read).capacity := by
  cases read
  · exact ⟨h.write, h.capWrite⟩
  · exact ⟨h.read, h.capRead⟩

theorem reset_silent {q : DbiParams 8} (hw : q.width = none) (hc : q.callback = false) (d : Dbi 8) (t : Nat) (read : Bool) :
    d.reset q t read = .ok (d, []) := by
  unfold Dbi.reset DbiParams.short DbiParams.chunksPerWidth
  rw [hw, hc]
  dsimp only [Option.map]
  repeat' split
  all_goals first | rfl | (simp_all; done)

theorem resetBoth_silent {q : DbiParams 8} (hw : q.width = none) (hc : q.callback = false) (d : Dbi 8) (t : Nat) :
    d.resetBoth q t = .ok (d, []) := by
  unfold Dbi.resetBoth
  rw [reset_silent hw hc]
  show (d.reset q t false >>= fun x => pure (x.1, [] ++ x.2)) = _
  rw [reset_silent hw hc]
  rfl

/-- The states of the loop agree in the lengths. -/
def LoopShape (s r : DbiLoop 8) : Prop := r.data.length = s.data.length ∧ r.flags.length = s.flags.length

theorem visit_shape {q : DbiParams 8} {t : Nat} {read : Bool} {s r : DbiLoop 8} (h : LoopShape s r) (x y : Bool) (c : Nat) :
    Together p LoopShape (q.visit t read s x c) (q.visit t read r y c) := by
  unfold DbiParams.visit
  rw [h.2]
  split
  · exact .error _
  split
  · exact .error _
  · refine .ok ⟨?_, ?_⟩
    · have hl : ∀ (z : Bool) (l : List (BitVec 8)), (if z then invertChunk q.sub c l else l).length = l.length := by
        intro z l
        split
        · unfold invertChunk; rw [List.length_mapIdx]
        · rfl
      exact (hl _ _).trans (h.1.trans (hl _ _).symm)
    · simp only [List.length_set]
      exact h.2

theorem static_shape {q : DbiParams 8} {t : Nat} {read : Bool} {s r : DbiLoop 8} (h : LoopShape s r) (n : Nat) :
    Together p LoopShape (q.staticStep t read s n) (q.staticStep t read r n) := by
  unfold DbiParams.staticStep
  dsimp only
  split
  · exact visit_shape (s := { s with a := 0, b := 0 }) (r := { r with a := 0, b := 0 }) h _ _ _
  · exact .ok h

theorem compute_shape {q : DbiParams 8} (hs : q.algo = .static) {b b' : Option (List (BitVec 8))} {t : Nat} {read : Bool} {s r : DbiLoop 8}
    (h : LoopShape s r) : Together p LoopShape (q.compute b t read s) (q.compute b' t read r) := by
  unfold DbiParams.compute
  rw [hs]
  dsimp only
  rw [h.1]
  exact .foldlM h fun n _ _ _ h => static_shape h n

theorem Dbi.Shape.setLast {d e : Dbi 8} (h : d.Shape e) {l m : LastBurst 8} (h1 : m.inversions.length = l.inversions.length)
    (h2 : m.capacity = l.capacity) (read : Bool) : (d.setLast read l).Shape (e.setLast read m) := by
  cases read
  · exact { h with write := h1, capWrite := h2 }
  · exact { h with read := h1, capRead := h2 }

theorem Dbi.Shape.update {q : DbiParams 8} (hw : q.width = none) (hc : q.callback = false) (hs : q.algo = .static) {d e : Dbi 8} (h : d.Shape e)
    (t n : Nat) {x y : Option (List (BitVec 8))} (hl : y.map List.length = x.map List.length) (read : Bool) :
    Together p (fun a b => a.1.Shape b.1 ∧ b.2.1.map List.length = a.2.1.map List.length ∧ a.2.2 = [] ∧ b.2.2 = []) (d.update q t n x read)
      (e.update q t n y read) := by
  unfold Dbi.update
  cases x with
  | none =>
    cases y with
    | none => exact .ok ⟨h, rfl, rfl, rfl⟩
    | some y => simp at hl
  | some x =>
    cases y with
    | none => simp at hl
    | some y =>
      dsimp only
      rw [h.enable, reset_silent hw hc, reset_silent hw hc]
      have hl : y.length = x.length := by simpa using hl
      split
      · exact .ok ⟨h, rfl, rfl, rfl⟩
      show Together p _ (if n % 8 ≠ 0 then _ else _) (if n % 8 ≠ 0 then _ else _)
      split
      · exact .error _
      rw [hl]
      split
      · exact .error _
      unfold DbiParams.saveLast DbiParams.previous DbiParams.seamless
      rw [hw]
      show Together p _ (if n % q.chunkSize ≠ 0 then _ else _) (if n % q.chunkSize ≠ 0 then _ else _)
      split
      · exact .error _
      obtain ⟨h1, h2⟩ := h.last read
      have hm : ∀ (l m : LastBurst 8), m.inversions.length = l.inversions.length → m.capacity = l.capacity → Together p
          (fun a b => a.1.Shape b.1 ∧ b.2.1.map List.length = a.2.1.map List.length ∧ a.2.2 = [] ∧ b.2.2 = [])
          (do let s ← q.compute none t read { data := x.take (n / 8), flags := l.inversions }
              pure (({ d.setLast read { l with inversions := s.flags, start := t, stop := t + q.burstLength, nChunks := n / q.chunkSize, init := true }
                with inverted := s.data, lastBurstRead := read } : Dbi 8), some s.data, q.deliver ([] ++ s.events)))
          (do let s ← q.compute none t read { data := y.take (n / 8), flags := m.inversions }
              pure (({ e.setLast read { m with inversions := s.flags, start := t, stop := t + q.burstLength, nChunks := n / q.chunkSize, init := true }
                with inverted := s.data, lastBurstRead := read } : Dbi 8), some s.data, q.deliver ([] ++ s.events))) := by
        intro l m e1 e2
        have hsh : LoopShape { data := x.take (n / 8), flags := l.inversions } { data := y.take (n / 8), flags := m.inversions } :=
          ⟨by simp [hl], e1⟩
        refine (compute_shape hs hsh).bind fun s r hr => .ok ⟨?_, ?_, ?_, ?_⟩
        · have hset := h.setLast (l := { l with inversions := s.flags, start := t, stop := t + q.burstLength, nChunks := n / q.chunkSize, init := true })
            (m := { m with inversions := r.flags, start := t, stop := t + q.burstLength, nChunks := n / q.chunkSize, init := true }) hr.2 e2 read
          exact { hset with }
        · simp [hr.1]
        · simp [DbiParams.deliver, hc]
        · simp [DbiParams.deliver, hc]
      refine hm _ _ ?_ ?_
      · rw [h2]
        split
        · simp [h1]
        · exact h1
      · rw [h2]
        split
        · simp [h1]
        · exact h2

/-! ## The formatter: failures depend on lengths only -/

/-- The states of the formatter agree but for the bits. -/
def FormatShape (s r : FormatState) : Prop :=
  r.result.length = s.result.length ∧ r.dataBitIdx = s.dataBitIdx ∧ r.burst = s.burst ∧ r.dq = s.dq

theorem dbiShift_shape (f : Option (Nat → Bool)) (v w : BitVec 32) (k : Nat) : Together p (fun _ _ => True) (dbiShift f v k) (dbiShift f w k) := by
  unfold dbiShift
  split
  · exact .ok trivial
  · split
    · exact .error _
    · exact .ok trivial

theorem formatStep_shape {f : Option (Nat → Bool)} {x y : List UInt8} (hl : y.length = x.length) {m m' : BitVec 16} {v w : BitVec 32} {n b : Nat}
    {s r : FormatState} (h : FormatShape s r) (k : Nat) : Together p FormatShape (formatStep f x m v n b s k) (formatStep f y m' w n b r k) := by
  obtain ⟨h1, h2, h3, h4⟩ := h
  unfold formatStep
  dsimp only
  rw [hl, h2, h3, h4]
  split
  · exact .error _
  unfold dbiShift
  by_cases hk : 16 * b + bitOffset s.burst s.dq < 32
  · rw [if_pos hk, if_pos hk]
    exact .ok ⟨by simp only [orBit_length]; exact h1, rfl, rfl, rfl⟩
  · rw [if_neg hk, if_neg hk]
    cases f with
    | none => exact .error _
    | some f => exact .ok ⟨by simp only [orBit_length]; exact h1, rfl, rfl, rfl⟩

theorem formatBurst_shape {f : Option (Nat → Bool)} {x y : List UInt8} (hl : y.length = x.length) {g g' : Formatter} {v w : BitVec 32} {n : Nat}
    {a b : List UInt8} (h : b.length = a.length) (k : Nat) :
    Together p (fun a b => b.length = a.length) (formatBurst f x g v n a k) (formatBurst f y g' w n b k) := by
  unfold formatBurst
  have : Together p FormatShape ((List.range 288).foldlM (formatStep f x (g.metaOf k) v n k) { result := a })
      ((List.range 288).foldlM (formatStep f y (g'.metaOf k) w n k) { result := b }) :=
    .foldlM ⟨h, rfl, rfl, rfl⟩ fun z _ _ _ h => formatStep_shape hl h z
  revert this
  generalize (List.range 288).foldlM (formatStep f x (g.metaOf k) v n k) { result := a } = u
  generalize (List.range 288).foldlM (formatStep f y (g'.metaOf k) w n k) { result := b } = u'
  intro hu
  have := hu.bind (S := fun a b : List UInt8 => b.length = a.length) (f := fun s => .ok s.result) (g := fun s => .ok s.result)
    fun _ _ h => .ok h.1
  cases u <;> cases u' <;> exact this

/-- The formatted bursts have the same size; if `p` also the same length, and are refused alike. -/
theorem formatData_shape {f : Option (Nat → Bool)} {g g' : Formatter} (hm : g'.metaData = g.metaData) (hg : p → g'.result.length = g.result.length)
    {x y : Option (List UInt8)} (hn : y = none ↔ x = none) (hl : p → y.map List.length = x.map List.length) (n : Nat) (v w : Option (List Bool)) :
    Together p (fun a b => b.1.metaData = a.1.metaData ∧ (p → b.1.result.length = a.1.result.length) ∧ (b.2.1 = none ↔ a.2.1 = none) ∧
      (p → b.2.1.map List.length = a.2.1.map List.length) ∧ b.2.2 = a.2.2) (g.formatData f x n v) (g'.formatData f y n w) := by
  unfold Formatter.formatData
  split
  · exact .error _
  dsimp only
  cases x with
  | none =>
    rw [hn.2 rfl]
    exact .ok ⟨hm, hg, Iff.rfl, fun _ => rfl, rfl⟩
  | some x =>
    cases y with
    | none => simp at hn
    | some y =>
      dsimp only
      by_cases hp : p
      · have hl : y.length = x.length := by simpa using hl hp
        have : ∀ k, Together p (fun a b => b.length = a.length)
            ((List.range k).foldlM (formatBurst f x g (dbival v) k) (List.replicate (k * 36) 0 ++ g.result.drop (k * 36)))
            ((List.range k).foldlM (formatBurst f y g' (dbival w) k) (List.replicate (k * 36) 0 ++ g'.result.drop (k * 36))) := fun k =>
          .foldlM (by simp [hg hp]) fun z _ _ _ h => formatBurst_shape hl h z
        have := this (if 2 * (288 - 32) = n then 2 else 1)
        generalize (List.range (if 2 * (288 - 32) = n then 2 else 1)).foldlM (formatBurst f x g (dbival v) _) _ = u at this ⊢
        generalize (List.range (if 2 * (288 - 32) = n then 2 else 1)).foldlM (formatBurst f y g' (dbival w) _) _ = u' at this ⊢
        have := this.bind (S := fun (a b : Formatter × Option (List UInt8) × Nat) => b.1.metaData = a.1.metaData ∧
            (p → b.1.result.length = a.1.result.length) ∧ (b.2.1 = none ↔ a.2.1 = none) ∧
            (p → b.2.1.map List.length = a.2.1.map List.length) ∧ b.2.2 = a.2.2)
          (f := fun out => .ok ({ g with result := out }, some out, (if 2 * (288 - 32) = n then 2 else 1) * 288))
          (g := fun out => .ok ({ g' with result := out }, some out, (if 2 * (288 - 32) = n then 2 else 1) * 288))
          fun a b h => .ok ⟨hm, fun _ => h, (by simp), fun _ => (by simp [h]), rfl⟩
        cases u <;> cases u' <;> exact this
      · refine .loose hp fun a b ha hb => ?_
        split at ha
        · cases ha
        · split at hb
          · cases hb
          · rw [← ok_inj ha, ← ok_inj hb]
            exact ⟨hm, fun h => absurd h hp, by simp, fun h => absurd h hp, rfl⟩

/-! ## The whole interface -/

theorem none_iff_of_length {x y : Option (List UInt8)} (h : y.map List.length = x.map List.length) : y = none ↔ x = none := by
  revert h
  cases x <;> cases y <;> simp

/-- The same command with another payload of the same size. -/
structure OtherData (c c' : ICmd) : Prop where
  rest : c' = { c with data := c'.data }
  length : c'.data.map List.length = c.data.map List.length

theorem OtherData.none_iff {c c' : ICmd} (h : OtherData c c') : c'.data = none ↔ c.data = none :=
  none_iff_of_length h.length

/-- The interfaces agree in everything but what the payloads leave behind. With `p` they also agree in what decides about failures. -/
structure Interface.Twin (p : Prop) (i j : Interface std N) : Prop where
  last : j.last = i.last
  ca : j.ca = i.ca
  ca6 : j.ca6 = i.ca6
  cmdBus : j.cmdBus = i.cmdBus
  readDQS : j.readDQS = i.readDQS
  writeDQS : j.writeDQS = i.writeDQS
  wck : j.wck = i.wck
  clock : j.clock = i.clock
  ranks : j.ranks = i.ranks
  enabled : j.enabled = i.enabled
  metaData : j.formatter.metaData = i.formatter.metaData
  mode : j.dataBus.mode = i.dataBus.mode
  busRead : i.dataBus.busRead.Shape j.dataBus.busRead
  busWrite : i.dataBus.busWrite.Shape j.dataBus.busWrite
  togglingRead : j.dataBus.togglingRead = i.dataBus.togglingRead
  togglingWrite : j.dataBus.togglingWrite = i.dataBus.togglingWrite
  enable : j.dbi.enable = i.dbi.enable
  rates : i.dataBus.mode ≠ .bus → j.dataBus = i.dataBus ∧ j.dbi = i.dbi ∧ j.pinsRead = i.pinsRead ∧ j.pinsWrite = i.pinsWrite
  result : p → j.formatter.result.length = i.formatter.result.length
  strict : p → j.pinsRead = i.pinsRead ∧ j.pinsWrite = i.pinsWrite
  free : p → std = .lpddr6 → i.dbi.Shape j.dbi
  quiet : p → std ≠ .lpddr6 → j.dbi = i.dbi ∧ (std = .ddr5 ∨ i.dataBus.mode ≠ .bus ∨ i.dbi.enable = false)

namespace Interface.Twin

theorem rfl' (i : Interface std N) (h : p → std ≠ .lpddr6 → std = .ddr5 ∨ i.dataBus.mode ≠ .bus ∨ i.dbi.enable = false) : i.Twin p i :=
  ⟨rfl, rfl, rfl, rfl, rfl, rfl, rfl, rfl, rfl, rfl, rfl, rfl, .rfl' _, .rfl' _, rfl, rfl, rfl, fun _ => ⟨rfl, rfl, rfl, rfl⟩, fun _ => rfl,
    fun _ => ⟨rfl, rfl⟩, fun _ _ => .rfl' _, fun hp h6 => ⟨rfl, h hp h6⟩⟩

theorem width (h : i.Twin p j) : j.width = i.width := h.busRead.width

theorem free_width : (sp.dbi .lpddr6).width = none := rfl

theorem invertData (h : i.Twin p j) {c c' : ICmd} (hc : OtherData c c') (read : Bool) :
    Together p (fun a b => a.1.Twin p b.1 ∧ (b.2 = none ↔ a.2 = none) ∧ (p → b.2.map List.length = a.2.map List.length)) (i.invertData sp c read)
      (j.invertData sp c' read) := by
  have hn : c'.nBits = c.nBits := by rw [hc.rest]
  have ht : c'.t = c.t := by rw [hc.rest]
  unfold Interface.invertData
  by_cases hk : std = .ddr5 ∨ i.dataBus.mode ≠ .bus ∨ i.dbi.enable = false ∨ c.nBits = 0 ∨ c.data = none
  · rw [if_pos hk, if_pos (by rw [h.mode, h.enable, hn, hc.none_iff]; exact hk)]
    exact .ok ⟨h, hc.none_iff, fun _ => hc.length⟩
  rw [if_neg hk, if_neg (by rw [h.mode, h.enable, hn, hc.none_iff]; exact hk), hn, ht]
  have k1 : std ≠ .ddr5 := fun e => hk (.inl e)
  have k2 : i.dataBus.mode = .bus := Decidable.byContradiction fun e => hk (.inr (.inl e))
  have k3 : i.dbi.enable ≠ false := fun e => hk (.inr (.inr (.inl e)))
  have k5 : c.data ≠ none := fun e => hk (.inr (.inr (.inr (.inr e))))
  by_cases hp : p
  · have h6 : std = .lpddr6 := Decidable.byContradiction fun h6 => by
      rcases (h.quiet hp h6).2 with q | q | q
      · exact k1 q
      · exact q k2
      · exact k3 q
    have hw : (sp.dbi std).width = none := by rw [h6]; rfl
    have hcb : (sp.dbi std).callback = false := by rw [h6]; rfl
    have hl : (c'.data.map Interface.toWords).map List.length = (c.data.map Interface.toWords).map List.length := by
      have := hc.length
      revert this
      unfold Interface.toWords
      cases c.data <;> cases c'.data <;> simp
    refine (Dbi.Shape.update hw hcb rfl (h.free hp h6) _ _ hl read).bind fun ⟨d, out, ev⟩ ⟨d', out', ev'⟩ ⟨h1, h2, h3, h4⟩ => ?_
    dsimp only at h1 h2 h3 h4 ⊢
    subst h3; subst h4
    show Together p _ (pure _) (pure _)
    have hlen : ∀ (o o' : Option (List (BitVec 8))), o'.map List.length = o.map List.length →
        (match o' with | some w => some (Interface.ofWords w) | none => c'.data).map List.length =
        (match o with | some w => some (Interface.ofWords w) | none => c.data).map List.length := by
      intro o o' e
      cases o <;> cases o' <;> simp_all [Interface.ofWords, hc.length]
    have hl := hlen out out' h2
    refine .ok ⟨{ h with enable := h1.enable, rates := fun e => absurd k2 e, free := fun _ _ => h1, quiet := fun _ e => absurd h6 e }, ?_, fun _ => hl⟩
    exact none_iff_of_length hl
  · refine .loose hp fun a b ha hb => ?_
    obtain ⟨⟨d, out, ev⟩, e1, ha⟩ := bind_ok ha
    obtain ⟨i1, e2, ha⟩ := bind_ok ha
    obtain ⟨⟨d', out', ev'⟩, f1, hb⟩ := bind_ok hb
    obtain ⟨j1, f2, hb⟩ := bind_ok hb
    rw [← pure_ok ha, ← pure_ok hb]
    obtain ⟨pr, pw, e3, _, _⟩ := pinChanges_ok e2
    obtain ⟨pr', pw', f3, _, _⟩ := pinChanges_ok f2
    rw [e3, f3]
    have k5' : c'.data ≠ none := fun e => k5 (hc.none_iff.1 e)
    refine ⟨{ h with
      enable := (update_enable f1).trans (h.enable.trans (update_enable e1).symm)
      rates := fun e => absurd k2 e
      strict := fun e => absurd e hp
      free := fun e => absurd e hp
      quiet := fun e => absurd e hp }, ?_, fun e => absurd e hp⟩
    cases out <;> cases out' <;> simp [k5, k5']

theorem loadData (h : i.Twin p j) (read : Bool) (t n : Nat) {x y : Option (List UInt8)} (hn : y = none ↔ x = none)
    (hl : p → y.map List.length = x.map List.length) : Together p (Interface.Twin p) (i.loadData read t n x) (j.loadData read t n y) := by
  unfold Interface.loadData Interface.loadFunc DataBus.loadRead DataBus.loadWrite
  rw [h.mode]
  cases hm : i.dataBus.mode with
  | toggling =>
    have hm' : i.dataBus.mode ≠ .bus := by rw [hm]; decide
    have hd : j.dataBus = i.dataBus := (h.rates hm').1
    rw [hd]
    cases read with
    | true =>
      dsimp only
      cases i.dataBus.togglingRead.incBits t n with
      | error e => exact .error _
      | ok k =>
        exact .ok { h with mode := rfl, busRead := .rfl' _, busWrite := .rfl' _, togglingRead := rfl, togglingWrite := rfl
                           rates := fun _ => ⟨rfl, (h.rates hm').2⟩
                           quiet := fun hp h6 => ⟨(h.quiet hp h6).1, .inr (.inl (show DataBusMode.toggling ≠ .bus by decide))⟩ }
    | false =>
      dsimp only
      cases i.dataBus.togglingWrite.incBits t n with
      | error e => exact .error _
      | ok k =>
        exact .ok { h with mode := rfl, busRead := .rfl' _, busWrite := .rfl' _, togglingRead := rfl, togglingWrite := rfl
                           rates := fun _ => ⟨rfl, (h.rates hm').2⟩
                           quiet := fun hp h6 => ⟨(h.quiet hp h6).1, .inr (.inl (show DataBusMode.toggling ≠ .bus by decide))⟩ }
  | bus =>
    have hq : p → std ≠ .lpddr6 → std = .ddr5 ∨ DataBusMode.bus ≠ .bus ∨ i.dbi.enable = false := fun hp h6 => by
      have := (h.quiet hp h6).2
      rwa [hm] at this
    cases x with
    | none =>
      rw [hn.2 rfl]
      cases read <;> exact .ok h
    | some x =>
      cases y with
      | none => simp at hn
      | some y =>
        have hl : p → y.length = x.length := fun hp => by simpa using hl hp
        dsimp only
        by_cases h0 : n = 0
        · rw [if_pos h0, if_pos h0, if_pos h0, if_pos h0]
          cases read <;> exact .ok h
        · rw [if_neg h0, if_neg h0, if_neg h0, if_neg h0]
          cases read with
          | true =>
            have := h.busRead.load t n hl
            refine Together.bind (R := fun a b => (Interface.Twin p { i with dataBus := a } { j with dataBus := b })) ?_ fun a b h1 => .ok h1
            refine this.bind fun a b h1 => .ok ?_
            exact { h with busRead := h1, mode := rfl, busWrite := h.busWrite, togglingRead := h.togglingRead, togglingWrite := h.togglingWrite
                           rates := fun e => absurd rfl e, quiet := fun hp h6 => ⟨(h.quiet hp h6).1, hq hp h6⟩ }
          | false =>
            have := h.busWrite.load t n hl
            refine Together.bind (R := fun a b => (Interface.Twin p { i with dataBus := a } { j with dataBus := b })) ?_ fun a b h1 => .ok h1
            refine this.bind fun a b h1 => .ok ?_
            exact { h with busWrite := h1, mode := rfl, busRead := h.busRead, togglingRead := h.togglingRead, togglingWrite := h.togglingWrite
                           rates := fun e => absurd rfl e, quiet := fun hp h6 => ⟨(h.quiet hp h6).1, hq hp h6⟩ }

theorem transfer (h : i.Twin p j) {c c' : ICmd} (hc : OtherData c c') (read : Bool) :
    Together p (fun a b => a.1.Twin p b.1 ∧ b.2 = a.2) (i.transfer sp c read) (j.transfer sp c' read) := by
  have hn : c'.nBits = c.nBits := by rw [hc.rest]
  have ht : c'.t = c.t := by rw [hc.rest]
  unfold Interface.transfer
  rw [hn, ht, h.mode, h.width]
  split
  · split
    · exact .ok ⟨h, rfl⟩
    · exact (h.loadData _ _ _ Iff.rfl fun _ => rfl).bind fun a b h1 => .ok ⟨h1, rfl⟩
  · refine (h.invertData hc read).bind fun ⟨i1, x⟩ ⟨j1, y⟩ ⟨h1, h2, h3⟩ => ?_
    dsimp only at h1 h2 h3 ⊢
    split
    · refine (formatData_shape h1.metaData h1.result h2 h3 _ _ _).bind fun ⟨f, x', n⟩ ⟨f', y', n'⟩ ⟨g1, g2, g3, g4, g5⟩ => ?_
      dsimp only at g1 g2 g3 g4 g5 ⊢
      subst g5
      have h' : Interface.Twin p { i1 with formatter := f } { j1 with formatter := f' } := { h1 with metaData := g1, result := g2 }
      exact (h'.loadData read _ _ g3 g4).bind fun a b h4 => .ok ⟨h4, by rw [h4.width]⟩
    · exact (h1.loadData read _ _ h2 h3).bind fun a b h4 => .ok ⟨h4, by rw [h4.width]⟩

theorem dqs (h : i.Twin p j) (t s : Nat) (read : Bool) : Together p (Interface.Twin p) (i.dqs t s read) (j.dqs t s read) := by
  unfold Interface.dqs
  rw [h.readDQS, h.writeDQS]
  split
  · exact .same fun k _ => .ok { h with readDQS := rfl, writeDQS := rfl }
  · split
    · exact .ok h
    · exact .same fun k _ => .ok { h with writeDQS := rfl, readDQS := rfl }

theorem runWck (h : i.Twin p j) (t s : Nat) : Together p (Interface.Twin p) (i.runWck sp t s) (j.runWck sp t s) := by
  unfold Interface.runWck
  rw [h.wck]
  split
  · exact .same fun k _ => .ok { h with wck := rfl }
  · exact .ok h

theorem overrides (h : i.Twin p j) (len : Nat) (read : Bool) : (i.overrides len read).Twin p (j.overrides len read) := by
  unfold Interface.overrides
  rw [h.ca, h.ca6]
  split
  · exact { h with ca6 := rfl, ca := rfl }
  · exact { h with ca := rfl, ca6 := rfl }

theorem handleCommandBus (h : i.Twin p j) {c c' : ICmd} (hc : OtherData c c') :
    Together p (Interface.Twin p) (i.handleCommandBus sp c) (j.handleCommandBus sp c') := by
  have hty : c'.type = c.type := by rw [hc.rest]
  have hco : c'.co = c.co := by rw [hc.rest]
  have hco6 : c'.co6 = c.co6 := by rw [hc.rest]; rfl
  have ht : c'.t = c.t := by rw [hc.rest]
  unfold Interface.handleCommandBus Interface.encodeCommand
  rw [hty, hco, hco6, ht, h.ca, h.ca6]
  refine Together.bind (R := fun a b => a.1.Twin p b.1 ∧ b.2 = a.2) ?_ fun ⟨a, w, n⟩ ⟨b, w', n'⟩ ⟨h1, h2⟩ => ?_
  · split
    · exact .same fun k _ => .ok ⟨{ h with ca6 := rfl, ca := rfl }, rfl⟩
    · exact .same fun k _ => .ok ⟨{ h with ca := rfl, ca6 := rfl }, rfl⟩
  · dsimp only at h1 h2 ⊢
    injection h2 with h2 h3
    subst h2; subst h3
    rw [h1.cmdBus]
    exact .same fun x _ => .ok { h1 with cmdBus := rfl }

theorem prePostamble (h : i.Twin p j) {c c' : ICmd} (hc : OtherData c c') (len : Nat) (read : Bool) :
    Together p (Interface.Twin p) (i.prePostamble sp c len read) (j.prePostamble sp c' len read) := by
  have hco : c'.co = c.co := by rw [hc.rest]
  have ht : c'.t = c.t := by rw [hc.rest]
  unfold Interface.prePostamble
  rw [h.ranks, hco, ht]
  split
  · split
    · exact .error _
    · exact .same fun r _ => .ok { h with ranks := rfl }
  · exact .ok h

theorem handleData (h : i.Twin p j) {c c' : ICmd} (hc : OtherData c c') (read : Bool) :
    Together p (Interface.Twin p) (i.handleData sp c read) (j.handleData sp c' read) := by
  have ht : c'.t = c.t := by rw [hc.rest]
  unfold Interface.handleData
  refine (h.transfer hc read).bind fun ⟨i1, len⟩ ⟨j1, len'⟩ ⟨h1, e1⟩ => ?_
  dsimp only at h1 e1 ⊢
  subst e1
  rw [ht]
  refine (h1.dqs _ _ _).bind fun i2 j2 h2 => ?_
  refine (h2.runWck _ _).bind fun i3 j3 h3 => ?_
  refine ((h3.overrides _ _).handleCommandBus hc).bind fun i4 j4 h4 => ?_
  exact h4.prePostamble hc _ read

theorem pinChanges (h : i.Twin p j) (hp : j.pinsRead = i.pinsRead ∧ j.pinsWrite = i.pinsWrite) (es : List DbiEvent) :
    Together p (Interface.Twin p) (es.foldlM Interface.pinChange i) (es.foldlM Interface.pinChange j) := by
  refine (Together.foldlM (R := fun a b => a.Twin p b ∧ b.pinsRead = a.pinsRead ∧ b.pinsWrite = a.pinsWrite) ⟨h, hp⟩ ?_).mono fun _ _ h => h.1
  intro e _ a b ⟨h, hr, hw⟩
  unfold Interface.pinChange
  rw [hr, hw]
  split
  · exact .error _
  · refine .same fun k _ => ?_
    split
    all_goals exact .ok ⟨{ h with strict := fun _ => ⟨rfl, rfl⟩, rates := fun e => ⟨(h.rates e).1, (h.rates e).2.1, rfl, rfl⟩ }, rfl, rfl⟩

theorem endOfSimulation (h : i.Twin p j) (t : Nat) : Together p (Interface.Twin p) (i.endOfSimulation sp t) (j.endOfSimulation sp t) := by
  by_cases hm : i.dataBus.mode = .bus
  · by_cases hp : p
    · obtain ⟨hr, hw⟩ := h.strict hp
      by_cases h6 : std = .lpddr6
      · have hwd : (sp.dbi std).width = none := by rw [h6]; rfl
        have hcb : (sp.dbi std).callback = false := by rw [h6]; rfl
        unfold Interface.endOfSimulation
        rw [resetBoth_silent hwd hcb, resetBoth_silent hwd hcb]
        exact .ok h
      · unfold Interface.endOfSimulation
        have hd := (h.quiet hp h6).1
        rw [hd]
        refine .same fun ⟨d, ev⟩ e => ?_
        have he := resetBoth_enable e
        have h' : Interface.Twin p { i with dbi := d } { j with dbi := d } :=
          { h with enable := rfl, rates := fun e => absurd hm e, free := fun _ e => absurd e h6
                   quiet := fun hp _ => ⟨rfl, by rw [he]; exact (h.quiet hp h6).2⟩ }
        exact h'.pinChanges ⟨hr, hw⟩ _
    · refine .loose hp fun a b ha hb => ?_
      unfold Interface.endOfSimulation at ha hb
      obtain ⟨⟨d, ev⟩, e1, ha⟩ := bind_ok ha
      obtain ⟨⟨d', ev'⟩, f1, hb⟩ := bind_ok hb
      obtain ⟨pr, pw, e3, _, _⟩ := pinChanges_ok ha
      obtain ⟨pr', pw', f3, _, _⟩ := pinChanges_ok hb
      rw [e3, f3]
      exact { h with
        enable := (resetBoth_enable f1).trans (h.enable.trans (resetBoth_enable e1).symm)
        rates := fun e => absurd hm e
        strict := fun e => absurd e hp
        free := fun e => absurd e hp
        quiet := fun e => absurd e hp }
  · obtain ⟨r1, r2, r3, r4⟩ := h.rates hm
    unfold Interface.endOfSimulation
    rw [r2]
    refine .same fun ⟨d, ev⟩ e => ?_
    have h' : Interface.Twin p { i with dbi := d } { j with dbi := d } :=
      { h with enable := rfl, rates := fun e => ⟨r1, rfl, r3, r4⟩, free := fun _ _ => .rfl' _, quiet := fun _ _ => ⟨rfl, .inr (.inl hm)⟩ }
    exact h'.pinChanges ⟨r3, r4⟩ _

theorem act (h : i.Twin p j) {c c' : ICmd} (hc : OtherData c c') : ∀ a, Together p (Interface.Twin p) (i.act sp c a) (j.act sp c' a)
  | .bus => h.handleCommandBus hc
  | .data read => h.handleData hc read
  | .finish => by
    have ht : c'.t = c.t := by rw [hc.rest]
    show Together p _ (i.endOfSimulation sp c.t) (j.endOfSimulation sp c'.t)
    rw [ht]
    exact h.endOfSimulation c.t
  | .skip => .ok h
  | .unsupported => .error _
  | .invalid => .error _

theorem doCommand (h : i.Twin p j) {c c' : ICmd} (hc : OtherData c c') : Together p (Interface.Twin p) (i.doCommand sp c) (j.doCommand sp c') := by
  have hty : c'.type = c.type := by rw [hc.rest]
  have ht : c'.t = c.t := by rw [hc.rest]
  unfold Interface.doCommand
  rw [hty, ht]
  exact (h.act hc _).bind fun a b h1 => .ok { h1 with last := rfl }

theorem enableDBI (h : i.Twin p j) (e : Bool) (he : p → e = true → std = .lpddr6 ∨ std = .ddr5 ∨ i.dataBus.mode ≠ .bus) :
    (i.enableDBI e).Twin p (j.enableDBI e) :=
  { h with
    enable := rfl
    rates := fun m => ⟨(h.rates m).1, by show ({ j.dbi with enable := e } : Dbi 8) = _; rw [(h.rates m).2.1]; rfl, (h.rates m).2.2⟩
    free := fun hp h6 => { h.free hp h6 with enable := rfl }
    quiet := fun hp h6 => ⟨by show ({ j.dbi with enable := e } : Dbi 8) = _; rw [(h.quiet hp h6).1]; rfl, by
      cases e with
      | false => exact .inr (.inr rfl)
      | true =>
        rcases he hp rfl with q | q | q
        · exact absurd q h6
        · exact .inl q
        · exact .inr (.inl q)⟩ }

/-- Calls that differ in the payload. -/
inductive _root_.DRAMPower.OtherOp : IfOp → IfOp → Prop
  | cmd {c c' : ICmd} (h : OtherData c c') : OtherOp (.cmd c) (.cmd c')
  | same (op : IfOp) : OtherOp op op

theorem step (h : i.Twin p j) {op op' : IfOp} (ho : OtherOp op op')
    (he : p → op = .dbi true → std = .lpddr6 ∨ std = .ddr5 ∨ i.dataBus.mode ≠ .bus) :
    Together p (Interface.Twin p) (i.step sp op) (j.step sp op') := by
  cases ho with
  | cmd hc => exact h.doCommand hc
  | same =>
    cases op with
    | cmd c => exact h.doCommand ⟨rfl, rfl⟩
    | dbi e => exact .ok (h.enableDBI e fun hp he' => he hp (by rw [he']))
    | metaData a b => exact .ok { h with metaData := rfl }
    | parity b =>
      simp only [Interface.step, Interface.setParityCheckMode]
      rw [h.ca6]
      split
      · exact .ok { h with ca6 := rfl }
      · exact .error _
    | enable t =>
      simp only [Interface.step, Interface.enable]
      rw [h.enabled, h.wck, h.clock]
      split
      · exact .ok h
      · split
        · exact .same fun w _ => .same fun k _ => .ok { h with wck := rfl, clock := rfl, last := rfl, enabled := rfl }
        · exact .same fun w _ => .same fun k _ => .ok { h with wck := rfl, clock := rfl, last := rfl, enabled := rfl }
    | disable t =>
      simp only [Interface.step, Interface.disable]
      rw [h.enabled, h.wck, h.clock]
      split
      · exact .ok h
      · split
        · exact .same fun w _ => .same fun k _ => .ok { h with wck := rfl, clock := rfl, last := rfl, enabled := rfl }
        · exact .same fun w _ => .same fun k _ => .ok { h with wck := rfl, clock := rfl, last := rfl, enabled := rfl }

end Interface.Twin

end DRAMPower
