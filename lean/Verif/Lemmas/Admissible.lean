import Verif.Lemmas.Bus
import Verif.Lemmas.Format
import Verif.Lemmas.Interface
import Verif.Lemmas.Pattern
import Verif.Spec.Admissible

/-!
# Commands that find the busses free are accepted by the interface
-/

namespace DRAMPower
open Spec

theorem bind_of_ok {α β : Type} {x : Except Err α} {f : α → Except Err β} {a : α} (h : x = .ok a) : (x >>= f) = f a := by
  rw [h]; rfl

/-! ## Busses -/

/-- An enabled bus that is free from beat `free` on. -/
def BusReady {N : Nat} (b : Bus N) (width dr free : Nat) : Prop :=
  ∃ line idle X, BusActive b line idle X ∧ b.fresh = 0 ∧ b.width = width ∧ b.datarate = dr ∧ b.lastLoad + b.storage.count ≤ free

theorem BusReady.mono {N : Nat} {b : Bus N} {w dr f f' : Nat} (h : BusReady b w dr f) (hf : f ≤ f') : BusReady b w dr f' := by
  obtain ⟨l, i, X, h1, h2, h3, h4, h5⟩ := h
  exact ⟨l, i, X, h1, h2, h3, h4, Nat.le_trans h5 hf⟩

theorem BusReady.init {N w dr : Nat} {pat : IdlePattern} {b : Bus N} (hw : 0 < w) (hN : w ≤ N) (hd : 0 < dr)
    (hb : Bus.init N w dr pat true = .ok b) : BusReady b w dr 0 := by
  obtain ⟨h1, h2, h3, h4, h5, h6, _⟩ := bus_init_inv hw hN hd hb
  have hc : b.storage.count = 0 := by
    unfold Bus.init at hb
    split at hb
    · exact absurd hb (by simp)
    · rw [← ok_inj hb]
  rcases h1 with ⟨X, ha, _⟩ | hs
  · exact ⟨_, _, X, ha, h6, h2, h3, by omega⟩
  · rw [hs.enabled] at h5; cases h5

theorem BusReady.load {N : Nat} {b : Bus N} {w dr free t n : Nat} {data : List UInt8} (h : BusReady b w dr free)
    (ht : free ≤ t * dr) (hn : w ≤ n) (hl : n ≤ 8 * data.length) :
    ∃ b', b.load t data n = .ok b' ∧ BusReady b' w dr (t * dr + n / w) := by
  obtain ⟨l, i, X, h1, h2, h3, h4, h5⟩ := h
  subst h3; subst h4
  obtain ⟨b', hb, hc⟩ := bus_load_ok (t := t) (nBits := n) (data := data) h1 (by omega) (by
      by_cases hc : b.storage.count = 0
      · simp only [Bus.fresh, hc, if_true] at h2
        omega
      · omega) (Nat.le_trans (Nat.div_mul_le_self _ _) hl)
  obtain ⟨a1, a2, a3, a4, a5, a6⟩ := bus_load_active h1 hn hb
  exact ⟨b', hb, _, _, _, a1, a2, a3, a4, by rw [a6, hc]; exact Nat.le_refl _⟩

theorem BusReady.loadWord {N : Nat} {b : Bus N} {w dr free t x k : Nat} (h : BusReady b w dr free) (ht : free ≤ t * dr)
    (hk : 0 < k) (hl : k * w ≤ 64) : ∃ b', b.loadWord t x k = .ok b' ∧ BusReady b' w dr (t * dr + k) := by
  have hw : b.width = w ∧ 0 < w := by
    obtain ⟨_, _, _, h1, _, h3, _⟩ := h
    exact ⟨h3, h3 ▸ h1.wpos⟩
  obtain ⟨b', hb, hr⟩ := h.load (t := t) (n := k * w) (data := Bus.leBytes x ((k * w + 7) / 8)) ht
    (Nat.le_mul_of_pos_left _ hk) (by rw [leBytes_length]; omega)
  rw [Nat.mul_div_cancel _ hw.2] at hr
  refine ⟨b', ?_, hr⟩
  unfold Bus.loadWord
  simp only [hw.1]
  rw [if_neg (by omega)]
  exact hb

/-- A toggling-rate model that is free from beat `free` on. -/
structure ToggleReady (h : Toggling) (width dr free : Nat) : Prop where
  width : h.width = width
  dr : h.datarate = dr
  free : h.handled = false → h.lastLength + h.lastLoad ≤ free

theorem ToggleReady.mono {h : Toggling} {w dr f f' : Nat} (hr : ToggleReady h w dr f) (hf : f ≤ f') : ToggleReady h w dr f' :=
  ⟨hr.width, hr.dr, fun e => Nat.le_trans (hr.free e) hf⟩

theorem ToggleReady.load {h : Toggling} {w dr free t n : Nat} (hr : ToggleReady h w dr free) (hw : 0 < w) (ht : free ≤ t * dr)
    (hn : n % w = 0) : ∃ h', h.incBits t n = .ok h' ∧ ToggleReady h' w dr (t * dr + n / w) := by
  obtain ⟨h1, h2, h3⟩ := hr
  subst h1; subst h2
  unfold Toggling.incBits
  rw [if_neg (by omega), if_neg (by omega)]
  unfold Toggling.incBurst
  dsimp only
  rw [if_neg (by
    rintro ⟨a, b⟩
    have := h3 (by simpa using a)
    omega)]
  split
  · exact ⟨_, rfl, rfl, rfl, fun _ => by simp only; omega⟩
  · exact ⟨_, rfl, rfl, rfl, fun e => absurd e (by simp)⟩

/-- The data bus is free from beat `dq` on, in both directions. -/
def DataReady {N : Nat} (d : DataBus N) (sp : IfSpec) (dq : Nat) : Prop :=
  d.mode = sp.mode ∧ d.busRead.width = sp.bitWidth * sp.devices ∧
  match sp.mode with
  | .bus => BusReady d.busRead (sp.bitWidth * sp.devices) sp.dataRate dq ∧ BusReady d.busWrite (sp.bitWidth * sp.devices) sp.dataRate dq
  | .toggling => ToggleReady d.togglingRead (sp.bitWidth * sp.devices) sp.dataRate dq ∧
      ToggleReady d.togglingWrite (sp.bitWidth * sp.devices) sp.dataRate dq

theorem DataReady.mono {N : Nat} {d : DataBus N} {sp : IfSpec} {f f' : Nat} (h : DataReady d sp f) (hf : f ≤ f') : DataReady d sp f' := by
  obtain ⟨h1, h2, h3⟩ := h
  refine ⟨h1, h2, ?_⟩
  revert h3
  cases sp.mode
  · rintro ⟨a, b⟩; exact ⟨a.mono hf, b.mono hf⟩
  · rintro ⟨a, b⟩; exact ⟨a.mono hf, b.mono hf⟩

theorem DataReady.load {N : Nat} {d : DataBus N} {sp : IfSpec} {dq t n : Nat} {data : Option (List UInt8)} {read : Bool}
    (h : DataReady d sp dq) (hw : 0 < sp.bitWidth * sp.devices) (ht : dq ≤ t * sp.dataRate) (hn : sp.bitWidth * sp.devices ≤ n)
    (hl : ∀ x, data = some x → n ≤ 8 * x.length) (hm : n % (sp.bitWidth * sp.devices) = 0) :
    ∃ d', Interface.loadFunc d read t n data = .ok d' ∧ DataReady d' sp (t * sp.dataRate + n / (sp.bitWidth * sp.devices)) := by
  obtain ⟨h1, h2, h3⟩ := h
  have hle : dq ≤ t * sp.dataRate + n / (sp.bitWidth * sp.devices) := Nat.le_trans ht (Nat.le_add_right _ _)
  have keep : DataReady d sp (t * sp.dataRate + n / (sp.bitWidth * sp.devices)) := DataReady.mono ⟨h1, h2, h3⟩ hle
  unfold Interface.loadFunc DataBus.loadRead DataBus.loadWrite DataReady
  rw [h1]
  cases hmo : sp.mode with
  | bus =>
    rw [hmo] at h3
    dsimp only at h3 ⊢
    cases data with
    | none =>
      refine ⟨d, by cases read <;> rfl, ?_⟩
      unfold DataReady at keep
      rw [hmo] at keep
      exact keep
    | some x =>
      have hn0 : n ≠ 0 := by omega
      dsimp only
      rw [if_neg hn0, if_neg hn0]
      cases read with
      | true =>
        obtain ⟨b, hb, hr⟩ := h3.1.load ht hn (hl x rfl)
        rw [if_pos rfl, bind_of_ok hb]
        have : b.width = sp.bitWidth * sp.devices := by obtain ⟨_, _, _, _, _, e, _⟩ := hr; exact e
        exact ⟨_, rfl, rfl, this, hr, h3.2.mono hle⟩
      | false =>
        obtain ⟨b, hb, hr⟩ := h3.2.load ht hn (hl x rfl)
        rw [if_neg (by simp), bind_of_ok hb]
        exact ⟨_, rfl, rfl, h2, h3.1.mono hle, hr⟩
  | toggling =>
    rw [hmo] at h3
    dsimp only at h3 ⊢
    cases read with
    | true =>
      obtain ⟨b, hb, hr⟩ := h3.1.load hw ht hm
      rw [if_pos rfl, bind_of_ok hb]
      exact ⟨_, rfl, rfl, h2, hr, h3.2.mono hle⟩
    | false =>
      obtain ⟨b, hb, hr⟩ := h3.2.load hw ht hm
      rw [if_neg (by simp), bind_of_ok hb]
      exact ⟨_, rfl, rfl, h2, h3.1.mono hle, hr⟩

/-! ## The interface -/

/-- Commands the pattern table of a standard knows. -/
def encodable (a : BankArch) (std : Std) (ty : CmdType) : Bool :=
  if std = .lpddr6 then !(lpddr6Patterns ty).isEmpty else !(patterns a std ty).isEmpty

theorem table_size (a : BankArch) (std : Std) (ty : CmdType) (h : encodable a std ty = true) (hc : caBeats std ty ≠ 0) :
    ty ≠ .COUNT ∧
    ((std ≠ .lpddr6 ∧ patterns a std ty ≠ [] ∧ (patterns a std ty).length = caBeats std ty * caWidth std) ∨
      (std = .lpddr6 ∧ lpddr6Patterns ty ≠ [] ∧ (lpddr6Patterns ty).length = caBeats std ty * caWidth std)) ∧
    caBeats std ty * caWidth std ≤ 64 := by
  cases std <;> cases a <;> cases ty <;> revert h hc <;> decide

variable {std : Std} {N : Nat} {sp : IfSpec}

/-- An interface that accepts a command that finds the busses free from `ca` and `dq` on. -/
structure Ready (sp : IfSpec) (i : Interface std N) (ca dq : Nat) : Prop where
  cmdBus : BusReady i.cmdBus (caWidth std) (caRate std) ca
  data : DataReady i.dataBus sp dq
  rd : i.readDQS.lastStart = none
  wr : i.writeDQS.lastStart = none
  wck : (std = .lpddr5 ∨ std = .lpddr6) → sp.wckAlwaysOn = false → i.wck.lastStart = none
  ranks : std = .ddr4 → i.ranks.length = sp.ranks
  ends : ∀ r ∈ i.ranks, r.lastReadEnd * sp.dataRate ≤ dq ∧ r.lastWriteEnd * sp.dataRate ≤ dq
  groups : i.ca6.extra.numberOfBankGroups = sp.bankGroups
  parity : i.ca6.extra.parityCheckMode = false

/-- The inversion and its pins are the same. -/
def SameInversion (i i' : Interface std N) : Prop := i'.dbi = i.dbi ∧ i'.pinsRead = i.pinsRead ∧ i'.pinsWrite = i.pinsWrite

theorem SameInversion.trans {i i' i'' : Interface std N} (h : SameInversion i i') (h' : SameInversion i' i'') : SameInversion i i'' :=
  ⟨h'.1.trans h.1, h'.2.1.trans h.2.1, h'.2.2.trans h.2.2⟩

/-- The inversion was never used. -/
def Quiet (i : Interface std N) : Prop := i.dbi.enable = false ∧ i.dbi.lastRead.init = false ∧ i.dbi.lastWrite.init = false

theorem encode6_ok {co : Coord6} {p : List Desc6} {x : Extra6} (hg : 0 < x.numberOfBankGroups) (hd : co.dbank % x.numberOfBankGroups = 0)
    (hp : p ≠ []) (hl : p.length ≤ 64) (hb : Desc6.C 0 ∈ p → x.currentBurstLength = 24 ∨ x.currentBurstLength = 48)
    (hpar : x.parityCheckMode = false) : ∃ w, encode6 co p x = .ok w := by
  have hpos := List.length_pos_iff.2 hp
  unfold encode6
  rw [if_neg (by omega), if_neg (by omega)]
  simp only [usub_one hpos]
  rw [if_neg (by omega), if_neg (by rintro ⟨a, b⟩; rcases hb a with e | e <;> exact b (by omega)), hpar]
  exact ⟨_, rfl⟩

theorem Ready.commandBus {i : Interface std N} {ca dq : Nat} (h : Ready sp i ca dq) (c : ICmd)
    (he : encodable sp.arch std c.type = true) (hc : caBeats std c.type ≠ 0) (ht : ca ≤ c.t * caRate std)
    (hg : std = .lpddr6 → 0 < sp.bankGroups ∧ c.dbank % sp.bankGroups = 0)
    (hb : std = .lpddr6 → direction c.type ≠ none → i.ca6.extra.currentBurstLength = 24 ∨ i.ca6.extra.currentBurstLength = 48) :
    ∃ i', i.handleCommandBus sp c = .ok i' ∧ Ready sp i' (c.t * caRate std + caBeats std c.type) dq ∧ i'.ranks = i.ranks ∧ SameInversion i i' := by
  obtain ⟨h1, h2, h3⟩ := table_size sp.arch std c.type he hc
  have hw : i.cmdBus.width = caWidth std := by obtain ⟨_, _, _, _, _, e, _⟩ := h.cmdBus; exact e
  have hpos : 0 < caWidth std := by cases std <;> decide
  have enc : ∃ a a6 w, i.encodeCommand sp c = .ok ({ i with ca := a, ca6 := a6 }, w, caBeats std c.type * caWidth std) ∧
      a6.extra = i.ca6.extra := by
    rcases h2 with ⟨g1, g2, g3⟩ | ⟨g1, g2, g3⟩
    · obtain ⟨w, hw⟩ : ∃ w, encode c.co (patterns sp.arch std c.type) i.ca.settings i.ca.lastPattern = .ok w :=
        ⟨_, encode_ok _ _ _ _ g2 (by omega)⟩
      refine ⟨{ i.ca with lastPattern := w }, i.ca6, w, ?_, rfl⟩
      unfold Interface.encodeCommand
      rw [if_neg g1]
      unfold CaHandler.command
      rw [if_neg h1, if_neg g2, hw, g3]
      rfl
    · have hbur : Desc6.C 0 ∈ lpddr6Patterns c.type → i.ca6.extra.currentBurstLength = 24 ∨ i.ca6.extra.currentBurstLength = 48 := by
        intro hm
        apply hb g1
        revert hm
        cases c.type <;> decide
      obtain ⟨w, hw⟩ := encode6_ok (co := c.co6) (p := lpddr6Patterns c.type) (x := i.ca6.extra)
        (by rw [h.groups]; exact (hg g1).1) (by rw [h.groups]; exact (hg g1).2) g2 (by omega) hbur h.parity
      refine ⟨i.ca, { i.ca6 with lastPattern := w }, w, ?_, rfl⟩
      unfold Interface.encodeCommand
      rw [if_pos g1]
      unfold CaHandler6.command
      rw [if_neg h1, if_neg g2, hw, g3]
      rfl
  obtain ⟨a, a6, w, e1, e2⟩ := enc
  obtain ⟨b, e3, e4⟩ := h.cmdBus.loadWord (t := c.t) (x := w.toNat) (k := caBeats std c.type) ht (by omega) h3
  refine ⟨{ i with ca := a, ca6 := a6, cmdBus := b }, ?_, ?_, rfl, rfl, rfl, rfl⟩
  · unfold Interface.handleCommandBus
    rw [bind_of_ok e1]
    dsimp only
    rw [hw, Nat.mul_div_cancel _ hpos, bind_of_ok e3]
    rfl
  · exact ⟨e4, h.data, h.rd, h.wr, h.wck, h.ranks, h.ends, by rw [e2]; exact h.groups, by rw [e2]; exact h.parity⟩

theorem strobe_ok {k : Clock} {t s : Nat} (h : k.lastStart = none) (hs : t < s) :
    ∃ k', k.strobe t s = .ok k' ∧ k'.lastStart = none := by
  unfold Clock.strobe Clock.start
  rw [h]
  refine ⟨{ k with lastStart := none, stats := k.stats + k.count (s - t) }, ?_, rfl⟩
  show Clock.stop { k with lastStart := some t } s = _
  unfold Clock.stop
  dsimp only
  rw [if_pos hs]
  rfl

theorem invert_off {i : Interface std N} (c : ICmd) (read : Bool) (h : i.dbi.enable = false) :
    i.invertData sp c read = .ok (i, c.data) := by
  unfold Interface.invertData
  rw [if_pos (.inr (.inr (.inl h)))]

/-- The formatted burst. -/
theorem format_ok {f : Formatter} {data : Option (List UInt8)} {n : Nat} {inv : Option (List Bool)} {shift : Option (Nat → Bool)}
    (hn : n = 256 ∨ n = 512) (hl : ∀ x, data = some x → n ≤ 8 * x.length) (hs : n = 512 → data.isSome → shift.isSome) :
    ∃ f' out, f.formatData shift data n inv = .ok (f', out, n + n / 256 * 32) ∧ ∀ x, out = some x → n + n / 256 * 32 ≤ 8 * x.length := by
  unfold Formatter.formatData
  rw [if_neg (by omega)]
  dsimp only
  have hnb : n + (if 2 * (288 - 32) = n then 2 else 1) * 32 = n + n / 256 * 32 ∧
      (if 2 * (288 - 32) = n then 2 else 1) * 288 = n + n / 256 * 32 := by
    rcases hn with e | e <;> subst e <;> decide
  cases data with
  | none => exact ⟨f, none, by dsimp only; rw [hnb.1], fun x e => by cases e⟩
  | some x =>
    dsimp only
    have hx := hl x rfl
    obtain ⟨r, hr, hwr⟩ := formatAll_ok shift x f inv (if 2 * (288 - 32) = n then 2 else 1) (by split <;> omega)
      (by rcases hn with e | e <;> subst e <;> simp <;> omega)
      (by rcases hn with e | e
          · left; subst e; decide
          · right; exact hs e rfl) (f.result.drop ((if 2 * (288 - 32) = n then 2 else 1) * 36))
    rw [hr]
    refine ⟨_, some r, by dsimp only; rw [hnb.2], fun y e => ?_⟩
    injection e with e
    subst e
    rw [hwr.length, ← hnb.2]
    omega

/-- The end of `Interface.transfer`. -/
def Interface.carry (sp : IfSpec) (i : Interface std N) (c : ICmd) (read : Bool) (data : Option (List UInt8)) : Except Err (Interface std N × Nat) :=
  if std = .lpddr6 then do
    let (f, bytes, n) ← i.formatter.formatData sp.shift data c.nBits (i.inversionState read)
    let i ← Interface.loadData { i with formatter := f } read c.t n bytes
    pure (i, n / i.width)
  else do
    let i ← i.loadData read c.t c.nBits data
    pure (i, c.nBits / i.width)

theorem Ready.carry {i : Interface std N} {ca dq : Nat} (h : Ready sp i ca dq) (c : ICmd) (read : Bool) {data : Option (List UInt8)}
    (hb' : ∀ x, data = some x → c.nBits ≤ 8 * x.length) (hs' : data.isSome → c.data.isSome) (h0 : c.nBits ≠ 0)
    (hw : 0 < sp.bitWidth * sp.devices) (hd : 0 < sp.dataRate) (ht : dq ≤ c.t * sp.dataRate) (hp : Carries std sp c) :
    ∃ i', i.carry sp c read data = .ok (i', dataBeats std sp c) ∧ Ready sp i' ca (c.t * sp.dataRate + dataBeats std sp c) ∧
      i'.ranks = i.ranks ∧ i'.ca6 = i.ca6 ∧ SameInversion i i' := by
  have width : ∀ {j : Interface std N}, DataReady j.dataBus sp (c.t * sp.dataRate + dataBeats std sp c) →
      j.width = sp.bitWidth * sp.devices := fun h => h.2.1
  have keep : ∀ {d : DataBus N} {f : Formatter}, DataReady d sp (c.t * sp.dataRate + dataBeats std sp c) →
      Ready sp { i with dataBus := d, formatter := f } ca (c.t * sp.dataRate + dataBeats std sp c) := by
    intro d f hdr
    exact ⟨h.cmdBus, hdr, h.rd, h.wr, h.wck, h.ranks, fun r hr => by have := h.ends r hr; omega, h.groups, h.parity⟩
  have keep' : ∀ {d : DataBus N}, DataReady d sp (c.t * sp.dataRate + dataBeats std sp c) →
      Ready sp { i with dataBus := d } ca (c.t * sp.dataRate + dataBeats std sp c) := by
    intro d hdr
    exact ⟨h.cmdBus, hdr, h.rd, h.wr, h.wck, h.ranks, fun r hr => by have := h.ends r hr; omega, h.groups, h.parity⟩
  by_cases h6 : std = .lpddr6
  · obtain ⟨hn, hbeats⟩ := hp.lpddr6 h6
    have hn' : c.nBits = 256 ∨ c.nBits = 512 := by omega
    obtain ⟨f, out, e1, e2⟩ := format_ok (f := i.formatter) (inv := i.inversionState read) hn' hb' (fun e1 e2 => hp.shift h6 e1 (hs' e2))
    have hb : dataBeats std sp c = (c.nBits + c.nBits / 256 * 32) / (sp.bitWidth * sp.devices) := by
      unfold dataBeats
      rw [if_pos ⟨h6, h0⟩]
    have hmod : (c.nBits + c.nBits / 256 * 32) % (sp.bitWidth * sp.devices) = 0 := by
      have e := Nat.div_add_mod (c.nBits + c.nBits / 256 * 32) (sp.bitWidth * sp.devices)
      have hlt := Nat.mod_lt (c.nBits + c.nBits / 256 * 32) hw
      rw [hb] at hbeats
      revert e hlt
      generalize sp.bitWidth * sp.devices = w at *
      rcases hn' with e' | e' <;> rw [e'] at hbeats ⊢ <;> rcases hbeats with hb' | hb' <;> rw [hb'] <;> intro e hlt <;> omega
    obtain ⟨d, e3, e4⟩ := h.data.load (t := c.t) (n := c.nBits + c.nBits / 256 * 32) (data := out) (read := read) hw ht
      (by
        have e := Nat.div_add_mod (c.nBits + c.nBits / 256 * 32) (sp.bitWidth * sp.devices)
        rw [hmod] at e
        rw [hb] at hbeats
        rcases hbeats with hb' | hb' <;> rw [hb'] at e <;> omega) e2 hmod
    rw [← hb] at e4
    refine ⟨{ i with dataBus := d, formatter := f }, ?_, keep e4, rfl, rfl, rfl, rfl, rfl⟩
    unfold Interface.carry
    rw [if_pos h6, bind_of_ok e1]
    dsimp only
    unfold Interface.loadData
    dsimp only
    rw [e3]
    show Except.ok (_, (c.nBits + c.nBits / 256 * 32) / _) = _
    rw [width (j := { i with dataBus := d, formatter := f }) e4, ← hb]
  · have hb : dataBeats std sp c = c.nBits / (sp.bitWidth * sp.devices) := by
      unfold dataBeats burstBeats
      rw [if_neg (by simp [h6]), if_neg h0]
    have hwle : sp.bitWidth * sp.devices ≤ c.nBits := by
      have := hp.long
      rw [hb] at this
      exact Nat.le_of_not_lt fun hlt => by rw [Nat.div_eq_of_lt hlt] at this; omega
    obtain ⟨d, e3, e4⟩ := h.data.load (t := c.t) (n := c.nBits) (data := data) (read := read) hw ht hwle hb' (hp.whole h6)
    rw [← hb] at e4
    refine ⟨{ i with dataBus := d }, ?_, keep' e4, rfl, rfl, rfl, rfl, rfl⟩
    unfold Interface.carry
    rw [if_neg h6]
    unfold Interface.loadData
    rw [e3]
    show Except.ok (_, c.nBits / _) = _
    rw [width (j := { i with dataBus := d }) e4, ← hb]

/-- What the inversion makes of a data command: new flags, new pins, and as many bytes as before. -/
def Inverts (sp : IfSpec) (i : Interface std N) (c : ICmd) (read : Bool) (d : Dbi 8) (pr pw : List (Pin (pinSize std))) : Prop :=
  if c.nBits = 0 then d = i.dbi ∧ pr = i.pinsRead ∧ pw = i.pinsWrite
  else ∃ data, i.invertData sp c read = .ok ({ i with dbi := d, pinsRead := pr, pinsWrite := pw }, data) ∧
    (∀ x, data = some x → c.nBits ≤ 8 * x.length) ∧ (data.isSome → c.data.isSome)

theorem Ready.inversion {i : Interface std N} {ca dq : Nat} (h : Ready sp i ca dq) (d : Dbi 8) (pr pw : List (Pin (pinSize std))) :
    Ready sp { i with dbi := d, pinsRead := pr, pinsWrite := pw } ca dq :=
  ⟨h.cmdBus, h.data, h.rd, h.wr, h.wck, h.ranks, h.ends, h.groups, h.parity⟩

theorem Ready.transfer {i : Interface std N} {ca dq : Nat} (h : Ready sp i ca dq) (c : ICmd) (read : Bool)
    {d : Dbi 8} {pr pw : List (Pin (pinSize std))} (hv : Inverts sp i c read d pr pw)
    (hw : 0 < sp.bitWidth * sp.devices) (hd : 0 < sp.dataRate) (ht : dq ≤ c.t * sp.dataRate) (hp : Carries std sp c) :
    ∃ i', i.transfer sp c read = .ok (i', dataBeats std sp c) ∧ Ready sp i' ca (c.t * sp.dataRate + dataBeats std sp c) ∧
      i'.ranks = i.ranks ∧ i'.ca6 = i.ca6 ∧ i'.dbi = d ∧ i'.pinsRead = pr ∧ i'.pinsWrite = pw := by
  unfold Inverts at hv
  have keep' : ∀ {d : DataBus N}, DataReady d sp (c.t * sp.dataRate + dataBeats std sp c) →
      Ready sp { i with dataBus := d } ca (c.t * sp.dataRate + dataBeats std sp c) := by
    intro d hdr
    exact ⟨h.cmdBus, hdr, h.rd, h.wr, h.wck, h.ranks, fun r hr => by have := h.ends r hr; omega, h.groups, h.parity⟩
  have hiw : i.width = sp.bitWidth * sp.devices := h.data.2.1
  unfold Interface.transfer
  by_cases h0 : c.nBits = 0
  · rw [if_pos h0] at hv
    rw [if_pos h0]
    have hb : dataBeats std sp c = if sp.toggling.isSome then sp.burstLength else 0 := by
      simp [dataBeats, burstBeats, h0]
    have hlong := hp.long
    cases htg : sp.toggling.isSome with
    | false =>
      rw [hb, htg] at hlong
      simp at hlong
      omega
    | true =>
      rw [htg, if_pos rfl] at hb
      have hmode : i.dataBus.mode = .toggling := by rw [h.data.1]; unfold IfSpec.mode; rw [htg]; rfl
      rw [hmode]
      dsimp only
      have hbl : 0 < sp.burstLength := by rw [hb] at hlong; omega
      obtain ⟨d, e1, e2⟩ := h.data.load (t := c.t) (n := sp.burstLength * (sp.bitWidth * sp.devices)) (data := none) (read := read)
        hw ht (Nat.le_mul_of_pos_left _ hbl) (fun x e => by cases e) (Nat.mul_mod_left _ _)
      rw [Nat.mul_div_cancel _ hw, ← hb] at e2
      unfold Interface.loadData
      rw [hiw, e1]
      refine ⟨{ i with dataBus := d }, ?_, keep' e2, rfl, rfl, hv.1.symm, hv.2.1.symm, hv.2.2.symm⟩
      rw [hb]
      rfl
  · rw [if_neg h0] at hv
    obtain ⟨data, e, hb, hs⟩ := hv
    rw [if_neg h0, e]
    obtain ⟨i', f1, f2, f3, f4, f5⟩ := (h.inversion d pr pw).carry c read hb hs h0 hw hd ht hp
    exact ⟨i', f1, f2, f3, f4, f5⟩

theorem Ready.dqs {i : Interface std N} {ca dq t s : Nat} (h : Ready sp i ca dq) (hs : t < s) (read : Bool) :
    ∃ i', i.dqs t s read = .ok i' ∧ Ready sp i' ca dq ∧ i'.ranks = i.ranks ∧ i'.ca6 = i.ca6 ∧ SameInversion i i' := by
  unfold Interface.dqs
  split
  · obtain ⟨k, e, hk⟩ := strobe_ok h.rd hs
    rw [bind_of_ok e]
    exact ⟨_, rfl, ⟨h.cmdBus, h.data, hk, h.wr, h.wck, h.ranks, h.ends, h.groups, h.parity⟩, rfl, rfl, rfl, rfl, rfl⟩
  · split
    · exact ⟨i, rfl, h, rfl, rfl, rfl, rfl, rfl⟩
    · obtain ⟨k, e, hk⟩ := strobe_ok h.wr hs
      rw [bind_of_ok e]
      exact ⟨_, rfl, ⟨h.cmdBus, h.data, h.rd, hk, h.wck, h.ranks, h.ends, h.groups, h.parity⟩, rfl, rfl, rfl, rfl, rfl⟩

theorem Ready.runWck {i : Interface std N} {ca dq t s : Nat} (h : Ready sp i ca dq) (hs : t < s) :
    ∃ i', i.runWck sp t s = .ok i' ∧ Ready sp i' ca dq ∧ i'.ranks = i.ranks ∧ i'.ca6 = i.ca6 ∧ SameInversion i i' := by
  unfold Interface.runWck
  split
  · rename_i hc
    obtain ⟨k, e, hk⟩ := strobe_ok (h.wck hc.1 hc.2) hs
    rw [bind_of_ok e]
    exact ⟨_, rfl, ⟨h.cmdBus, h.data, h.rd, h.wr, fun _ _ => hk, h.ranks, h.ends, h.groups, h.parity⟩, rfl, rfl, rfl, rfl, rfl⟩
  · exact ⟨i, rfl, h, rfl, rfl, rfl, rfl, rfl⟩

theorem Ready.overrides {i : Interface std N} {ca dq len : Nat} {read : Bool} (h : Ready sp i ca dq) :
    Ready sp (i.overrides len read) ca dq ∧ (i.overrides len read).ranks = i.ranks ∧
      (std = .lpddr6 → (i.overrides len read).ca6.extra.currentBurstLength = len) ∧ SameInversion i (i.overrides len read) := by
  unfold Interface.overrides
  split
  · exact ⟨⟨h.cmdBus, h.data, h.rd, h.wr, h.wck, h.ranks, h.ends, h.groups, h.parity⟩, rfl, fun _ => rfl, rfl, rfl, rfl⟩
  · exact ⟨⟨h.cmdBus, h.data, h.rd, h.wr, h.wck, h.ranks, h.ends, h.groups, h.parity⟩, rfl, fun e => absurd e (by assumption), rfl, rfl, rfl⟩

theorem access_accepts {r : RankIf} {t n dr dq b : Nat} {read : Bool} (hd : 0 < dr)
    (hr : r.lastReadEnd * dr ≤ dq ∧ r.lastWriteEnd * dr ≤ dq) (ht : dq ≤ t * dr) (hb : n = b / dr) :
    ∃ r', r.access t n read = .ok r' ∧ r'.lastReadEnd * dr ≤ t * dr + b ∧ r'.lastWriteEnd * dr ≤ t * dr + b := by
  have h1 : r.lastReadEnd ≤ t := Nat.le_of_mul_le_mul_right (Nat.le_trans hr.1 ht) hd
  have h2 : r.lastWriteEnd ≤ t := Nat.le_of_mul_le_mul_right (Nat.le_trans hr.2 ht) hd
  have h3 : n * dr ≤ b := hb ▸ Nat.div_mul_le_self b dr
  have h4 : (t + n) * dr ≤ t * dr + b := by rw [Nat.add_mul]; omega
  unfold RankIf.access
  dsimp only
  cases read
  · simp only [Bool.false_eq_true, if_false]
    rw [if_neg (by omega)]
    split
    · exact ⟨_, rfl, by simp only; omega, h4⟩
    · exact ⟨_, rfl, by simp only; omega, h4⟩
  · simp only [if_true]
    rw [if_neg (by omega)]
    split
    · exact ⟨_, rfl, h4, by simp only; omega⟩
    · exact ⟨_, rfl, h4, by simp only; omega⟩

theorem Ready.handleData {i : Interface std N} {ca dq : Nat} (h : Ready sp i ca dq) (c : ICmd) (read : Bool)
    (he : encodable sp.arch std c.type = true) (hc : caBeats std c.type ≠ 0)
    (hw : 0 < sp.bitWidth * sp.devices) (hd : 0 < sp.dataRate) (hca : ca ≤ c.t * caRate std) (hdq : dq ≤ c.t * sp.dataRate)
    (hp : Carries std sp c) (hg : std = .lpddr6 → 0 < sp.bankGroups ∧ c.dbank % sp.bankGroups = 0)
    (hrk : std = .ddr4 → c.co.rank < sp.ranks) {d : Dbi 8} {pr pw : List (Pin (pinSize std))} (hv : Inverts sp i c read d pr pw) :
    ∃ i', i.handleData sp c read = .ok i' ∧
      Ready sp i' (c.t * caRate std + caBeats std c.type) (c.t * sp.dataRate + dataBeats std sp c) ∧
      i'.dbi = d ∧ i'.pinsRead = pr ∧ i'.pinsWrite = pw := by
  obtain ⟨i1, e1, r1, k1, a1, s1⟩ := h.transfer c read hv hw hd hdq hp
  have hs : c.t < c.t + dataBeats std sp c / sp.dataRate := by
    have : 1 ≤ dataBeats std sp c / sp.dataRate := (Nat.le_div_iff_mul_le hd).2 (by have := hp.long; omega)
    omega
  obtain ⟨i2, e2, r2, k2, a2, s2⟩ := r1.dqs hs read
  obtain ⟨i3, e3, r3, k3, a3, s3⟩ := r2.runWck hs
  obtain ⟨r4, k4, b4, s4⟩ := r3.overrides (len := dataBeats std sp c) (read := read)
  obtain ⟨i5, e5, r5, k5, s5⟩ := r4.commandBus c he hc hca hg (fun h6 _ => by rw [b4 h6]; exact (hp.lpddr6 h6).2)
  have hranks : i5.ranks = i.ranks := by rw [k5, k4, k3, k2, k1]
  have same : SameInversion i1 i5 := ((s2.trans s3).trans s4).trans s5
  have fin : ∃ i', i5.prePostamble sp c (dataBeats std sp c) read = .ok i' ∧
      Ready sp i' (c.t * caRate std + caBeats std c.type) (c.t * sp.dataRate + dataBeats std sp c) ∧ SameInversion i5 i' := by
    unfold Interface.prePostamble
    split
    · rename_i h4
      have hlt : c.co.rank < i5.ranks.length := by rw [r5.ranks h4]; exact hrk h4
      rw [List.getElem?_eq_getElem hlt]
      dsimp only
      have hmem : i5.ranks[c.co.rank] ∈ i.ranks := by rw [← hranks]; exact List.getElem_mem hlt
      obtain ⟨r', f1, f2, f3⟩ := access_accepts (read := read) hd (h.ends _ hmem) hdq (rfl : dataBeats std sp c / sp.dataRate = _)
      rw [bind_of_ok f1]
      refine ⟨_, rfl, ⟨r5.cmdBus, r5.data, r5.rd, r5.wr, r5.wck, fun e => ?_, fun r hr => ?_, r5.groups, r5.parity⟩, rfl, rfl, rfl⟩
      · show (i5.ranks.set _ _).length = _
        rw [List.length_set]; exact r5.ranks e
      · rcases List.mem_or_eq_of_mem_set hr with hr | hr
        · exact r5.ends r hr
        · rw [hr]; exact ⟨f2, f3⟩
    · exact ⟨i5, rfl, r5, rfl, rfl, rfl⟩
  obtain ⟨i', e6, r6, s6⟩ := fin
  have s := same.trans s6
  refine ⟨i', ?_, r6, s.1.trans s1.1, s.2.1.trans s1.2.1, s.2.2.trans s1.2.2⟩
  unfold Interface.handleData
  rw [bind_of_ok e1]
  dsimp only
  rw [bind_of_ok e2, bind_of_ok e3, bind_of_ok e5]
  exact e6

theorem short_off {w : Nat} {p : DbiParams w} {l : LastBurst w} (h : l.init = false) : p.short l = false := by
  unfold DbiParams.short
  split
  · rfl
  · simp [h]

theorem untouched_finish {i : Interface std N} (h : i.dbi.lastRead.init = false ∧ i.dbi.lastWrite.init = false) (t : Nat) : i.endOfSimulation sp t = .ok i := by
  have hr : ∀ read, i.dbi.reset (sp.dbi std) t read = .ok (i.dbi, []) := by
    intro read
    have hl : (i.dbi.last read).init = false := by
      cases read
      · exact h.2
      · exact h.1
    unfold Dbi.reset
    dsimp only
    rw [short_off hl, if_neg (by simp), if_pos hl]
  unfold Interface.endOfSimulation Dbi.resetBoth
  rw [hr true]
  show ((i.dbi.reset (sp.dbi std) t false >>= _) >>= _) = _
  rw [hr false]
  rfl

theorem Quiet.finish {i : Interface std N} (h : Quiet i) (t : Nat) : i.endOfSimulation sp t = .ok i := untouched_finish h.2 t

/-- Commands the interface of the standard executes. -/
def Handled (a : BankArch) (std : Std) (ty : CmdType) : Prop :=
  ifAction a std ty ≠ .invalid ∧ ifAction a std ty ≠ .unsupported ∧ ¬ (std = .ddr5 ∧ ty = .SREFEX)

theorem handled_cases (a : BankArch) (std : Std) (ty : CmdType) (h : Handled a std ty) :
    (ifAction a std ty = .bus ∧ encodable a std ty = true ∧ caBeats std ty ≠ 0 ∧ direction ty = none) ∨
    (∃ read, ifAction a std ty = .data read ∧ direction ty = some read ∧ encodable a std ty = true ∧ caBeats std ty ≠ 0) ∨
    ((ifAction a std ty = .finish ∨ ifAction a std ty = .skip) ∧ direction ty = none ∧ caBeats std ty = 0) := by
  unfold Handled at h
  cases std <;> cases a <;> cases ty <;> revert h <;> decide

theorem data_direction (a : BankArch) (std : Std) (ty : CmdType) (read : Bool) (h : ifAction a std ty = .data read) : direction ty = some read := by
  revert h
  cases std <;> cases a <;> cases ty <;> cases read <;> decide

/-- What a command does to the inversion and its pins. -/
def Turn (sp : IfSpec) (i : Interface std N) (c : ICmd) (d : Dbi 8) (pr pw : List (Pin (pinSize std))) : Prop :=
  match ifAction sp.arch std c.type with
  | .data read => Inverts sp i c read d pr pw
  | .finish => i.endOfSimulation sp c.t = .ok { i with dbi := d, pinsRead := pr, pinsWrite := pw }
  | _ => d = i.dbi ∧ pr = i.pinsRead ∧ pw = i.pinsWrite

theorem Quiet.turn {i : Interface std N} (h : Quiet i) {c : ICmd} {b : Prop} (hp : direction c.type ≠ none → b ∧ Carries std sp c) :
    Turn sp i c i.dbi i.pinsRead i.pinsWrite := by
  unfold Turn
  split
  · rename_i read e
    unfold Inverts
    split
    · exact ⟨rfl, rfl, rfl⟩
    · have hdir : direction c.type ≠ none := by rw [data_direction _ _ _ _ e]; simp
      exact ⟨c.data, invert_off c read h.1, (hp hdir).2.bytes, id⟩
  · exact h.finish c.t
  · exact ⟨rfl, rfl, rfl⟩

theorem Ready.doCommand {i : Interface std N} {ca dq : Nat} (h : Ready sp i ca dq) (hw : 0 < sp.bitWidth * sp.devices) (hd : 0 < sp.dataRate)
    {c : ICmd} {cs : List ICmd} (hty : Handled sp.arch std c.type) (hrk : std = .ddr4 → direction c.type ≠ none → c.co.rank < sp.ranks)
    (ha : Admissible std sp ca dq (c :: cs)) {d : Dbi 8} {pr pw : List (Pin (pinSize std))} (hv : Turn sp i c d pr pw) :
    ∃ i', i.doCommand sp c = .ok i' ∧
      Ready sp i' (if caBeats std c.type = 0 then ca else c.t * caRate std + caBeats std c.type)
        (if direction c.type = none then dq else c.t * sp.dataRate + dataBeats std sp c) ∧
      i'.dbi = d ∧ i'.pinsRead = pr ∧ i'.pinsWrite = pw := by
  obtain ⟨a1, a2, a3, _⟩ := ha
  have last : ∀ {j : Interface std N} {x y : Nat}, Ready sp j x y → Ready sp { j with last := c.t } x y := fun h =>
    ⟨h.cmdBus, h.data, h.rd, h.wr, h.wck, h.ranks, h.ends, h.groups, h.parity⟩
  unfold Interface.doCommand
  unfold Turn at hv
  rcases handled_cases _ _ _ hty with ⟨e, he, hc, hn⟩ | ⟨read, e, hdir, he, hc⟩ | ⟨e, hn, hc⟩
  · rw [e] at hv ⊢
    obtain ⟨i', f1, f2, _, f3⟩ := h.commandBus c he hc (a1 hc) (fun h6 => a3 h6 hc) (fun _ hne => absurd hn hne)
    rw [if_neg hc, if_pos hn]
    refine ⟨_, ?_, last f2, f3.1.trans hv.1.symm, f3.2.1.trans hv.2.1.symm, f3.2.2.trans hv.2.2.symm⟩
    show (i.handleCommandBus sp c >>= _) = _
    rw [f1]; rfl
  · rw [e] at hv ⊢
    have hne : direction c.type ≠ none := by rw [hdir]; simp
    obtain ⟨i', f1, f2, f3⟩ := h.handleData c read he hc hw hd (a1 hc) (a2 hne).1 (a2 hne).2 (fun h6 => a3 h6 hc) (fun h4 => hrk h4 hne) hv
    rw [if_neg hc, if_neg hne]
    refine ⟨_, ?_, last f2, f3⟩
    show (i.handleData sp c read >>= _) = _
    rw [f1]; rfl
  · rw [if_pos hc, if_pos hn]
    rcases e with e | e <;> rw [e] at hv ⊢
    · refine ⟨{ i with last := c.t, dbi := d, pinsRead := pr, pinsWrite := pw }, ?_, last (h.inversion d pr pw), rfl, rfl, rfl⟩
      show (i.endOfSimulation sp c.t >>= _) = _
      rw [hv]; rfl
    · exact ⟨{ i with last := c.t }, rfl, last h, hv.1.symm, hv.2.1.symm, hv.2.2.symm⟩

theorem Ready.init {i : Interface std N} (hN : sp.bitWidth * sp.devices ≤ N) (hi : Interface.init std N sp = .ok i) :
    Ready sp i 0 0 ∧ 0 < sp.bitWidth * sp.devices ∧ 0 < sp.dataRate ∧ Quiet i := by
  unfold Interface.init at hi
  obtain ⟨cb, h1, hi⟩ := bind_ok hi
  obtain ⟨db, h2, hi⟩ := bind_ok hi
  obtain ⟨di, h3, hi⟩ := bind_ok hi
  split at hi
  · exact absurd hi (by simp)
  · have e := pure_ok hi
    subst e
    unfold DataBus.init at h2
    obtain ⟨ir, _, h2⟩ := bind_ok h2
    obtain ⟨br, hbr, h2⟩ := bind_ok h2
    obtain ⟨iw, _, h2⟩ := bind_ok h2
    obtain ⟨bw, hbw, h2⟩ := bind_ok h2
    obtain ⟨tr, htr, h2⟩ := bind_ok h2
    obtain ⟨tw, htw, h2⟩ := bind_ok h2
    have e := pure_ok h2
    subst e
    have tinit : ∀ {w d : Nat} {r s : Rate} {p : ToggleIdle} {en : Bool} {x : Toggling}, Toggling.init w d r s p en = .ok x →
        0 < w ∧ 0 < d ∧ ToggleReady x w d 0 := by
      intro w d r s p en x h
      unfold Toggling.init at h
      split at h
      · exact absurd h (by simp)
      · split at h
        · exact absurd h (by simp)
        · rw [← ok_inj h]
          exact ⟨by omega, by omega, rfl, rfl, fun e => absurd e (by simp)⟩
    obtain ⟨p1, p2, p3⟩ := tinit htr
    obtain ⟨_, _, p4⟩ := tinit htw
    have hbw' : br.width = sp.bitWidth * sp.devices := by
      unfold Bus.init at hbr
      split at hbr
      · exact absurd hbr (by simp)
      · rw [← ok_inj hbr]; rfl
    have hdbi : di.enable = false ∧ di.lastRead.init = false ∧ di.lastWrite.init = false := by
      unfold Interface.initDbi Dbi.init at h3
      split at h3
      · rw [← ok_inj h3]; exact ⟨rfl, rfl, rfl⟩
      · split at h3
        · split at h3
          · rw [← ok_inj h3]; exact ⟨rfl, rfl, rfl⟩
          · exact absurd h3 (by simp)
        · rw [← ok_inj h3]; exact ⟨rfl, rfl, rfl⟩
    refine ⟨⟨BusReady.init (by cases std <;> decide) (Nat.le_refl _) (by cases std <;> decide) h1, ⟨rfl, hbw', ?_⟩, rfl, rfl, ?_, ?_, ?_,
      rfl, rfl⟩, p1, p2, hdbi⟩
    · cases hm : sp.mode with
      | bus =>
        rw [hm] at hbr hbw
        exact ⟨BusReady.init p1 hN p2 hbr, BusReady.init p1 hN p2 hbw⟩
      | toggling => exact ⟨p3, p4⟩
    · intro _ hwck
      simp only [Clock.init, hwck]
      simp
    · intro h4
      simp [h4]
    · intro r hr
      dsimp only at hr
      split at hr
      · rw [List.eq_of_mem_replicate hr]; simp
      · exact absurd hr (by simp)

end DRAMPower
