import Verif.Lemmas.InversionTrace
import Verif.Spec.Slots

/-!
# How long the busses are occupied
-/

namespace DRAMPower
open Spec
variable {std : Std} {N : Nat} {sp : IfSpec} {i i' : Interface std N} {m : Setting} {c : ICmd}

/-! ## The command bus -/

/-- The command bus works and has the shape of the standard. -/
structure CaBusOk (i : Interface std N) : Prop where
  on : i.cmdBus.enabled = true
  rate : i.cmdBus.datarate = caRate std
  width : i.cmdBus.width = caWidth std

/-- What happens to the command bus during a step. -/
def CaMoves (i : Interface std N) (slot : Option (Nat × Nat)) (i' : Interface std N) : Prop :=
  CaBusOk i' ∧ i.cmdBus.busyTo ≤ i'.cmdBus.busyTo ∧ ∀ x, slot = some x → i.cmdBus.busyTo ≤ x.1 ∧ x.2 ≤ i'.cmdBus.busyTo

theorem pattern_beats {a : BankArch} {ty : CmdType} (h : ifAction a std ty = .bus ∨ ∃ read, ifAction a std ty = .data read)
    (n : Nat) (hn : (std = .lpddr6 ∧ n = (lpddr6Patterns ty).length) ∨ (std ≠ .lpddr6 ∧ n = (patterns a std ty).length)) (h0 : n ≠ 0) :
    n = caBeats std ty * caWidth std := by
  have hc := sent_beats h
  have he : encodable a std ty = true := by
    unfold encodable
    rcases hn with ⟨h6, e⟩ | ⟨h6, e⟩
    · rw [if_pos h6]
      cases hp : lpddr6Patterns ty with
      | nil => rw [hp] at e; exact absurd e h0
      | cons x xs => rfl
    · rw [if_neg h6]
      cases hp : patterns a std ty with
      | nil => rw [hp] at e; exact absurd e h0
      | cons x xs => rfl
  obtain ⟨_, t, _⟩ := table_size a std ty he hc
  rcases hn with ⟨h6, e⟩ | ⟨h6, e⟩ <;> rcases t with ⟨t6, _, t⟩ | ⟨t6, _, t⟩
  · exact absurd h6 t6
  · exact e.trans t
  · exact e.trans t
  · exact absurd t6 h6

theorem handleCommandBus_busy (hok : CaBusOk i) (ha : ifAction sp.arch std c.type = .bus ∨ ∃ read, ifAction sp.arch std c.type = .data read)
    (h : i.handleCommandBus sp c = .ok i') :
    CaBusOk i' ∧ i.cmdBus.busyTo ≤ c.t * caRate std ∧ i'.cmdBus.busyTo = c.t * caRate std + caBeats std c.type := by
  obtain ⟨i1, w, n, b, h1, h2, e⟩ := handleCommandBus_ok h
  have hw := caWidth_pos std
  have hn : n ≠ 0 ∧ ((std = .lpddr6 ∧ n = (lpddr6Patterns c.type).length) ∨ (std ≠ .lpddr6 ∧ n = (patterns sp.arch std c.type).length)) := by
    rcases encodeCommand_ok h1 with ⟨h6, hn, k, hk, _⟩ | ⟨h6, hn, k, hk, _⟩
    · refine ⟨?_, .inl ⟨h6, hn⟩⟩
      unfold CaHandler6.command at hk
      split at hk
      · cases hk
      split at hk
      · cases hk
      rename_i hp
      rw [hn]
      intro h0
      exact hp (List.eq_nil_of_length_eq_zero h0 ▸ rfl)
    · refine ⟨?_, .inr ⟨h6, hn⟩⟩
      unfold CaHandler.command at hk
      split at hk
      · cases hk
      split at hk
      · cases hk
      rename_i hp
      rw [hn]
      intro h0
      exact hp (List.eq_nil_of_length_eq_zero h0 ▸ rfl)
  have e1 := pattern_beats ha n hn.2 hn.1
  unfold Bus.loadWord at h2
  dsimp only at h2
  split at h2
  · cases h2
  obtain ⟨k1, k2, k3, k4⟩ := load_busy h2
  obtain ⟨k5, k6⟩ := k4 hok.on
  subst e
  rw [hok.rate] at k5 k6
  have hm : i.cmdBus.width ≠ 0 := by rw [hok.width]; omega
  rw [e1, hok.width, Nat.mul_div_cancel _ hw, Nat.mul_div_cancel _ hw] at k6
  refine ⟨⟨(bus_load_enabled h2).trans hok.on, k1.trans hok.rate, k2.trans hok.width⟩, k5, k6⟩

theorem step_ca (hok : CaBusOk i) {op : IfOp} (h : i.step sp op = .ok i') :
    CaMoves i (match op with | .cmd c => commandSlot std c | _ => none) i' := by
  have still : ∀ {j : Interface std N} {s : Option (Nat × Nat)}, s = none → j.cmdBus = i.cmdBus → CaMoves i s j := by
    intro j s hs hj
    refine ⟨⟨by rw [hj]; exact hok.on, by rw [hj]; exact hok.rate, by rw [hj]; exact hok.width⟩, by rw [hj]; exact Nat.le_refl _, fun x hx => ?_⟩
    rw [hs] at hx; cases hx
  have sent : ∀ {c : ICmd} {j k : Interface std N}, (ifAction sp.arch std c.type = .bus ∨ ∃ read, ifAction sp.arch std c.type = .data read) →
      j.cmdBus = i.cmdBus → j.handleCommandBus sp c = .ok k → CaMoves i (commandSlot std c) k := by
    intro c j k ha hj hk
    have hokj : CaBusOk j := ⟨by rw [hj]; exact hok.on, by rw [hj]; exact hok.rate, by rw [hj]; exact hok.width⟩
    obtain ⟨k1, k2, k3⟩ := handleCommandBus_busy hokj ha hk
    rw [hj] at k2
    refine ⟨k1, by omega, fun x hx => ?_⟩
    unfold commandSlot at hx
    rw [if_neg (sent_beats ha), commandRate_eq] at hx
    cases hx
    exact ⟨k2, Nat.le_of_eq k3.symm⟩
  have last : ∀ {s : Option (Nat × Nat)} {j k : Interface std N}, k.cmdBus = j.cmdBus → CaMoves i s j → CaMoves i s k := by
    intro s j k e hj
    obtain ⟨⟨a, b, d⟩, h2, h3⟩ := hj
    exact ⟨⟨by rw [e]; exact a, by rw [e]; exact b, by rw [e]; exact d⟩, by rw [e]; exact h2, fun x hx => by rw [e]; exact h3 x hx⟩
  have unsent : ∀ {c : ICmd}, caBeats std c.type = 0 → commandSlot std c = none := by
    intro c h0; unfold commandSlot; rw [if_pos h0]
  cases op with
  | cmd c =>
    obtain ⟨i1, h1, e⟩ := ifCommand_ok h
    cases ha : ifAction sp.arch std c.type with
    | bus =>
      rw [ha] at h1
      exact last (by rw [e]) (sent (.inl ha) rfl h1)
    | data read =>
      rw [ha] at h1
      obtain ⟨j1, len, j2, j3, j4, k1, k2, k3, k4, k5⟩ := handleData_ok h1
      obtain ⟨⟨d, db, pr, pw, f, q1, _, _⟩, _, _, _⟩ := transfer_ok k1
      obtain ⟨r2, w2, q2⟩ := dqs_ok k2
      obtain ⟨wk, q3⟩ := runWck_ok k3
      have p3 : j3.cmdBus = i.cmdBus := by rw [q3, q2, q1]
      have ho : (j3.overrides len read).cmdBus = i.cmdBus := by
        unfold Interface.overrides
        split <;> exact p3
      have p5 : i1.cmdBus = j4.cmdBus := by
        rcases prePostamble_ok k5 with ⟨_, e⟩ | ⟨_, r, r', _, _, e⟩ <;> rw [e]
      exact last (by rw [e]; exact p5) (sent (.inr ⟨read, ha⟩) ho k4)
    | finish =>
      rw [ha] at h1
      obtain ⟨d, pr, pw, e1, _, _⟩ := endOfSimulation_ok h1
      subst e; subst e1
      exact still (unsent (unsent_beats (.inl ha))) rfl
    | skip =>
      rw [ha] at h1
      cases h1
      subst e
      exact still (unsent (unsent_beats (.inr ha))) rfl
    | unsupported => rw [ha] at h1; cases h1
    | invalid => rw [ha] at h1; cases h1
  | dbi e => cases h; exact still rfl rfl
  | metaData a b => cases h; exact still rfl rfl
  | parity b =>
    simp only [Interface.step, Interface.setParityCheckMode] at h
    split at h
    · cases h; exact still rfl rfl
    · cases h
  | enable t =>
    simp only [Interface.step] at h
    cases he : i.enabled with
    | true =>
      unfold Interface.enable at h
      rw [if_pos he] at h
      cases h
      exact still rfl rfl
    | false =>
      obtain ⟨w, k, _, _, e⟩ := enable_ok he h
      subst e
      exact still rfl rfl
  | disable t =>
    simp only [Interface.step] at h
    cases he : i.enabled with
    | false =>
      unfold Interface.disable at h
      rw [if_pos he] at h
      cases h
      exact still rfl rfl
    | true =>
      obtain ⟨w, k, _, _, e⟩ := disable_ok he h
      subst e
      exact still rfl rfl

/-! ## The data bus -/

/-- First beat at which a toggling-rate model is free again. -/
def Toggling.busyTo (h : Toggling) : Nat := if h.handled then 0 else h.lastLength + h.lastLoad

/-- First beat at which a direction of the data bus is free again. -/
def Interface.dataBusy (i : Interface std N) (r : Bool) : Nat :=
  match i.dataBus.mode with
  | .bus => (i.dataBus.bus (dirOf r)).busyTo
  | .toggling => (i.dataBus.toggle (dirOf r)).busyTo

/-- Both models of a direction have the rate and the width of the specification. -/
structure DataShape (sp : IfSpec) (r : Bool) (i : Interface std N) : Prop where
  ok : DataOk i.dataBus
  rate : (i.dataBus.bus (dirOf r)).datarate = sp.dataRate
  width : (i.dataBus.bus (dirOf r)).width = sp.bitWidth * sp.devices
  rate' : (i.dataBus.toggle (dirOf r)).datarate = sp.dataRate
  width' : (i.dataBus.toggle (dirOf r)).width = sp.bitWidth * sp.devices

theorem incBits_busy {h h' : Toggling} {t n : Nat} (hr : h.incBits t n = .ok h') (he : h.enabled = true) :
    h'.datarate = h.datarate ∧ h'.width = h.width ∧ h.width ≠ 0 ∧ h.busyTo ≤ t * h.datarate ∧ h'.busyTo = t * h.datarate + n / h.width := by
  unfold Toggling.incBits at hr
  split at hr
  · cases hr
  rename_i hw
  split at hr
  · cases hr
  unfold Toggling.incBurst at hr
  dsimp only at hr
  split at hr
  · cases hr
  rename_i hn
  cases hr
  refine ⟨rfl, rfl, hw, ?_, by show n / h.width + t * h.datarate = _; omega⟩
  unfold Toggling.busyTo
  cases hh : h.handled with
  | true => exact Nat.zero_le _
  | false => rw [hh] at hn; simp only [Bool.not_false, true_and, Nat.not_lt] at hn; exact hn

/-- A direction of the data bus during a step. -/
theorem step_slot (hs : Shaped sp i) (hi : Set6 m i) {r : Bool} (hd : DataShape sp r i) {op : IfOp} (h : i.step sp op = .ok i') :
    DataShape sp r i' ∧ i.dataBusy r ≤ i'.dataBusy r ∧
      ∀ x, (match op with | .cmd c => burstSlot std sp r c | _ => none) = some x → i.dataBusy r ≤ x.1 ∧ x.2 ≤ i'.dataBusy r := by
  have hs' := (step_clocks hs h).shaped
  obtain ⟨b1, b2, b3, b4, b5⟩ := step_bus hs hi hd.ok r h
  have k := step_data hs hi h
  have tog : (i'.dataBus.toggle (dirOf r)).datarate = (i.dataBus.toggle (dirOf r)).datarate ∧
      (i'.dataBus.toggle (dirOf r)).width = (i.dataBus.toggle (dirOf r)).width ∧
      (sp.mode = .toggling → (i.dataBus.toggle (dirOf r)).busyTo ≤ (i'.dataBus.toggle (dirOf r)).busyTo ∧
        ∀ c, op = .cmd c → direction c.type = some r → (i.dataBus.toggle (dirOf r)).busyTo ≤ c.t * sp.dataRate ∧
          c.t * sp.dataRate + dataBeats std sp c ≤ (i'.dataBus.toggle (dirOf r)).busyTo) := by
    rcases k.sent with ⟨e, hnone⟩ | ⟨c, read, x, e, hdir, hrun, hcall⟩
    · rw [e]
      refine ⟨rfl, rfl, fun ht => ⟨Nat.le_refl _, fun c ec hd => ?_⟩⟩
      have := (hnone c ec (by rw [hd]; nofun)).2
      have := (mode_toggling sp).1 ht
      simp_all
    · obtain ⟨d1, d2, d3⟩ := data_run _ hd.ok hrun
      have hb := (d3 (dirOf r)).2
      cases hmode : i.dataBus.mode with
      | bus =>
        rw [hmode] at hb
        have : toggleShare (dirOf r) .bus [dataOp read c.t (callBits std sp c) x] = [] := by
          cases r <;> cases read <;> simp [toggleShare, toggleCall, dataOp, dirOf, transferOf]
        rw [this] at hb
        have hb : i.dataBus.toggle (dirOf r) = i'.dataBus.toggle (dirOf r) := ok_inj hb
        rw [← hb]
        refine ⟨rfl, rfl, fun ht => ?_⟩
        rw [← hs.mode, hmode] at ht; cases ht
      | toggling =>
        rw [hmode, toggleShare_one] at hb
        by_cases hr : r = read
        · rw [if_pos hr] at hb
          simp only [Toggling.run, Toggling.step] at hb
          split at hb
          rotate_left
          · cases hb
          rename_i h1 hinc
          cases hb
          have hen : (i.dataBus.toggle (dirOf r)).enabled = true := by
            cases r
            · exact hd.ok.tw.trans (by rw [hmode]; rfl)
            · exact hd.ok.tr.trans (by rw [hmode]; rfl)
          obtain ⟨k1, k2, k3, k4, k5⟩ := incBits_busy hinc hen
          refine ⟨k1, k2, fun ht => ⟨by rw [k5]; exact Nat.le_trans k4 (Nat.le_add_right _ _), fun c' ec hd' => ?_⟩⟩
          rw [e] at ec; cases ec
          rw [hd.rate'] at k4 k5
          refine ⟨k4, ?_⟩
          rw [k5]
          have : callBits std sp c / (i.dataBus.toggle (dirOf r)).width = dataBeats std sp c := by
            rw [hd.width'] at k3 ⊢
            unfold callBits
            by_cases h0 : c.nBits = 0
            · have ht := (mode_toggling sp).1 ht
              rw [if_pos h0, Nat.mul_div_cancel _ (by omega)]
              unfold dataBeats burstBeats
              simp [h0, ht]
            · rw [if_neg h0, dataBeats_eq h0]
          omega
        · rw [if_neg hr] at hb
          have hb : i.dataBus.toggle (dirOf r) = i'.dataBus.toggle (dirOf r) := ok_inj hb
          rw [← hb]
          refine ⟨rfl, rfl, fun ht => ⟨Nat.le_refl _, fun c' ec hd' => ?_⟩⟩
          rw [e] at ec; cases ec
          exact absurd (Option.some.inj (hd'.symm.trans hdir)) hr
  obtain ⟨t1, t2, t3⟩ := tog
  refine ⟨⟨b1, b2.trans hd.rate, b3.trans hd.width, t1.trans hd.rate', t2.trans hd.width'⟩, ?_⟩
  have slot : ∀ {x}, (match op with | .cmd c => burstSlot std sp r c | _ => none) = some x → ∃ c, op = .cmd c ∧ direction c.type = some r ∧
      Transfers sp c ∧ x = (c.t * sp.dataRate, c.t * sp.dataRate + dataBeats std sp c) := by
    intro x hx
    cases op with
    | cmd c =>
      dsimp only at hx
      unfold burstSlot at hx
      split at hx
      · rename_i hc
        cases hx
        exact ⟨c, rfl, hc.1, hc.2, rfl⟩
      · cases hx
    | _ => cases hx
  unfold Interface.dataBusy
  rw [hs'.mode, hs.mode]
  cases hm : sp.mode with
  | bus =>
    refine ⟨b4, fun x hx => ?_⟩
    obtain ⟨c, ec, hdir, ht, ex⟩ := slot hx
    have htn : sp.toggling = none := by
      cases ht : sp.toggling with
      | none => rfl
      | some t => have := (mode_toggling sp).2 (by rw [ht]; rfl); rw [hm] at this; cases this
    rcases ht with ht | ⟨h0, hsome⟩
    · rw [htn] at ht; cases ht
    · obtain ⟨y, hy⟩ := Option.isSome_iff_exists.1 hsome
      obtain ⟨k1, k2⟩ := b5 c y ec hdir htn h0 hy
      rw [hd.rate] at k1 k2
      rw [hd.width, ← dataBeats_eq h0] at k2
      subst ex
      exact ⟨k1, Nat.le_of_eq k2.symm⟩
  | toggling =>
    obtain ⟨k1, k2⟩ := t3 hm
    refine ⟨k1, fun x hx => ?_⟩
    obtain ⟨c, ec, hdir, ht, ex⟩ := slot hx
    subst ex
    exact k2 c ec hdir

end DRAMPower
