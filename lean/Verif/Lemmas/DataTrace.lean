import Verif.Lemmas.DataLevel
import Verif.Lemmas.BusShort
import Verif.Props.C42

/-!
# The data bus during a trace
-/

namespace DRAMPower
open Spec
variable {std : Std} {N : Nat} {sp : IfSpec} {i i' : Interface std N} {c : ICmd} {m : Setting}

/-! ## Settings -/

theorem reset_enable {w : Nat} {p : DbiParams w} {d d' : Dbi w} {t : Nat} {read : Bool} {ev : List DbiEvent} (h : d.reset p t read = .ok (d', ev)) :
    d'.enable = d.enable := by
  unfold Dbi.reset at h
  dsimp only at h
  repeat' split at h
  all_goals first | cases h; done | skip
  all_goals cases h
  all_goals first | rfl | skip
  unfold Dbi.setLast
  split <;> rfl

theorem update_enable {w : Nat} {p : DbiParams w} {d d' : Dbi w} {t n : Nat} {data out : Option (List (BitVec w))} {read : Bool} {ev : List DbiEvent}
    (h : d.update p t n data read = .ok (d', out, ev)) : d'.enable = d.enable := by
  cases out with
  | none => rw [(C23_off h).1]
  | some o =>
    cases data with
    | none => unfold Dbi.update at h; cases h
    | some x =>
      obtain ⟨b⟩ := Dbi.update_ok h
      rw [b.hd']
      show (Dbi.setLast _ _ _).enable = _
      rw [← reset_enable b.reset]
      unfold Dbi.setLast
      split <;> rfl

theorem resetBoth_enable {w : Nat} {p : DbiParams w} {d d' : Dbi w} {t : Nat} {ev : List DbiEvent} (h : d.resetBoth p t = .ok (d', ev)) :
    d'.enable = d.enable := by
  unfold Dbi.resetBoth at h
  obtain ⟨⟨d1, e1⟩, h1, h⟩ := bind_ok h
  obtain ⟨⟨d2, e2⟩, h2, h⟩ := bind_ok h
  have h := pure_ok h
  simp only [Prod.mk.injEq] at h
  rw [← h.1, reset_enable h2, reset_enable h1]

/-- The interface has the setting. -/
structure Set6 (m : Setting) (i : Interface std N) : Prop where
  inverting : i.dbi.enable = m.inverting
  words : i.formatter.metaData = (m.first, m.second)

/-- The call on the data bus. -/
def dataOp (read : Bool) (t n : Nat) (x : Option (List UInt8)) : DataOp := if read then .read t n x else .write t n x

theorem loadFunc_step {d d' : DataBus N} {read : Bool} {t n : Nat} {x : Option (List UInt8)} (h : Interface.loadFunc d read t n x = .ok d') :
    d.run [dataOp read t n x] = .ok d' := by
  unfold Interface.loadFunc at h
  unfold DataBus.run dataOp
  cases read with
  | true => simp only [if_true] at h ⊢; rw [DataBus.step, h]; rfl
  | false => simp only [Bool.false_eq_true, if_false] at h ⊢; rw [DataBus.step, h]; rfl

/-- Bits of the call for a command. -/
def callBits (std : Std) (sp : IfSpec) (c : ICmd) : Nat := if c.nBits = 0 then sp.burstLength * (sp.bitWidth * sp.devices) else dataBits std c

/-- What a data command loads. -/
structure DataCall (std : Std) (sp : IfSpec) (m : Setting) (c : ICmd) (x : Option (List UInt8)) : Prop where
  length : c.nBits = 0 → sp.toggling.isSome
  none : sp.mode = .bus → c.data = none → x = none
  some : sp.mode = .bus → c.nBits ≠ 0 → ∀ data, c.data = some data → ∃ bytes, x = some bytes ∧
    (¬ (std = .lpddr6 ∧ m.inverting = true) → ∀ i < dataBits std c, bitOf bytes i = dataBit std m c data i)

theorem invertData_set {read : Bool} {data : Option (List UInt8)} (hi : Set6 m i) (h0 : c.nBits ≠ 0) (h : i.invertData sp c read = .ok (i', data)) :
    Set6 m i' ∧ i'.dataBus = i.dataBus ∧ i'.formatter = i.formatter ∧ (c.data = none → data = none) ∧
      (∀ d, c.data = some d → ∃ bytes, data = some bytes ∧ (m.inverting = false → bytes = d) ∧
        (i.dataBus.mode = .bus → std ≠ .lpddr6 → ∀ k < c.nBits, bitOf bytes k = invertedBit std m d k)) := by
  unfold Interface.invertData at h
  split at h
  · rename_i hoff
    have := ok_inj h
    simp only [Prod.mk.injEq] at this
    rw [← this.1, ← this.2]
    refine ⟨hi, rfl, rfl, id, fun d hd => ⟨d, hd, fun _ => rfl, fun hb _ k hk => ?_⟩⟩
    have hf : ∀ x, flagged std m d x = false := by
      intro x
      unfold flagged
      rcases hoff with e | e | e | e | e
      · subst e; simp
      · exact absurd hb e
      · rw [hi.inverting] at e; rw [e]; rfl
      · exact absurd e h0
      · rw [hd] at e; cases e
    rw [invertedBit, hf]; simp
  · rename_i hon
    simp only [not_or] at hon
    obtain ⟨h5, _, hen, _, hdata⟩ := hon
    obtain ⟨⟨d, out, ev⟩, h1, h2⟩ := bind_ok h
    obtain ⟨i1, h3, h4⟩ := bind_ok h2
    obtain ⟨pr, pw, e1, l1, l2⟩ := pinChanges_ok h3
    have := pure_ok h4
    simp only [Prod.mk.injEq] at this
    obtain ⟨e2, e3⟩ := this
    subst e2
    have hen' := update_enable h1
    have hm : m.inverting = true := by rw [← hi.inverting]; simpa using hen
    refine ⟨⟨by rw [e1]; exact hen'.trans hi.inverting, by rw [e1]; exact hi.words⟩, by rw [e1], by rw [e1], fun h => absurd h hdata, fun x hx => ?_⟩
    rw [hx, Option.map_some] at h1
    cases out with
    | none =>
      obtain ⟨_, _, hc⟩ := C23_off h1
      rcases hc with e | e | e | e
      · cases e
      · exact absurd e h0
      · exact absurd e hen
      · have : (sp.dbi std).idle ≠ .Z := by unfold IfSpec.dbi; dsimp only; split <;> decide
        exact absurd e this
    | some o =>
      refine ⟨_, e3.symm, fun hf => (by rw [hm] at hf; cases hf), fun _ h6 k hk => ?_⟩
      exact inverted_bits hm h5 h6 h1 k hk

theorem mode_bus (hs : Shaped sp i) : i.dataBus.mode = .bus ↔ sp.toggling = none := by
  rw [hs.mode]
  unfold IfSpec.mode
  cases sp.toggling <;> simp

theorem transfer_call {read : Bool} {len : Nat} (hs : Shaped sp i) (hi : Set6 m i) (h : i.transfer sp c read = .ok (i', len)) :
    Set6 m i' ∧ ((i'.dataBus = i.dataBus ∧ c.nBits = 0 ∧ sp.toggling = none) ∨
      ∃ x, i.dataBus.run [dataOp read c.t (callBits std sp c) x] = .ok i'.dataBus ∧ DataCall std sp m c x) := by
  have hmode : sp.mode = .bus → i.dataBus.mode = .bus := fun e => hs.mode.trans e
  unfold Interface.transfer at h
  split at h
  · rename_i h0
    split at h
    · rename_i hb
      cases h
      exact ⟨hi, .inl ⟨rfl, h0, (mode_bus hs).1 hb⟩⟩
    · rename_i ht
      obtain ⟨i1, h1, h2⟩ := bind_ok h
      have := pure_ok h2
      simp only [Prod.mk.injEq] at this
      obtain ⟨e1, e2⟩ := this
      subst e1
      obtain ⟨d, hd, e⟩ := loadData_ok h1
      subst e
      refine ⟨⟨hi.inverting, hi.words⟩, .inr ⟨none, ?_, ?_, fun _ _ => rfl, fun hb => ?_⟩⟩
      · have : callBits std sp c = sp.burstLength * i.width := by unfold callBits; rw [if_pos h0, hs.width]
        rw [this]
        exact loadFunc_step hd
      · intro _
        have := hs.mode
        rw [ht] at this
        exact (mode_toggling sp).1 this.symm
      · rw [hmode hb] at ht; cases ht
  · rename_i h0
    obtain ⟨⟨i1, data⟩, h1, h2⟩ := bind_ok h
    obtain ⟨hi1, hd1, hf1, hnone, hsome⟩ := invertData_set hi h0 h1
    have hlen : callBits std sp c = dataBits std c := if_neg h0
    dsimp only at h2
    split at h2
    · rename_i h6
      subst h6
      obtain ⟨⟨f, bytes, n⟩, h3, h4⟩ := bind_ok h2
      obtain ⟨i2, h5, h6⟩ := bind_ok h4
      have := pure_ok h6
      simp only [Prod.mk.injEq] at this
      obtain ⟨e1, e2⟩ := this
      subst e1
      obtain ⟨d, hd, e⟩ := loadData_ok h5
      subst e
      have hn := (formatData_size h3).1
      have hfm : f.metaData = i1.formatter.metaData := by
        unfold Formatter.formatData at h3
        split at h3
        · cases h3
        dsimp only at h3
        split at h3
        · cases h3; rfl
        · split at h3 <;> cases h3
          rfl
      refine ⟨⟨hi1.inverting, hfm.trans hi1.words⟩, .inr ⟨bytes, ?_, fun h => absurd h h0, fun _ hc => ?_, fun hb _ x hx => ?_⟩⟩
      · rw [hlen, ← hd1]
        have : dataBits .lpddr6 c = n := by rw [hn]; rfl
        rw [this]
        exact loadFunc_step hd
      · have hdn := hnone hc
        subst hdn
        unfold Formatter.formatData at h3
        split at h3 <;> cases h3
        rfl
      · obtain ⟨b, hb1, hb2, _⟩ := hsome x hx
        subst hb1
        by_cases hm : m.inverting = true
        · have : ∃ o, bytes = some o := by
            unfold Formatter.formatData at h3
            split at h3
            · cases h3
            dsimp only at h3
            split at h3 <;> cases h3
            exact ⟨_, rfl⟩
          obtain ⟨o, ho⟩ := this
          exact ⟨o, ho, fun h => absurd ⟨rfl, hm⟩ h⟩
        · have hm : m.inverting = false := by simpa using hm
          have hinv : i1.inversionState read = none := by
            unfold Interface.inversionState; rw [hi1.inverting, hm]; rfl
          rw [hinv] at h3
          rw [hb2 hm] at h3
          obtain ⟨_, k2, o, k3, k4⟩ := formatted_bits hm hi1.words h3
          refine ⟨o, k3, fun _ k hk => ?_⟩
          have hk' : dataBits .lpddr6 c = n := by rw [hn]; rfl
          unfold dataBit
          rw [if_pos rfl, hk']
          exact k4 k (by rw [← hk']; exact hk)
    · rename_i h6
      obtain ⟨i2, h5, h7⟩ := bind_ok h2
      have := pure_ok h7
      simp only [Prod.mk.injEq] at this
      obtain ⟨e1, e2⟩ := this
      subst e1
      obtain ⟨d, hd, e⟩ := loadData_ok h5
      subst e
      have hdb : dataBits std c = c.nBits := if_neg h6
      refine ⟨⟨hi1.inverting, hi1.words⟩, .inr ⟨data, ?_, fun h => absurd h h0, fun _ hc => hnone hc, fun hb _ x hx => ?_⟩⟩
      · rw [hlen, ← hd1, hdb]; exact loadFunc_step hd
      · obtain ⟨b, hb1, _, hb3⟩ := hsome x hx
        refine ⟨b, hb1, fun _ k hk => ?_⟩
        rw [hdb] at hk
        rw [hb3 (hmode hb) h6 k hk, dataBit, if_neg h6]

/-- What a step does to the data bus. -/
structure DataStep (sp : IfSpec) (m : Setting) (i : Interface std N) (op : IfOp) (i' : Interface std N) : Prop where
  set : Set6 (m.after op) i'
  sent : (i'.dataBus = i.dataBus ∧ ∀ c, op = .cmd c → direction c.type ≠ none → c.nBits = 0 ∧ sp.toggling = none) ∨
    ∃ c read x, op = .cmd c ∧ direction c.type = some read ∧ i.dataBus.run [dataOp read c.t (callBits std sp c) x] = .ok i'.dataBus ∧
      DataCall std sp m c x

theorem handleCommandBus_set (hi : Set6 m i) (h : i.handleCommandBus sp c = .ok i') : Set6 m i' ∧ i'.dataBus = i.dataBus := by
  obtain ⟨i1, w, n, b, h1, h2, e⟩ := handleCommandBus_ok h
  subst e
  rcases encodeCommand_ok h1 with ⟨_, _, k, _, e⟩ | ⟨_, _, k, _, e⟩ <;> subst e <;> exact ⟨⟨hi.inverting, hi.words⟩, rfl⟩

theorem step_data (hs : Shaped sp i) (hi : Set6 m i) {op : IfOp} (h : i.step sp op = .ok i') : DataStep sp m i op i' := by
  have nothing : ∀ {c}, direction c.type = none → op = .cmd c → ∀ c', op = .cmd c' → direction c'.type ≠ none → c'.nBits = 0 ∧ sp.toggling = none := by
    intro c hd e c' e' hne
    rw [e] at e'; cases e'
    exact absurd hd hne
  cases op with
  | cmd c =>
    obtain ⟨i1, h1, e⟩ := ifCommand_ok h
    cases ha : ifAction sp.arch std c.type with
    | bus =>
      rw [ha] at h1
      have hd := direction_other (a := sp.arch) (std := std) (ty := c.type) (by simp [ha]) (by simp [ha])
      obtain ⟨k1, k2⟩ := handleCommandBus_set hi h1
      subst e
      exact ⟨⟨k1.inverting, k1.words⟩, .inl ⟨k2, nothing hd rfl⟩⟩
    | data read =>
      rw [ha] at h1
      have hd := direction_data ha
      obtain ⟨j1, len, j2, j3, j4, k1, k2, k3, k4, k5⟩ := handleData_ok h1
      obtain ⟨q1, q2⟩ := transfer_call hs hi k1
      obtain ⟨r2, w2, e2⟩ := dqs_ok k2
      obtain ⟨wk, e3⟩ := runWck_ok k3
      obtain ⟨a, a6, e4⟩ := overrides_eq j3 len read
      rw [e4] at k4
      have hj3 : Set6 m ({ j3 with ca := a, ca6 := a6 } : Interface std N) ∧ ({ j3 with ca := a, ca6 := a6 } : Interface std N).dataBus = j1.dataBus := by
        subst e3; subst e2; exact ⟨⟨q1.inverting, q1.words⟩, rfl⟩
      obtain ⟨p1, p2⟩ := handleCommandBus_set hj3.1 k4
      have p5 : Set6 m i1 ∧ i1.dataBus = j1.dataBus := by
        rcases prePostamble_ok k5 with ⟨_, e⟩ | ⟨_, r, r', _, _, e⟩
        · rw [e]; exact ⟨p1, p2.trans hj3.2⟩
        · subst e; exact ⟨⟨p1.inverting, p1.words⟩, p2.trans hj3.2⟩
      subst e
      refine ⟨⟨p5.1.inverting, p5.1.words⟩, ?_⟩
      rcases q2 with ⟨f1, f2, f3⟩ | ⟨x, f1, f2⟩
      · exact .inl ⟨p5.2.trans f1, fun c' e' _ => by cases e'; exact ⟨f2, f3⟩⟩
      · exact .inr ⟨c, read, x, rfl, hd, by rw [f1]; exact congrArg _ p5.2.symm, f2⟩
    | finish =>
      rw [ha] at h1
      have hd := direction_other (a := sp.arch) (std := std) (ty := c.type) (by simp [ha]) (by simp [ha])
      unfold Interface.act Interface.endOfSimulation at h1
      obtain ⟨⟨d, ev⟩, g1, g2⟩ := bind_ok h1
      obtain ⟨pr, pw, e1, l1, l2⟩ := pinChanges_ok g2
      subst e; subst e1
      exact ⟨⟨(resetBoth_enable g1).trans hi.inverting, hi.words⟩, .inl ⟨rfl, nothing hd rfl⟩⟩
    | skip =>
      rw [ha] at h1
      have hd := direction_other (a := sp.arch) (std := std) (ty := c.type) (by simp [ha]) (by simp [ha])
      cases h1
      subst e
      exact ⟨⟨hi.inverting, hi.words⟩, .inl ⟨rfl, nothing hd rfl⟩⟩
    | unsupported => rw [ha] at h1; cases h1
    | invalid => rw [ha] at h1; cases h1
  | dbi e => cases h; exact ⟨⟨rfl, hi.words⟩, .inl ⟨rfl, fun _ e => by cases e⟩⟩
  | metaData a b => cases h; exact ⟨⟨hi.inverting, rfl⟩, .inl ⟨rfl, fun _ e => by cases e⟩⟩
  | parity b =>
    simp only [Interface.step, Interface.setParityCheckMode] at h
    split at h
    · cases h; exact ⟨⟨hi.inverting, hi.words⟩, .inl ⟨rfl, fun _ e => by cases e⟩⟩
    · cases h
  | enable t =>
    simp only [Interface.step] at h
    cases he : i.enabled with
    | true =>
      unfold Interface.enable at h
      rw [if_pos he] at h
      cases h
      exact ⟨⟨hi.inverting, hi.words⟩, .inl ⟨rfl, fun _ e => by cases e⟩⟩
    | false =>
      obtain ⟨w, k, _, _, e⟩ := enable_ok he h
      subst e
      exact ⟨⟨hi.inverting, hi.words⟩, .inl ⟨rfl, fun _ e => by cases e⟩⟩
  | disable t =>
    simp only [Interface.step] at h
    cases he : i.enabled with
    | false =>
      unfold Interface.disable at h
      rw [if_pos he] at h
      cases h
      exact ⟨⟨hi.inverting, hi.words⟩, .inl ⟨rfl, fun _ e => by cases e⟩⟩
    | true =>
      obtain ⟨w, k, _, _, e⟩ := disable_ok he h
      subst e
      exact ⟨⟨hi.inverting, hi.words⟩, .inl ⟨rfl, fun _ e => by cases e⟩⟩

/-! ## Bus mode -/

/-- The direction of a transfer. -/
def dirOf (read : Bool) : Dir := if read then .read else .write

/-- The loads of the bus of a direction. -/
def busLoad (same : Bool) (t n : Nat) : Option (List UInt8) → List BusOp
  | some bytes => if same ∧ n ≠ 0 then [.load t bytes n] else []
  | none => []

theorem busShare_one (r read : Bool) (t n : Nat) (x : Option (List UInt8)) :
    busShare (dirOf r) .bus [dataOp read t n x] = busLoad (r == read) t n x := by
  cases r <;> cases read <;> cases x <;> simp [busShare, busCall, dataOp, dirOf, transferOf, busLoad]

theorem toggleShare_one (r read : Bool) (t n : Nat) (x : Option (List UInt8)) :
    toggleShare (dirOf r) .toggling [dataOp read t n x] = if r = read then [.transfer t n] else [] := by
  cases r <;> cases read <;> simp [toggleShare, toggleCall, dataOp, dirOf, transferOf]

theorem dataBeats_eq (h : c.nBits ≠ 0) : dataBeats std sp c = dataBits std c / (sp.bitWidth * sp.devices) := by
  unfold dataBeats dataBits burstBeats
  by_cases h6 : std = .lpddr6
  · rw [if_pos ⟨h6, h⟩, if_pos h6]
  · rw [if_neg (fun x => h6 x.1), if_neg h6, if_neg h]

theorem dataBeats_none (h : c.nBits = 0) (ht : sp.toggling = none) : dataBeats std sp c = 0 := by
  unfold dataBeats burstBeats
  rw [if_neg (fun x => x.2 h), if_pos h, ht]
  rfl

/-- What a trace does to the busses: bursts whose waveform is that of the specification. -/
theorem run_data (hw : 0 < sp.bitWidth * sp.devices) (ht : sp.toggling = none) (r : Bool) : ∀ (ops : List IfOp) {i i' : Interface std N} {m : Setting},
    Shaped sp i → Set6 m i → DataOk i.dataBus → (std = .lpddr6 → m.inverting = false) → (std = .lpddr6 → .dbi true ∉ ops) → i.run sp ops = .ok i' →
    ∃ calls, (i.dataBus.bus (dirOf r)).run calls = .ok (i'.dataBus.bus (dirOf r)) ∧ (∀ b ∈ calls, b.IsSend) ∧
      ∀ (idle : Levels) (l l' : Line), LinesAgree (sp.bitWidth * sp.devices) l l' →
        LinesAgree (sp.bitWidth * sp.devices) (dataLineFrom std sp r m l ops)
          (calls.foldl (fun l op => Line.drive (sp.bitWidth * sp.devices) sp.dataRate lastFirst idle l op.drive) l')
  | [], i, i', m, _, _, _, _, _, h => by
    cases h
    exact ⟨[], rfl, by simp, fun _ _ _ h => h⟩
  | op :: ops, i, i', m, hs, hi, hok, hm, hf, h => by
    obtain ⟨j, h1, h2⟩ := Interface.run_cons h
    have k := step_data hs hi h1
    have hs' := (step_clocks hs h1).shaped
    have hm' : std = .lpddr6 → (m.after op).inverting = false := by
      intro h6
      cases op with
      | dbi e =>
        cases e with
        | false => rfl
        | true => exact absurd (by simp) (hf h6)
      | _ => exact hm h6
    have hf' : std = .lpddr6 → .dbi true ∉ ops := fun h6 hc => hf h6 (by simp [hc])
    have hmode : i.dataBus.mode = .bus := (mode_bus hs).2 ht
    have hsm : sp.mode = .bus := hs.mode.symm.trans hmode
    rcases k.sent with ⟨e, hnone⟩ | ⟨c, read, x, e, hd, hrun, hcall⟩
    · obtain ⟨calls, r1, r2, r3⟩ := run_data hw ht r ops hs' k.set (by rw [e]; exact hok) hm' hf' h2
      refine ⟨calls, by rw [← e]; exact r1, r2, fun idle l l' hl => ?_⟩
      rw [dataLineFrom]
      refine r3 idle _ _ ?_
      cases op with
      | cmd c =>
        intro k
        obtain ⟨a, a', q⟩ := hl k
        refine ⟨a, a', ?_, q.2⟩
        cases hdat : c.data with
        | none => simp only [dataDrive, hdat]; exact q.1
        | some data =>
          simp only [dataDrive, hdat]
          by_cases hdir : direction c.type = some r
          · obtain ⟨z1, z2⟩ := hnone c rfl (by rw [hdir]; simp)
            rw [if_pos hdir, if_neg (by rw [dataBeats_none z1 z2]; omega)]
            exact q.1
          · rw [if_neg hdir]
            exact q.1
      | _ => exact hl
    · obtain ⟨d1, d2, d3⟩ := data_run _ hok hrun
      have hb := (d3 (dirOf r)).1
      rw [hmode, busShare_one] at hb
      obtain ⟨calls, r1, r2, r3⟩ := run_data hw ht r ops hs' k.set d1 hm' hf' h2
      have h0 : c.nBits ≠ 0 := fun h0 => by have := hcall.length h0; rw [ht] at this; cases this
      have hcb : callBits std sp c = dataBits std c := if_neg h0
      have hpos : dataBits std c ≠ 0 := by
        unfold dataBits
        split <;> omega
      refine ⟨busLoad (r == read) c.t (callBits std sp c) x ++ calls, by rw [Bus.run_append hb]; exact r1, ?_, ?_⟩
      · intro b hb
        rcases List.mem_append.1 hb with hb | hb
        · cases x with
          | none => cases hb
          | some bytes =>
            simp only [busLoad] at hb
            by_cases hcond : (r == read) = true ∧ callBits std sp c ≠ 0
            · rw [if_pos hcond] at hb
              cases List.mem_singleton.1 hb
              trivial
            · rw [if_neg hcond] at hb
              cases hb
        · exact r2 b hb
      · intro idle l l' hl
        rw [dataLineFrom, List.foldl_append]
        refine r3 idle _ _ ?_
        subst e
        cases hdat : c.data with
        | none =>
          rw [hcall.none hsm hdat]
          simp only [dataDrive, hdat]
          exact hl
        | some data =>
          obtain ⟨bytes, hx, hbits⟩ := hcall.some hsm h0 data hdat
          have hbits := hbits (fun h => by have := hm h.1; rw [h.2] at this; cases this)
          rw [hx]
          simp only [dataDrive, hdat, hd, Option.some.injEq, busLoad, hcb]
          by_cases hr : read = r
          · subst hr
            rw [if_pos rfl, if_pos (by simp [hpos])]
            intro k
            simp only [List.foldl_cons, List.foldl_nil, BusOp.drive, Line.drive]
            obtain ⟨_, a0, _, q0, _⟩ := hl (c.t * sp.dataRate)
            rw [q0, ← dataBeats_eq (sp := sp) h0]
            by_cases hk : c.t * sp.dataRate ≤ k ∧ k < c.t * sp.dataRate + dataBeats std sp c
            · rw [if_pos hk, if_pos (by simp [hk.1, hk.2])]
              refine ⟨_, _, rfl, rfl, fun j hj => ?_⟩
              unfold dataWires lastFirst payloadWord
              refine (hbits _ ?_).symm
              have hdm := Nat.div_mul_le_self (dataBits std c) (sp.bitWidth * sp.devices)
              rw [← dataBeats_eq (sp := sp) h0] at hdm
              have hlt : dataBeats std sp c - 1 - (k - c.t * sp.dataRate) + 1 ≤ dataBeats std sp c := by omega
              have := Nat.mul_le_mul_right (sp.bitWidth * sp.devices) hlt
              rw [Nat.add_mul, Nat.one_mul] at this
              omega
            · rw [if_neg hk, if_neg (by simp; omega)]
              exact hl k
          · rw [if_neg hr, if_neg (by simp; exact fun h => absurd h.symm hr)]
            exact hl

/-! ## Toggling-rate mode -/

/-- Accepted transfers do not overlap, so they are in order. -/
theorem transfers_timed : ∀ {bs : List (Nat × Nat)} {h h' : Toggling} {lo : Nat}, h.enabled = true → (h.handled = true ∧ lo = 0 ∨ h.handled = false ∧ lo = h.lastLoad) →
    h.run (bs.map fun b => .transfer b.1 b.2) = .ok h' → ToggleTimed h.datarate lo (bs.map fun b => .transfer b.1 b.2)
  | [], _, _, _, _, _, _ => trivial
  | b :: bs, h, h', lo, he, hl, hr => by
    rw [List.map_cons, Toggling.run] at hr
    split at hr
    rotate_left
    · cases hr
    rename_i h1 hb
    simp only [Toggling.step, Toggling.incBits] at hb
    split at hb
    · cases hb
    split at hb
    · cases hb
    unfold Toggling.incBurst at hb
    simp only [he, if_true] at hb
    split at hb
    · cases hb
    rename_i hov
    cases hb
    refine ⟨?_, ?_⟩
    · rcases hl with ⟨_, e⟩ | ⟨e1, e2⟩
      · omega
      · simp [e1] at hov
        omega
    · exact transfers_timed (bs := bs) (h := { h with enabled := true, count := _, lastLength := _, lastLoad := b.1 * h.datarate, handled := false }) rfl (.inr ⟨rfl, rfl⟩) hr

/-- What a trace does to the toggling-rate models. -/
theorem run_toggle (ht : sp.toggling.isSome = true) (r : Bool) : ∀ (ops : List IfOp) {i i' : Interface std N} {m : Setting},
    Shaped sp i → Set6 m i → DataOk i.dataBus → i.run sp ops = .ok i' →
    ∃ bs : List (Nat × Nat), (i.dataBus.toggle (dirOf r)).run (bs.map fun b => .transfer b.1 b.2) = .ok (i'.dataBus.toggle (dirOf r)) ∧
      (∀ t bits, (t, bits) ∈ bs → ∃ c, .cmd c ∈ ops ∧ direction c.type ≠ none ∧ t = c.t) ∧
      (0 < sp.bitWidth * sp.devices → bs.map (fun b => (b.1, b.2 / (sp.bitWidth * sp.devices))) = bursts std sp r ops)
  | [], i, i', m, _, _, _, h => by
    cases h
    exact ⟨[], rfl, by simp, fun _ => rfl⟩
  | op :: ops, i, i', m, hs, hi, hok, h => by
    obtain ⟨j, h1, h2⟩ := Interface.run_cons h
    have k := step_data hs hi h1
    have hs' := (step_clocks hs h1).shaped
    have hmode : i.dataBus.mode = .toggling := hs.mode.trans ((mode_toggling sp).2 ht)
    rcases k.sent with ⟨e, hnone⟩ | ⟨c, read, x, e, hd, hrun, hcall⟩
    · obtain ⟨bs, r1, r2, r3⟩ := run_toggle ht r ops hs' k.set (by rw [e]; exact hok) h2
      refine ⟨bs, by rw [← e]; exact r1, fun t b hb => ?_, fun hw => ?_⟩
      · obtain ⟨c, hc, q⟩ := r2 t b hb
        exact ⟨c, by simp [hc], q⟩
      · rw [r3 hw]
        unfold bursts
        rw [List.filterMap_cons]
        have : burstOf std sp r op = none := by
          cases op with
          | cmd c =>
            unfold burstOf
            dsimp only
            split
            · rename_i hdir
              have := (hnone c rfl (by rw [hdir]; simp)).2
              rw [this] at ht
              cases ht
            · rfl
          | _ => rfl
        rw [this]
    · obtain ⟨d1, d2, d3⟩ := data_run _ hok hrun
      have hb := (d3 (dirOf r)).2
      rw [hmode, toggleShare_one] at hb
      obtain ⟨bs, r1, r2, r3⟩ := run_toggle ht r ops hs' k.set d1 h2
      subst e
      refine ⟨(if r = read then [(c.t, callBits std sp c)] else []) ++ bs, ?_, ?_, fun hw => ?_⟩
      · rw [List.map_append]
        refine (Toggling.run_append ?_).trans r1
        rw [← hb]
        congr 1
        split <;> rfl
      · intro t b hb
        rcases List.mem_append.1 hb with hb | hb
        · split at hb
          · cases List.mem_singleton.1 hb
            exact ⟨c, by simp, by rw [hd]; simp, rfl⟩
          · cases hb
        · obtain ⟨c, hc, q⟩ := r2 t b hb
          exact ⟨c, by simp [hc], q⟩
      · rw [List.map_append, r3 hw]
        unfold bursts
        rw [List.filterMap_cons]
        unfold burstOf
        dsimp only
        rw [hd]
        by_cases hr : r = read
        · subst hr
          rw [if_pos rfl, if_pos rfl]
          have : callBits std sp c / (sp.bitWidth * sp.devices) = dataBeats std sp c := by
            by_cases h0 : c.nBits = 0
            · unfold callBits dataBeats burstBeats
              rw [if_pos h0, if_neg (fun x => x.2 h0), if_pos h0, if_pos ht, Nat.mul_div_cancel _ hw]
            · unfold callBits
              rw [if_neg h0, dataBeats_eq h0]
          simp [this]
        · rw [if_neg hr, if_neg (by simp; exact fun h => hr h.symm)]
          rfl

/-! ## Commands and queries -/

theorem load_last {M : Nat} {b b' : Bus M} {t n : Nat} {x : List UInt8} (he : b.enabled = true) (h : b.load t x n = .ok b') :
    b.lastLoad ≤ b'.lastLoad ∧ b'.lastLoad = t * b.datarate := by
  unfold Bus.load at h
  rw [if_neg (by simp [he])] at h
  split at h
  · cases h
  dsimp only at h
  split at h
  · cases h
  obtain ⟨b1, h1, h2⟩ := bind_ok h
  have e : b'.lastLoad = t * b.datarate := by
    unfold Bus.addData at h2
    obtain ⟨c, g1, g2⟩ := bind_ok h2
    obtain ⟨w, g3, g4⟩ := bind_ok g2
    dsimp only at g4
    split at g4 <;> (cases g4; rfl)
  omega

/-- The command bus is on, and it has not seen anything after `t`. -/
theorem step_late (hb : i.cmdBus.enabled = true) {op : IfOp} (h : i.step sp op = .ok i') :
    i'.cmdBus.enabled = true ∧ i'.cmdBus.datarate = i.cmdBus.datarate ∧ i.cmdBus.lastLoad ≤ i'.cmdBus.lastLoad ∧
      ∀ c, op = .cmd c → direction c.type ≠ none → i'.cmdBus.lastLoad = c.t * i.cmdBus.datarate := by
  have sent : ∀ {j j' : Interface std N} {c : ICmd}, j.cmdBus = i.cmdBus → j.handleCommandBus sp c = .ok j' →
      j'.cmdBus.enabled = true ∧ j'.cmdBus.datarate = i.cmdBus.datarate ∧ i.cmdBus.lastLoad ≤ j'.cmdBus.lastLoad ∧
        j'.cmdBus.lastLoad = c.t * i.cmdBus.datarate := by
    intro j j' c e hj
    obtain ⟨i1, w, n, b, _, h2, e'⟩ := handleCommandBus_ok hj
    subst e'
    rw [e] at h2
    obtain ⟨_, k2, k3, _⟩ := loadWord_keeps h2
    unfold Bus.loadWord at h2
    dsimp only at h2
    split at h2
    · cases h2
    obtain ⟨k4, k5⟩ := load_last hb h2
    exact ⟨k3.trans hb, k2, k4, k5⟩
  have still : ∀ {j : Interface std N}, j.cmdBus = i.cmdBus → (∀ c, op = .cmd c → direction c.type = none) →
      j.cmdBus.enabled = true ∧ j.cmdBus.datarate = i.cmdBus.datarate ∧ i.cmdBus.lastLoad ≤ j.cmdBus.lastLoad ∧
        ∀ c, op = .cmd c → direction c.type ≠ none → j.cmdBus.lastLoad = c.t * i.cmdBus.datarate := by
    intro j e hn
    rw [e]
    exact ⟨hb, rfl, Nat.le_refl _, fun c hc hd => absurd (hn c hc) hd⟩
  cases op with
  | cmd c =>
    obtain ⟨i1, h1, e⟩ := ifCommand_ok h
    cases ha : ifAction sp.arch std c.type with
    | bus =>
      rw [ha] at h1
      obtain ⟨k1, k2, k3, k4⟩ := sent rfl h1
      subst e
      exact ⟨k1, k2, k3, fun c' e _ => by cases e; exact k4⟩
    | data read =>
      rw [ha] at h1
      obtain ⟨j1, len, j2, j3, j4, q1, q2, q3, q4, q5⟩ := handleData_ok h1
      obtain ⟨⟨d, db, pr, pw, f, e1, _, _⟩, _, _, _⟩ := transfer_ok q1
      obtain ⟨r2, w2, e2⟩ := dqs_ok q2
      obtain ⟨wk, e3⟩ := runWck_ok q3
      obtain ⟨a, a6, e4⟩ := overrides_eq j3 len read
      rw [e4] at q4
      obtain ⟨k1, k2, k3, k4⟩ := sent (by rw [e3, e2, e1]) q4
      have p5 : i1.cmdBus = j4.cmdBus := by
        rcases prePostamble_ok q5 with ⟨_, e⟩ | ⟨_, r, r', _, _, e⟩ <;> rw [e]
      subst e
      show i1.cmdBus.enabled = true ∧ i1.cmdBus.datarate = _ ∧ _ ≤ i1.cmdBus.lastLoad ∧ ∀ c', _ → _ → i1.cmdBus.lastLoad = _
      rw [p5]
      exact ⟨k1, k2, k3, fun c' e _ => by cases e; exact k4⟩
    | finish =>
      rw [ha] at h1
      have hd := direction_other (a := sp.arch) (std := std) (ty := c.type) (by simp [ha]) (by simp [ha])
      obtain ⟨d, pr, pw, e1, _, _⟩ := endOfSimulation_ok h1
      subst e; subst e1
      exact still rfl fun c' e => by cases e; exact hd
    | skip =>
      rw [ha] at h1
      have hd := direction_other (a := sp.arch) (std := std) (ty := c.type) (by simp [ha]) (by simp [ha])
      cases h1
      subst e
      exact still rfl fun c' e => by cases e; exact hd
    | unsupported => rw [ha] at h1; cases h1
    | invalid => rw [ha] at h1; cases h1
  | dbi e => cases h; exact still rfl fun _ e => by cases e
  | metaData a b => cases h; exact still rfl fun _ e => by cases e
  | parity b =>
    simp only [Interface.step, Interface.setParityCheckMode] at h
    split at h
    · cases h; exact still rfl fun _ e => by cases e
    · cases h
  | enable t =>
    simp only [Interface.step] at h
    cases he : i.enabled with
    | true =>
      unfold Interface.enable at h
      rw [if_pos he] at h
      cases h
      exact still rfl fun _ e => by cases e
    | false =>
      obtain ⟨w, k, _, _, e⟩ := enable_ok he h
      subst e
      exact still rfl fun _ e => by cases e
  | disable t =>
    simp only [Interface.step] at h
    cases he : i.enabled with
    | false =>
      unfold Interface.disable at h
      rw [if_pos he] at h
      cases h
      exact still rfl fun _ e => by cases e
    | true =>
      obtain ⟨w, k, _, _, e⟩ := disable_ok he h
      subst e
      exact still rfl fun _ e => by cases e

theorem run_late : ∀ (ops : List IfOp) {i i' : Interface std N}, i.cmdBus.enabled = true → i.run sp ops = .ok i' →
    i'.cmdBus.datarate = i.cmdBus.datarate ∧ i.cmdBus.lastLoad ≤ i'.cmdBus.lastLoad ∧
      ∀ c, .cmd c ∈ ops → direction c.type ≠ none → c.t * i.cmdBus.datarate ≤ i'.cmdBus.lastLoad
  | [], i, i', _, h => by
    cases h
    exact ⟨rfl, Nat.le_refl _, by simp⟩
  | op :: ops, i, i', hb, h => by
    obtain ⟨j, h1, h2⟩ := Interface.run_cons h
    obtain ⟨k1, k2, k3, k4⟩ := step_late hb h1
    obtain ⟨r1, r2, r3⟩ := run_late ops k1 h2
    rw [k2] at r1 r3
    refine ⟨r1, by omega, fun c hc hd => ?_⟩
    rcases List.mem_cons.1 hc with e | hc
    · rw [← k4 c e.symm hd]; exact r2
    · exact r3 c hc hd

/-- An accepted query is not before any transfer. -/
theorem query_late {t : Nat} {s s' : SimStats} (hi : Interface.init std N sp = .ok i) (hr : i.run sp ops = .ok i')
    (hs : i'.getWindowStats sp t s = .ok s') : ∀ c, .cmd c ∈ ops → direction c.type ≠ none → c.t ≤ t := by
  intro c hc hd
  obtain ⟨_, _, hb, _⟩ := init_parts hi
  have hd0 : 0 < caRate std := by cases std <;> decide
  obtain ⟨_, _, h2, _, h4, _⟩ := bus_init_inv (show 0 < caWidth std by cases std <;> decide) (Nat.le_refl _) hd0 hb
  obtain ⟨r1, _, r3⟩ := run_late ops h4 hr
  have := r3 c hc hd
  have hq := (windowStats_ok hs).1
  unfold Bus.getStats at hq
  dsimp only at hq
  split at hq
  · cases hq
  · rename_i hlt
    rw [r1, h2] at hlt
    rw [h2] at this
    exact Nat.le_of_mul_le_mul_right (Nat.le_trans this (Nat.not_lt.1 hlt)) hd0

end DRAMPower
