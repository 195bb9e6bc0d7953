import Verif.Lemmas.CommandLevel

/-!
# The command bus during a trace
-/

namespace DRAMPower
open Spec
variable {std : Std} {N : Nat} {sp : IfSpec} {i i' : Interface std N} {c : ICmd}

/-- The encoder has been changed by transfers only. -/
structure CaInv (sp : IfSpec) (i : Interface std N) : Prop where
  settings : ∃ calls, i.ca.settings = settingsAfter std calls
  groups : i.ca6.extra.numberOfBankGroups = sp.bankGroups

/-- The encoder knows the transfer of the command it is about to encode. -/
structure CaReady (sp : IfSpec) (i : Interface std N) (c : ICmd) : Prop where
  settings : std ≠ .lpddr6 → ∃ calls, i.ca.settings = settingsAfter std (calls ++ ownTransfer std sp c)
  groups : i.ca6.extra.numberOfBankGroups = sp.bankGroups
  length : std = .lpddr6 → direction c.type ≠ none → i.ca6.extra.currentBurstLength = dataBeats .lpddr6 sp c

theorem sent_beats {a : BankArch} {ty : CmdType} (h : ifAction a std ty = .bus ∨ ∃ read, ifAction a std ty = .data read) :
    caBeats std ty ≠ 0 := by
  have : ifAction a std ty = .bus ∨ ifAction a std ty = .data true ∨ ifAction a std ty = .data false := by
    rcases h with h | ⟨read, h⟩
    · exact .inl h
    · cases read
      · exact .inr (.inr h)
      · exact .inr (.inl h)
  revert this
  clear h
  cases std <;> cases a <;> cases ty <;> decide

theorem unsent_beats {a : BankArch} {ty : CmdType} (h : ifAction a std ty = .finish ∨ ifAction a std ty = .skip) : caBeats std ty = 0 := by
  revert h
  cases std <;> cases a <;> cases ty <;> decide

/-- Level of a position of the pattern. -/
def caPosition (std : Std) (sp : IfSpec) (c : ICmd) (k : Nat) : Bool :=
  if std = .lpddr6 then ((lpddr6Patterns c.type)[k]?.map (sentLevel6 sp c)).getD false
  else ((patterns sp.arch std c.type)[k]?.map (sentLevel std sp c)).getD false

/-- The encoded word. -/
theorem encoded_bits (hr : CaReady sp i c) (hrow : std = .lpddr4 → c.type = .ACT → c.co.row.testBit 18 = false)
    (hc : caBeats std c.type ≠ 0) {w : BitVec 64} {n : Nat} {i1 : Interface std N} (h : i.encodeCommand sp c = .ok (i1, w, n)) :
    n = caBeats std c.type * caWidth std ∧ n ≤ 64 ∧ (∀ k < n, w.getLsbD (n - 1 - k) = caPosition std sp c k) ∧
    i1.ca.settings = i.ca.settings ∧ i1.ca6.extra = i.ca6.extra := by
  unfold caPosition
  rcases encodeCommand_ok h with ⟨h6, hn, k, hk, e⟩ | ⟨h6, hn, k, hk, e⟩
  · unfold CaHandler6.command at hk
    split at hk
    · cases hk
    split at hk
    · cases hk
    rename_i hp
    obtain ⟨w', h1, h2⟩ := bind_ok hk
    have h2 := pure_ok h2
    simp only [Prod.mk.injEq] at h2
    obtain ⟨e1, e2⟩ := h2
    subst e2
    obtain ⟨_, t2, t3⟩ := table_size sp.arch std c.type (by unfold encodable; rw [if_pos h6]; simp [hp]) hc
    have hlen : n = caBeats std c.type * caWidth std := by
      rcases t2 with ⟨t, _⟩ | ⟨_, _, t⟩
      · exact absurd h6 t
      · rw [hn, t]
    have ha : Accepts6 i.ca6.extra (lpddr6Patterns c.type) c.co6 := by
      unfold encode6 at h1
      split at h1
      · cases h1
      rename_i a1
      split at h1
      · cases h1
      rename_i a2
      dsimp only at h1
      split at h1
      · cases h1
      split at h1
      · cases h1
      rename_i a3
      refine ⟨a1, by simpa using a2, fun hm => ?_⟩
      rcases Classical.em (24 = i.ca6.extra.currentBurstLength ∨ 48 = i.ca6.extra.currentBurstLength) with h | h
      · exact h.imp Eq.symm Eq.symm
      · exact absurd ⟨hm, h⟩ a3
    obtain ⟨w2, q1, q2, _⟩ := encode6_bits c.type i.ca6.extra c.co6 hp ha
    rw [h1] at q1
    cases q1
    refine ⟨hlen, by rw [hlen]; exact t3, fun j hj => ?_, by rw [e], by rw [e, ← e1]⟩
    rw [hn] at hj ⊢
    have := q2 j hj
    unfold Spec.position at this
    rw [if_pos h6, this, List.getElem?_eq_getElem hj]
    exact sent_bit6 hr.groups (hr.length h6) (List.getElem_mem hj)
  · unfold CaHandler.command at hk
    split at hk
    · cases hk
    split at hk
    · cases hk
    rename_i hp
    obtain ⟨w', h1, h2⟩ := bind_ok hk
    have h2 := pure_ok h2
    simp only [Prod.mk.injEq] at h2
    obtain ⟨e1, e2⟩ := h2
    subst e2
    obtain ⟨_, t2, t3⟩ := table_size sp.arch std c.type (by unfold encodable; rw [if_neg h6]; simp [hp]) hc
    have hlen : n = caBeats std c.type * caWidth std := by
      rcases t2 with ⟨_, _, t⟩ | ⟨t, _⟩
      · rw [hn, t]
      · exact absurd t h6
    have h64 : n ≤ 64 := by rw [hlen]; exact t3
    obtain ⟨w2, q1, q2, _⟩ := encode_bits c.co (patterns sp.arch std c.type) i.ca.settings i.ca.lastPattern hp (by rw [← hn]; exact h64)
    rw [h1] at q1
    cases q1
    refine ⟨hlen, h64, fun j hj => ?_, by rw [e, ← e1], by rw [e]⟩
    rw [hn] at hj ⊢
    rw [if_neg h6, q2 j hj, List.getElem?_eq_getElem hj]
    obtain ⟨calls, hcalls⟩ := hr.settings h6
    rw [hcalls]
    exact sent_bit h6 calls _ (List.getElem_mem hj) hrow

theorem commandWires_eq (std : Std) : commandWires std = caWidth std := by cases std <;> rfl

theorem commandRate_eq (std : Std) : commandRate std = caRate std := by cases std <;> rfl

/-- A burst that carries a command. -/
def CaCall (std : Std) (sp : IfSpec) (c : ICmd) (op : BusOp) : Prop :=
  caBeats std c.type ≠ 0 ∧ ∃ data, op = .load c.t data (caBeats std c.type * caWidth std) ∧
    ∀ b < caBeats std c.type, ∀ j < caWidth std, lastFirst (caWidth std) data (caBeats std c.type) b j = caWires std sp c b j

theorem caWidth_pos (std : Std) : 0 < caWidth std := by cases std <;> decide

theorem handleCommandBus_call (hs : i.cmdBus.width = caWidth std) (hr : CaReady sp i c)
    (hrow : std = .lpddr4 → c.type = .ACT → c.co.row.testBit 18 = false) (hc : caBeats std c.type ≠ 0) (h : i.handleCommandBus sp c = .ok i') :
    ∃ op, CaCall std sp c op ∧ i.cmdBus.step op = .ok i'.cmdBus ∧ i'.ca.settings = i.ca.settings ∧ i'.ca6.extra = i.ca6.extra := by
  obtain ⟨i1, w, n, b, h1, h2, e⟩ := handleCommandBus_ok h
  obtain ⟨e1, e2, e3, e4, e5⟩ := encoded_bits hr hrow hc h1
  have hw := caWidth_pos std
  subst e
  rw [hs, e1, Nat.mul_div_cancel _ hw] at h2
  unfold Bus.loadWord at h2
  dsimp only at h2
  rw [hs, if_neg (by rw [← e1]; omega)] at h2
  refine ⟨_, ⟨hc, _, rfl, fun b hb j hj => ?_⟩, h2, e4, e5⟩
  rw [e1] at e2 e3
  have hlt : (caBeats std c.type - 1 - b) * caWidth std + j < caBeats std c.type * caWidth std := by
    have : (caBeats std c.type - 1 - b + 1) * caWidth std ≤ caBeats std c.type * caWidth std := Nat.mul_le_mul_right _ (by omega)
    rw [Nat.add_mul, Nat.one_mul] at this
    omega
  unfold lastFirst payloadWord
  rw [bitOf_leBytes _ _ _ (by omega), show ∀ x k : Nat, (x / 2 ^ k % 2 == 1) = x.testBit k from fun x k => (Nat.testBit_eq_decide_div_mod_eq).symm ▸ rfl]
  have hk : b * caWidth std + (caWidth std - 1 - j) < caBeats std c.type * caWidth std := by
    have : (b + 1) * caWidth std ≤ caBeats std c.type * caWidth std := Nat.mul_le_mul_right _ (by omega)
    rw [Nat.add_mul, Nat.one_mul] at this
    omega
  have := e3 _ hk
  have hpos : caBeats std c.type * caWidth std - 1 - (b * caWidth std + (caWidth std - 1 - j)) = (caBeats std c.type - 1 - b) * caWidth std + j := by
    have hm : caBeats std c.type = (caBeats std c.type - 1 - b) + b + 1 := by omega
    have : caBeats std c.type * caWidth std = (caBeats std c.type - 1 - b) * caWidth std + b * caWidth std + caWidth std := by
      conv => lhs; rw [hm]
      rw [Nat.add_mul, Nat.add_mul, Nat.one_mul]
    omega
  rw [hpos] at this
  unfold caWires
  rw [commandWires_eq]
  exact this

/-- What a step does to the command bus. -/
structure CaStep (sp : IfSpec) (i : Interface std N) (op : IfOp) (i' : Interface std N) (calls : List BusOp) : Prop where
  inv : CaInv sp i'
  run : i.cmdBus.run calls = .ok i'.cmdBus
  sent : calls = [] ∧ (∀ c, op = .cmd c → caBeats std c.type = 0) ∨ ∃ c b, op = .cmd c ∧ calls = [b] ∧ CaCall std sp c b

theorem bus_run_one {M : Nat} {b b' : Bus M} {op : BusOp} (h : b.step op = .ok b') : b.run [op] = .ok b' := by
  unfold Bus.run; rw [h]; rfl

theorem ownTransfer_other (h : direction c.type = none) : ownTransfer std sp c = [] := by unfold ownTransfer; rw [h]

theorem step_command (hs : Shaped sp i) (hi : CaInv sp i) {op : IfOp}
    (hrow : ∀ c, op = .cmd c → std = .lpddr4 → c.type = .ACT → c.co.row.testBit 18 = false) (h : i.step sp op = .ok i') :
    ∃ calls, CaStep sp i op i' calls := by
  have still : ∀ {j : Interface std N}, (∀ c, op = .cmd c → caBeats std c.type = 0) → j.ca = i.ca → j.ca6.extra.numberOfBankGroups = i.ca6.extra.numberOfBankGroups →
      j.cmdBus = i.cmdBus → ∃ calls, CaStep sp i op j calls := by
    intro j h0 h1 h2 h3
    exact ⟨[], ⟨by rw [h1]; exact hi.settings, by rw [h2]; exact hi.groups⟩, by rw [h3]; rfl, .inl ⟨rfl, h0⟩⟩
  cases op with
  | cmd c =>
    obtain ⟨i1, h1, e⟩ := ifCommand_ok h
    cases ha : ifAction sp.arch std c.type with
    | bus =>
      rw [ha] at h1
      have hd := direction_other (a := sp.arch) (std := std) (ty := c.type) (by simp [ha]) (by simp [ha])
      obtain ⟨calls, hcalls⟩ := hi.settings
      have hr : CaReady sp i c := ⟨fun _ => ⟨calls, by rw [ownTransfer_other hd, List.append_nil]; exact hcalls⟩, hi.groups, fun _ h => absurd hd h⟩
      obtain ⟨b, c1, c2, c3, c4⟩ := handleCommandBus_call hs.ca hr (hrow c rfl) (sent_beats (.inl ha)) h1
      subst e
      exact ⟨[b], ⟨⟨calls, c3.trans hcalls⟩, by rw [show ({ i1 with last := c.t } : Interface std N).ca6.extra = i.ca6.extra from c4]; exact hi.groups⟩, bus_run_one c2, .inr ⟨c, b, rfl, rfl, c1⟩⟩
    | data read =>
      rw [ha] at h1
      have hd := direction_data ha
      obtain ⟨j1, len, j2, j3, j4, k1, k2, k3, k4, k5⟩ := handleData_ok h1
      obtain ⟨⟨d, db, pr, pw, f, q1, _, _⟩, _, _, _⟩ := transfer_ok k1
      have hl := transfer_beats hs k1
      obtain ⟨r2, w2, q2⟩ := dqs_ok k2
      obtain ⟨wk, q3⟩ := runWck_ok k3
      have p3 : j3.ca = i.ca ∧ j3.ca6 = i.ca6 ∧ j3.cmdBus = i.cmdBus := by
        rw [q3, q2, q1]; exact ⟨rfl, rfl, rfl⟩
      obtain ⟨calls, hcalls⟩ := hi.settings
      have ho : (j3.overrides len read).cmdBus = i.cmdBus ∧ (j3.overrides len read).ca6.extra.numberOfBankGroups = sp.bankGroups ∧
          (∃ cs, (j3.overrides len read).ca.settings = settingsAfter std cs) ∧ CaReady sp (j3.overrides len read) c := by
        unfold Interface.overrides
        split
        · rename_i h6
          refine ⟨p3.2.2, by dsimp only; rw [p3.2.1]; exact hi.groups, ⟨calls, by dsimp only; rw [p3.1]; exact hcalls⟩, fun h => absurd h6 h, ?_, fun _ _ => ?_⟩
          · dsimp only; rw [p3.2.1]; exact hi.groups
          · subst h6; exact hl
        · rename_i h6
          have hset : handleOverrides j3.ca.settings len read std = settingsAfter std (calls ++ ownTransfer std sp c) := by
            unfold ownTransfer
            rw [hd]
            dsimp only
            rw [settingsAfter_snoc, p3.1, hcalls, hl]
          exact ⟨p3.2.2, by dsimp only; rw [p3.2.1]; exact hi.groups, ⟨_, hset⟩, fun _ => ⟨calls, hset⟩, by dsimp only; rw [p3.2.1]; exact hi.groups, fun h => absurd h h6⟩
      obtain ⟨o1, o2, ⟨cs, o3⟩, o4⟩ := ho
      obtain ⟨b, c1, c2, c3, c4⟩ := handleCommandBus_call (o1 ▸ hs.ca) o4 (hrow c rfl) (sent_beats (.inr ⟨read, ha⟩)) k4
      have p5 : i1.ca = j4.ca ∧ i1.ca6 = j4.ca6 ∧ i1.cmdBus = j4.cmdBus := by
        rcases prePostamble_ok k5 with ⟨_, e⟩ | ⟨_, r, r', _, _, e⟩
        · rw [e]; exact ⟨rfl, rfl, rfl⟩
        · rw [e]; exact ⟨rfl, rfl, rfl⟩
      subst e
      refine ⟨[b], ⟨⟨cs, ?_⟩, ?_⟩, ?_, .inr ⟨c, b, rfl, rfl, c1⟩⟩
      · show i1.ca.settings = _
        rw [p5.1, c3, o3]
      · show i1.ca6.extra.numberOfBankGroups = _
        rw [p5.2.1, c4, o2]
      · show i.cmdBus.run [b] = .ok i1.cmdBus
        rw [p5.2.2, ← o1]
        exact bus_run_one c2
    | finish =>
      rw [ha] at h1
      obtain ⟨d, pr, pw, e1, _, _⟩ := endOfSimulation_ok h1
      subst e; subst e1
      exact still (fun c' e => by cases e; exact unsent_beats (.inl ha)) rfl rfl rfl
    | skip =>
      rw [ha] at h1
      cases h1
      subst e
      exact still (fun c' e => by cases e; exact unsent_beats (.inr ha)) rfl rfl rfl
    | unsupported => rw [ha] at h1; cases h1
    | invalid => rw [ha] at h1; cases h1
  | dbi e => cases h; exact still (fun _ e => by cases e) rfl rfl rfl
  | metaData a b => cases h; exact still (fun _ e => by cases e) rfl rfl rfl
  | parity b =>
    simp only [Interface.step, Interface.setParityCheckMode] at h
    split at h
    · cases h; exact still (fun _ e => by cases e) rfl rfl rfl
    · cases h
  | enable t =>
    simp only [Interface.step] at h
    cases he : i.enabled with
    | true =>
      unfold Interface.enable at h
      rw [if_pos he] at h
      cases h
      exact still (fun _ e => by cases e) rfl rfl rfl
    | false =>
      obtain ⟨w, k, _, _, e⟩ := enable_ok he h
      subst e
      exact still (fun _ e => by cases e) rfl rfl rfl
  | disable t =>
    simp only [Interface.step] at h
    cases he : i.enabled with
    | false =>
      unfold Interface.disable at h
      rw [if_pos he] at h
      cases h
      exact still (fun _ e => by cases e) rfl rfl rfl
    | true =>
      obtain ⟨w, k, _, _, e⟩ := disable_ok he h
      subst e
      exact still (fun _ e => by cases e) rfl rfl rfl

/-- What a trace does to the command bus: bursts whose waveform is that of the specification. -/
theorem run_command : ∀ (ops : List IfOp) {i i' : Interface std N}, Shaped sp i → CaInv sp i →
    (∀ c, .cmd c ∈ ops → std = .lpddr4 → c.type = .ACT → c.co.row.testBit 18 = false) → i.run sp ops = .ok i' →
    ∃ calls, i.cmdBus.run calls = .ok i'.cmdBus ∧ (∀ b ∈ calls, b.IsLoad (caWidth std)) ∧
      (∀ b ∈ calls, ∃ c, .cmd c ∈ ops ∧ caBeats std c.type ≠ 0 ∧ b.time = c.t) ∧
      ∀ (idle : Levels) (l l' : Line), LinesAgree (caWidth std) l l' → LinesAgree (caWidth std) (ops.foldl (caDrive std sp) l)
        (calls.foldl (fun l op => Line.drive (caWidth std) (caRate std) lastFirst idle l op.drive) l')
  | [], i, i', _, _, _, h => by
    cases h
    exact ⟨[], rfl, by simp, by simp, fun _ _ _ h => h⟩
  | op :: ops, i, i', hs, hi, hrow, h => by
    obtain ⟨j, h1, h2⟩ := Interface.run_cons h
    obtain ⟨cs, k⟩ := step_command hs hi (fun c e => hrow c (by simp [e])) h1
    have hs' := (step_clocks hs h1).shaped
    obtain ⟨calls, r1, r2, r3, r4⟩ := run_command ops hs' k.inv (fun c hc => hrow c (by simp [hc])) h2
    have hw := caWidth_pos std
    refine ⟨cs ++ calls, ?_, ?_, ?_, ?_⟩
    · rw [Bus.run_append k.run]; exact r1
    · intro b hb
      rcases List.mem_append.1 hb with hb | hb
      · rcases k.sent with ⟨e, _⟩ | ⟨c, x, e, e', hne, data, ed, _⟩
        · rw [e] at hb; cases hb
        · rw [e'] at hb
          cases List.mem_singleton.1 hb
          rw [ed]
          exact Nat.le_mul_of_pos_left _ (Nat.pos_of_ne_zero hne)
      · exact r2 b hb
    · intro b hb
      rcases List.mem_append.1 hb with hb | hb
      · rcases k.sent with ⟨e, _⟩ | ⟨c, x, e, e', hne, data, ed, _⟩
        · rw [e] at hb; cases hb
        · rw [e'] at hb
          cases List.mem_singleton.1 hb
          exact ⟨c, by simp [e], hne, by rw [ed]; rfl⟩
      · obtain ⟨c, m, q⟩ := r3 b hb
        exact ⟨c, by simp [m], q⟩
    · intro idle l l' hl
      rw [List.foldl_cons, List.foldl_append]
      refine r4 idle _ _ ?_
      rcases k.sent with ⟨e, e0⟩ | ⟨c, x, e, e', hne, data, ed, hwires⟩
      · rw [e]
        cases op with
        | cmd c =>
          intro k
          obtain ⟨a, a', q⟩ := hl k
          refine ⟨a, a', ?_, q.2⟩
          unfold caDrive
          dsimp only
          rw [commandRate_eq, if_neg (by rw [e0 c rfl]; omega)]
          exact q.1
        | _ => exact hl
      · rw [e', e, ed]
        intro k
        simp only [List.foldl_cons, List.foldl_nil, BusOp.drive, Line.drive, caDrive, commandRate_eq, Nat.mul_div_cancel _ hw]
        obtain ⟨_, a0, _, q0, _⟩ := hl (c.t * caRate std)
        rw [q0]
        by_cases hk : c.t * caRate std ≤ k ∧ k < c.t * caRate std + caBeats std c.type
        · rw [if_pos hk, if_pos (by simp [hk.1, hk.2])]
          exact ⟨_, _, rfl, rfl, fun j hj => (hwires _ (by omega) j hj).symm⟩
        · rw [if_neg hk, if_neg (by simp; omega)]
          exact hl k

end DRAMPower
