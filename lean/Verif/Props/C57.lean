import Verif.Spec.Told
import Verif.Lemmas.SimObject
import Verif.Props.C49
import Verif.Props.C52
import Verif.Props.C56

/-!
# C57: what the extensions report is what the data bus does

`Spec.reportedDBI` and `Spec.reportedMeta` say what the extensions have to report, `Spec.toldLine` is the waveform of the data bus if every
transfer is made as they report when it begins.
-/

namespace DRAMPower
open Spec

/-- The property for the sessions `p` admits: settings made through the extensions are reported as made, a refused one is answered with
`false` and changes nothing, and the figures of the data bus are those of transfers made as reported. -/
def C57_statement (p : Std → List SimCall → Prop) : Prop :=
  ∀ (std : Std) (N : Nat) (ms : MemSpec) (sp : IfSpec) (us : List SimCall) (o0 o : SimObject std N),
    SimObject.init std N ms sp = .ok o0 → (∀ u ∈ us, throughExtensions u) → o0.run ms sp us = .ok o → p std us →
    o.step ms sp .isEnabled = .ok (o, .flag (reportedDBI std sp us)) ∧
    o.step ms sp .getMetaData = .ok (o, .words (reportedMeta std us)) ∧
    (∀ e, ∃ o', o.step ms sp (.setDBI e) = .ok (o', .flag (if std = .ddr5 then none else some (inverts std sp)))) ∧
    ∀ t o' s, o.step ms sp (.window t) = .ok (o', .stats s) → sp.toggling = none → sp.bitWidth * sp.devices ≤ N →
      s.readBus = Line.stats (sp.bitWidth * sp.devices) (caIdleLevels std)
        (toldLine std sp true [] (fun _ => some (caIdleLevels std)) us) (t * sp.dataRate) ∧
      s.writeBus = Line.stats (sp.bitWidth * sp.devices) (caIdleLevels std)
        (toldLine std sp false [] (fun _ => some (caIdleLevels std)) us) (t * sp.dataRate)

section
variable {std : Std} {N : Nat} {ms : MemSpec} {sp : IfSpec} {us : List SimCall} {o0 o : SimObject std N}

theorem lastDBI_snoc (us : List SimCall) (u : SimCall) : lastDBI (us ++ [u]) = match u with | .setDBI e => e | _ => lastDBI us := by
  unfold lastDBI
  rw [List.foldl_append]
  rfl

theorem lastMetaData_snoc (us : List SimCall) (u : SimCall) :
    lastMetaData (us ++ [u]) = match u with | .setMetaData a b => (a, b) | _ => lastMetaData us := by
  unfold lastMetaData
  rw [List.foldl_append]
  rfl

/-- Calls on `getInterface()` that are not extension calls leave the setting alone. -/
theorem toldAfter_call {before : List SimCall} {u : SimCall} (hu : throughExtensions u) :
    toldAfter std sp (before ++ [u]) = (ifOps std sp [u]).foldl Setting.after (toldAfter std sp before) := by
  have e : ∀ b m b' m', b = b' → m = m' → told b m = told b' m' := by rintro _ _ _ _ rfl rfl; rfl
  unfold toldAfter reportedDBI reportedMeta
  rw [lastDBI_snoc, lastMetaData_snoc]
  cases u with
  | iface op => cases op <;> first | rfl | exact absurd hu (by simp [throughExtensions])
  | setDBI b => cases std <;> cases b <;> by_cases hw : sp.bitWidth = 4 <;> simp [ifOps, inverts, hw, Setting.after, told]
  | setMetaData a b => cases std <;> simp [ifOps, Setting.after, told]
  | _ => rfl

theorem toldLine_ops (read : Bool) : ∀ (us before : List SimCall) (line : Line), (∀ u ∈ us, throughExtensions u) →
    dataLineFrom std sp read (toldAfter std sp before) line (ifOps std sp us) = toldLine std sp read before line us
  | [], _, _, _ => rfl
  | u :: us, before, line, h => by
    rw [toldLine, ← toldLine_ops read us _ _ fun v hv => h v (List.mem_cons_of_mem _ hv), (ops_cons std sp u us).2,
      toldAfter_call (h u List.mem_cons_self)]
    cases u with
    | setDBI b => by_cases hi : inverts std sp = true <;> simp [ifOps, hi, transferCall, dataLineFrom, dataDrive]
    | setMetaData a b => by_cases hi : std = .lpddr6 <;> simp [ifOps, hi, transferCall, dataLineFrom, dataDrive]
    | _ => simp [ifOps, transferCall, dataLineFrom]

theorem toldMarks_ops (read : Bool) : ∀ (us before : List SimCall), (∀ u ∈ us, throughExtensions u) →
    marked std sp read (toldAfter std sp before) (ifOps std sp us) = toldMarks std sp read before us
  | [], _, _ => rfl
  | u :: us, before, h => by
    rw [toldMarks, ← toldMarks_ops read us _ fun v hv => h v (List.mem_cons_of_mem _ hv), (ops_cons std sp u us).2,
      toldAfter_call (h u List.mem_cons_self)]
    cases u with
    | setDBI b => by_cases hi : inverts std sp = true <;> simp [ifOps, hi, transferCall, marked, markedOf]
    | setMetaData a b => by_cases hi : std = .lpddr6 <;> simp [ifOps, hi, transferCall, marked, markedOf]
    | _ => simp [ifOps, transferCall, marked]

/-- The flag the extension keeps. -/
theorem flag_fold : ∀ (us before : List SimCall),
    us.foldl (flagAfter std sp) (inverts std sp && lastDBI before) = (inverts std sp && lastDBI (before ++ us))
  | [], before => by simp
  | u :: us, before => by
    have : flagAfter std sp (inverts std sp && lastDBI before) u = (inverts std sp && lastDBI (before ++ [u])) := by
      rw [lastDBI_snoc]
      cases u with
      | setDBI e => by_cases hi : inverts std sp = true <;> simp [flagAfter, hi]
      | _ => rfl
    rw [List.foldl_cons, this, flag_fold us (before ++ [u]), List.append_assoc]
    rfl

/-- The words the interface keeps. -/
theorem words_run {i i' : Interface .lpddr6 N} (hi : i.formatter.metaData = lastMetaData []) (ht : ∀ u ∈ us, throughExtensions u)
    (h : i.run sp (ifOps .lpddr6 sp us) = .ok i') : i'.formatter.metaData = lastMetaData us := by
  have e := (meta_run h).1
  rw [hi] at e
  rw [e]
  have : ∀ (us before : List SimCall), (∀ u ∈ us, throughExtensions u) →
      (ifOps .lpddr6 sp us).foldl metaStep (lastMetaData before) = lastMetaData (before ++ us) := by
    intro us
    induction us with
    | nil => intro before _; simp [ifOps]
    | cons u us ih =>
      intro before h
      have k : (ifOps .lpddr6 sp [u]).foldl metaStep (lastMetaData before) = lastMetaData (before ++ [u]) := by
        rw [lastMetaData_snoc]
        have hu := h u List.mem_cons_self
        cases u with
        | iface op => cases op <;> first | rfl | exact absurd hu (by simp [throughExtensions])
        | setDBI b => by_cases hi : inverts .lpddr6 sp = true <;> simp [ifOps, hi, metaStep]
        | setMetaData a b => rfl
        | _ => rfl
      rw [(ops_cons _ sp u us).2, List.foldl_append, k, ih _ fun v hv => h v (List.mem_cons_of_mem _ hv), List.append_assoc]
      rfl
  exact this us [] ht

/-- What a window query of a simulator asks the interface. -/
theorem window_stats {t : Nat} {o' : SimObject std N} {s : SimStats} (h : o.step ms sp (.window t) = .ok (o', .stats s)) :
    ∃ c : CoreStats, o.sim.interface.getWindowStats sp t c.toSim = .ok s := by
  simp only [SimObject.step, Simulator.getWindowStats] at h
  obtain ⟨x, hx, h⟩ := bind_ok h
  obtain ⟨st, hs, hx⟩ := bind_ok hx
  cases pure_ok hx
  cases pure_ok h
  exact ⟨_, hs⟩

theorem toldAfter_nil : toldAfter std sp [] = {} := by
  cases std <;> simp [toldAfter, reportedDBI, reportedMeta, lastDBI, lastMetaData, told]

/-- All sessions, but LPDDR6 ones that turn inversion on (their bursts are not inverted as they should be, `C57_violation`). -/
theorem C57_partial : C57_statement fun std us => std = .lpddr6 → .setDBI true ∉ us := by
  intro std N ms sp us o0 o h0 ht hr hp
  obtain ⟨x1, _, x3⟩ := init_parts_ext h0
  obtain ⟨_, y2, y3⟩ := run_parts x1 hr
  have hf := flag_fold (std := std) (sp := sp) us []
  rw [show lastDBI [] = false from rfl, Bool.and_false, List.nil_append] at hf
  rw [hf] at y3
  refine ⟨?_, ?_, ?_, ?_⟩
  · simp only [SimObject.step, SimObject.isEnabled]
    rw [y3, shape_getDBI]
    rfl
  · simp only [SimObject.step, SimObject.getMetaData, Formatter.getMetaData]
    rw [y3, shape_getMeta]
    by_cases h6 : std = .lpddr6
    · subst h6
      rw [words_run (DbiOff.start x3).2.1 ht y2]
      rfl
    · simp only [reportedMeta, if_neg h6]
  · intro e
    simp only [SimObject.step, SimObject.setDBI]
    rw [y3, shape_hasDBI]
    unfold dbiCallback
    by_cases hw : sp.bitWidth = 4 <;> cases std <;> simp [inverts, hw]
  · intro t o' s hq htg hN
    obtain ⟨c, hq⟩ := window_stats hq
    have hno : std = .lpddr6 → IfOp.dbi true ∉ ifOps std sp us := by
      intro h6 hm
      obtain ⟨u, hu, e⟩ := List.mem_filterMap.1 hm
      have hu' := ht u hu
      cases u with
      | command c => cases e
      | iface op => cases e; exact hu'
      | setDBI b =>
        dsimp only at e
        split at e
        · cases e; exact hp h6 hu
        · cases e
      | setMetaData a b =>
        dsimp only at e
        split at e <;> cases e
      | _ => cases e
    obtain ⟨k1, k2, _⟩ := C49_partial std N sp _ _ _ t _ s htg hN x3 y2 hq hno
    have hl : ∀ r, dataLine std sp r (ifOps std sp us) = toldLine std sp r [] (fun _ => some (caIdleLevels std)) us := by
      intro r
      rw [← toldLine_ops r us [] _ ht, toldAfter_nil]
      rfl
    rw [hl] at k1 k2
    exact ⟨k1.trans (BusStats.zero_add _), k2.trans (BusStats.zero_add _)⟩

/-- The inversion pins: flagged are the bytes of transfers made while the extension reports "on". Missing from the full statement: the windows
and sessions that `C52_partial` leaves out (`C52_violation_*`). -/
theorem C57_pins_partial (h0 : SimObject.init std N ms sp = .ok o0) (ht : ∀ u ∈ us, throughExtensions u) (hr : o0.run ms sp us = .ok o)
    (hw : WholeBeats sp (ifOps std sp us)) (he : Ends (ifOps std sp us))
    (hs : ∀ read, Settling (inversionPins std sp) (toldMarks std sp read [] us))
    {t : Nat} {o' : SimObject std N} {s : SimStats} (hq : o.step ms sp (.window t) = .ok (o', .stats s)) :
    s.readDBI = markStats std sp (toldMarks std sp true [] us) (t * 2) {} ∧
    s.writeDBI = markStats std sp (toldMarks std sp false [] us) (t * 2) {} := by
  obtain ⟨x1, _, x3⟩ := init_parts_ext h0
  obtain ⟨_, y2, _⟩ := run_parts x1 hr
  obtain ⟨c, hq⟩ := window_stats hq
  have hl : ∀ r, marked std sp r {} (ifOps std sp us) = toldMarks std sp r [] us := by
    intro r
    rw [← toldMarks_ops r us [] ht, toldAfter_nil]
  obtain ⟨k1, k2⟩ := C52_partial std N sp _ _ _ t _ s x3 y2 hq hw he fun r => by rw [hl]; exact hs r
  rw [hl] at k1 k2
  exact ⟨k1, k2⟩
/-! ## After restoring -/

theorem replies_run : ∀ {us vs : List SimCall} {o o' : SimObject std N}, o.run ms sp us = .ok o' →
    replies ms sp o (us ++ vs) = ((replies ms sp o us).1 ++ (replies ms sp o' vs).1, (replies ms sp o' vs).2)
  | [], vs, o, o', h => by cases h; simp [replies]
  | u :: us, vs, o, o', h => by
    simp only [SimObject.run] at h
    simp only [List.cons_append, replies]
    split at h
    · rename_i o1 r he
      rw [he]
      simp only [replies_run h]
      rfl
    · cases h

theorem run_replies : ∀ {us : List SimCall} {o : SimObject std N}, (replies ms sp o us).2 = none → ∃ o', o.run ms sp us = .ok o'
  | [], o, _ => ⟨o, rfl⟩
  | u :: us, o, h => by
    simp only [replies] at h
    simp only [SimObject.run]
    split at h
    · rename_i o1 r he
      rw [he]
      exact run_replies h
    · cases h

theorem run_split : ∀ {us vs : List SimCall} {o o' : SimObject std N}, o.run ms sp (us ++ vs) = .ok o' →
    ∃ o1, o.run ms sp us = .ok o1 ∧ o1.run ms sp vs = .ok o'
  | [], _, o, _, h => ⟨o, rfl, h⟩
  | u :: us, vs, o, o', h => by
    simp only [List.cons_append, SimObject.run] at h ⊢
    split at h
    · exact run_split h
    · cases h

theorem run_join : ∀ {us vs : List SimCall} {o o1 o' : SimObject std N}, o.run ms sp us = .ok o1 → o1.run ms sp vs = .ok o' →
    o.run ms sp (us ++ vs) = .ok o'
  | [], _, o, o1, o', h, h' => by cases h; exact h'
  | u :: us, vs, o, o1, o', h, h' => by
    simp only [List.cons_append, SimObject.run] at h ⊢
    split at h
    · exact run_join h h'
    · cases h

/-- What a simulator with the same replies answers to one more call. -/
theorem reply_same {later : List SimCall} {u : SimCall} {p p2 p3 : SimObject std N} {r : SimReply}
    (hs : replies ms sp p (later ++ [u]) = replies ms sp o (later ++ [u])) (hr : p.run ms sp later = .ok p2)
    (hu : p2.step ms sp u = .ok (p3, r)) : ∃ o2 o3, o.run ms sp later = .ok o2 ∧ o2.step ms sp u = .ok (o3, r) := by
  have h1 := replies_run (vs := [u]) hr
  simp only [replies, hu] at h1
  rw [h1] at hs
  obtain ⟨o3, ho3⟩ := run_replies (us := later ++ [u]) (by rw [← hs])
  obtain ⟨o2, ho2, ho⟩ := run_split ho3
  have h2 := replies_run (vs := [u]) ho2
  rw [← hs] at h2
  simp only [SimObject.run] at ho
  split at ho
  · rename_i o4 r' he
    refine ⟨o2, o4, ho2, ?_⟩
    simp only [replies, he] at h2
    have h3 := congrArg (fun x => x.1.getLast?) h2
    simp only [List.getLast?_append, List.getLast?_singleton, Option.some_or, Option.some.injEq] at h3
    rw [he, h3]
  · cases ho

/-- What is saved of the simulator is all there is: always for DDR5; for DDR4 if the last beats its inverter remembers can be read back; for
the others if inversion has never been on, and metadata and enabling are as constructed. -/
def SavedWhole (sp : IfSpec) (before : List SimCall) (o : SimObject std N) : Prop :=
  std = .ddr5 ∨ (std = .ddr4 ∧ ∀ read, ∀ b ∈ (o.sim.interface.dbi.last read).lastbeat, b = 0 ∨ b = 1) ∨
    (IfOp.dbi true ∉ ifOps std sp before ∧ metaAfter (ifOps std sp before) = (0, 0) ∧ onAfter sp.enabled (ifOps std sp before) = sp.enabled)

theorem saved_whole {k : Codec} {before : List SimCall} (hk : Faithful k sp) (h0 : SimObject.init std N ms sp = .ok o0)
    (hc : ∀ u ∈ before, callable std u) (hr : o0.run ms sp before = .ok o) (hq : o.isSerializable = true) (hfc : o.sim.core.Fits ms)
    (hfi : o.sim.interface.Fits k) (hs : SavedWhole sp before o) :
    ∃ bytes p, o.serialize k ms [] = .ok bytes ∧ o0.deserialize k ms bytes = some (p, []) ∧
      ∀ later, definedSession ms sp o later → replies ms sp p later = replies ms sp o later := by
  have fin : ∀ {w : Bytes}, o.serialize k ms [] = .ok ([] ++ w) → (∀ rest, ∃ p, o0.deserialize k ms (w ++ rest) = some (p, rest) ∧
      ∀ later, definedSession ms sp o later → replies ms sp p later = replies ms sp o later) →
      ∃ bytes p, o.serialize k ms [] = .ok bytes ∧ o0.deserialize k ms bytes = some (p, []) ∧
        ∀ later, definedSession ms sp o later → replies ms sp p later = replies ms sp o later := by
    intro w e g
    obtain ⟨p, hp, hl⟩ := g []
    exact ⟨w, p, e, by rw [List.append_nil] at hp; exact hp, hl⟩
  rcases hs with rfl | ⟨rfl, hb⟩ | ⟨h1, h2, h3⟩
  · exact C56_ddr5 N ms sp k before o0 o hk h0 hc hr hq hfc hfi
  · obtain ⟨w, e, g⟩ := C56_ddr4_partial hk h0 hc hr hq hfc hfi hb []
    exact fin e g
  · obtain ⟨w, e, g⟩ := C56_partial hk h0 hc hr hq hfc hfi h1 h2 h3 []
    exact fin e g

/-- A session that is saved, restored into a new simulator and continued: extensions and data bus as if nothing had happened. Missing from
the property: what is not saved (`SavedWhole`; `C57_violation_restored`), and inversion of LPDDR6. -/
theorem C57_restored_partial {k : Codec} {before later : List SimCall} (hk : Faithful k sp) (h0 : SimObject.init std N ms sp = .ok o0)
    (hc : ∀ u ∈ before, callable std u) (hr : o0.run ms sp before = .ok o) (hq : o.isSerializable = true) (hfc : o.sim.core.Fits ms)
    (hfi : o.sim.interface.Fits k) (hs : SavedWhole sp before o) (ht : ∀ u ∈ before ++ later, throughExtensions u)
    (h6 : std = .lpddr6 → .setDBI true ∉ before ++ later) :
    ∃ bytes p, o.serialize k ms [] = .ok bytes ∧ o0.deserialize k ms bytes = some (p, []) ∧
      ∀ p2, p.run ms sp later = .ok p2 →
        (∀ p3 x, definedSession ms sp o (later ++ [.isEnabled]) → p2.step ms sp .isEnabled = .ok (p3, x) →
          x = .flag (reportedDBI std sp (before ++ later))) ∧
        (∀ p3 x, definedSession ms sp o (later ++ [.getMetaData]) → p2.step ms sp .getMetaData = .ok (p3, x) →
          x = .words (reportedMeta std (before ++ later))) ∧
        ∀ t p3 s, definedSession ms sp o (later ++ [.window t]) → p2.step ms sp (.window t) = .ok (p3, .stats s) → sp.toggling = none →
          sp.bitWidth * sp.devices ≤ N →
          s.readBus = Line.stats (sp.bitWidth * sp.devices) (caIdleLevels std)
            (toldLine std sp true [] (fun _ => some (caIdleLevels std)) (before ++ later)) (t * sp.dataRate) ∧
          s.writeBus = Line.stats (sp.bitWidth * sp.devices) (caIdleLevels std)
            (toldLine std sp false [] (fun _ => some (caIdleLevels std)) (before ++ later)) (t * sp.dataRate) := by
  obtain ⟨bytes, p, e1, e2, hl⟩ := saved_whole hk h0 hc hr hq hfc hfi hs
  refine ⟨bytes, p, e1, e2, fun p2 hp2 => ⟨fun p3 x hd hx => ?_, fun p3 x hd hx => ?_, fun t p3 s hd hx htog hw => ?_⟩⟩
  · obtain ⟨o2, o3, k1, k2⟩ := reply_same (hl _ hd) hp2 hx
    have := (C57_partial std N ms sp (before ++ later) o0 o2 h0 ht (run_join hr k1) h6).1
    rw [this] at k2
    cases k2
    rfl
  · obtain ⟨o2, o3, k1, k2⟩ := reply_same (hl _ hd) hp2 hx
    have := (C57_partial std N ms sp (before ++ later) o0 o2 h0 ht (run_join hr k1) h6).2.1
    rw [this] at k2
    cases k2
    rfl
  · obtain ⟨o2, o3, k1, k2⟩ := reply_same (hl _ hd) hp2 hx
    exact (C57_partial std N ms sp (before ++ later) o0 o2 h0 ht (run_join hr k1) h6).2.2.2 t o3 s k2 htog hw
end

/-! ## Violations -/

/-- A session of bursts of the given wires and a query: read and write figures of the data bus. -/
def c57Run (std : Std) (ms : MemSpec) (sp : IfSpec) (us : List SimCall) (t : Nat) : Except Err (BusStats × BusStats) :=
  match SimObject.init std 16 ms sp with
  | .error e => .error e
  | .ok o0 => match o0.run ms sp us with
    | .error e => .error e
    | .ok o => match o.step ms sp (.window t) with
      | .ok (_, .stats s) => .ok (s.readBus, s.writeBus)
      | .ok _ => .error (.ub "")
      | .error e => .error e

/-- An LPDDR6 read of 256 ones with inversion. -/
def c57Ones : List SimCall := [.setDBI true, .iface (.cmd { t := 5, type := .RD, dbank := 8, nBits := 256, data := some (List.replicate 32 0xff) })]

/-- LPDDR6: the bus should carry the sixteen flags only; it carries the flags and 120 ones. -/
theorem C57_violation : ¬ C57_statement fun _ _ => True := by
  intro hc
  have key : c57Run .lpddr6 c56Mem c49Spec6 c57Ones 40 =
      .ok ({ ones := 136, zeroes := 824, bitChanges := 64, onesToZeroes := 32, zeroesToOnes := 32 },
        { ones := 0, zeroes := 960, bitChanges := 0, onesToZeroes := 0, zeroesToOnes := 0 }) := by decide +kernel
  have hl : (Line.stats 12 (caIdleLevels .lpddr6) (toldLine .lpddr6 c49Spec6 true [] (fun _ => some (caIdleLevels .lpddr6)) c57Ones) 80).ones = 16 := by
    decide +kernel
  unfold c57Run at key
  split at key
  · cases key
  rename_i o0 h0
  split at key
  · cases key
  rename_i o hr
  split at key
  · rename_i o' s hq
    have e := ok_inj key
    have k := ((hc _ 16 c56Mem c49Spec6 _ o0 o h0 (by decide) hr trivial).2.2.2 40 o' s hq rfl (by decide)).1
    have k2 : s.readBus = { ones := 136, zeroes := 824, bitChanges := 64, onesToZeroes := 32, zeroesToOnes := 32 } := congrArg Prod.fst e
    rw [k2] at k
    have := congrArg BusStats.ones k
    exact absurd (this.trans hl) (by decide)
  · cases key
  · cases key

/-- Turn inversion on, save, restore into a new simulator, transfer a burst: what the extension reports, and the levels of the data bus. -/
def c57Restored (std : Std) (ms : MemSpec) (sp : IfSpec) (k : Codec) (later : List SimCall) (t : Nat) : Option (Option Bool × BusStats) :=
  match SimObject.init std 16 ms sp with
  | .error _ => none
  | .ok o0 => match o0.run ms sp [.setDBI true] with
    | .error _ => none
    | .ok o => match o.serialize k ms [] with
      | .error _ => none
      | .ok bytes => match o0.deserialize k ms bytes with
        | none => none
        | some (p, _) => match p.run ms sp later with
          | .error _ => none
          | .ok q => match q.step ms sp .isEnabled, q.step ms sp (.window t) with
            | .ok (_, .flag b), .ok (_, .stats s) => some (b, s.writeBus)
            | _, _ => none

/-- After restoring, LPDDR4 and LPDDR5 report "on" and transfer eight bytes of ones without inversion (with inversion there would be no ones at
all, as a session without restoring shows). -/
theorem C57_violation_restored (std : Std) (h : std = .lpddr4 ∨ std = .lpddr5) :
    (c57Restored std c56Mem (c16Spec std) c16Codec [c56Data std 10 .WR 0xff] 40).map (fun x => (x.1, x.2.ones)) = some (some true, 64) ∧
    (c57Run std c56Mem (c16Spec std) [.setDBI true, c56Data std 10 .WR 0xff] 40).map (fun x => x.2.ones) = .ok 0 := by
  rcases h with h | h <;> subst h <;> decide +kernel

/-! ## The hypotheses can be met -/

/-- Inversion on and off again, with transfers in between. -/
def c57Session (std : Std) : List SimCall :=
  [c56Data std 10 .WR 0xff, .isEnabled, .setDBI true, c56Data std 20 .WR 0xff, c56Data std 30 .WR 0x01, .setDBI false, c56Data std 40 .WR 0xf0]

example : ∀ std ∈ [Std.ddr4, .ddr5, .lpddr4, .lpddr5], (∀ u ∈ c57Session std, throughExtensions u) ∧
    (c57Run std c56Mem (c16Spec std) (c57Session std) 60).map (fun x => x.2) = .ok (Line.stats 8 (caIdleLevels std)
      (toldLine std (c16Spec std) false [] (fun _ => some (caIdleLevels std)) (c57Session std)) 120) := by
  decide +kernel

/-- DDR4 saved with inversion on and restored: inverted as reported (no ones; compare `C57_violation_restored`). -/
example : (c57Restored .ddr4 c56Mem (c16Spec .ddr4) c16Codec [c56Data .ddr4 10 .WR 0x00] 40).map (fun x => (x.1, x.2.zeroes)) = some (some true, 0) ∧
    c56Meets .ddr4 16 c56Mem (c16Spec .ddr4) c16Codec [.setDBI true] [.isEnabled] = true ∧
    (match SimObject.init .ddr4 16 c56Mem (c16Spec .ddr4) with
      | .ok o0 => match o0.run c56Mem (c16Spec .ddr4) [.setDBI true] with
        | .ok o => decide (∀ read ∈ [true, false], ∀ b ∈ (o.sim.interface.dbi.last read).lastbeat, b = 0 ∨ b = 1)
        | .error _ => false
      | .error _ => false) = true := by decide +kernel

end DRAMPower
