import Verif.Props.C36
import Verif.Props.C53
import Verif.Props.C54

/-!
# C55: the command line tool reports the energy of the trace

The property: given readable arguments, the tool ends with status 0 and reports the energy the library calculates for the commands of the
trace at the time of the last one, or it ends with another status and reports nothing.
-/

namespace DRAMPower
open Spec

variable {std : Std} {N : Nat} {ms : MemSpec} {sp : IfSpec} {ps : PowerSpec} {ws : WireSpec}

/-- Times do not decrease. -/
def InOrder (cs : List ICmd) : Prop := cs.Pairwise (·.t ≤ ·.t)

instance (cs : List ICmd) : Decidable (InOrder cs) := by unfold InOrder; infer_instance

/-- Time of the last command, zero if there is none. -/
def endOf (cs : List ICmd) : Nat := (cs.getLast?.map ICmd.t).getD 0

/-- What the library answers for the commands `cs`: core energy, interface energy and their total at the time of the last command. -/
def Answer (std : Std) (N : Nat) (ms : MemSpec) (sp : IfSpec) (ps : PowerSpec) (ws : WireSpec) (cs : List ICmd) (core : Energy)
    (interface : InterfaceInfo) (total : Rat) : Prop :=
  ∃ (s0 s : Simulator std N), Simulator.init std N ms sp = .ok s0 ∧ s0.run ms sp cs = .done s ∧
    (∃ s1, s.calcCoreEnergy ms sp ps (endOf cs) = .ok (s1, core)) ∧
    (∃ s1, s.calcInterfaceEnergy ms sp ws (endOf cs) = .ok (s1, interface)) ∧
    ∃ s1, s.getTotalEnergy ms sp ps ws (endOf cs) = .ok (s1, total)

/-- The report shows an answer of the library, with the right labels. -/
def Right (std : Std) (N : Nat) (ms : MemSpec) (sp : IfSpec) (ps : PowerSpec) (ws : WireSpec) (cs : List ICmd) (r : Report) : Prop :=
  Answer std N ms sp ps ws cs r.core r.interface r.total ∧ r.labels.length = r.core.bank.length ∧
    r.core.bank.length = ps.ranks * ps.banks * ps.devices ∧
    ∀ k d b, k < ps.ranks → d < ps.devices → b < ps.banks → r.labels[cliOffset ps.banks ps.devices k d b]? = some (some (k, d, b))

/-- The property. -/
def C55_statement (std : Std) : Prop :=
  ∀ (N : Nat) (ms : MemSpec) (sp : IfSpec) (ps : PowerSpec) (ws : WireSpec) (args : Args) (configOk memspecOk : Bool)
    (rows : List (List (List Char))) (sink : Sink),
    (∃ cs r, List.Forall₂ Describes rows cs ∧ cliMain std N ms sp ps ws args configOk memspecOk rows sink = .exit 0 (some r) ∧
      (InOrder cs → Right std N ms sp ps ws cs r)) ∨
    ∃ status, status ≠ 0 ∧ cliMain std N ms sp ps ws args configOk memspecOk rows sink = .exit status none

/-! ## The time of the last command -/

theorem interface_last {i i' : Interface std N} {c : ICmd} (h : i.doCommand sp c = .ok i') : i'.last = c.t := by
  unfold Interface.doCommand at h
  obtain ⟨j, _, h⟩ := bind_ok h
  rw [← pure_ok h]

theorem interface_init_last {i : Interface std N} (h : Interface.init std N sp = .ok i) : i.last = 0 := by
  unfold Interface.init at h
  obtain ⟨cb, _, h⟩ := bind_ok h
  obtain ⟨db, _, h⟩ := bind_ok h
  obtain ⟨d, _, h⟩ := bind_ok h
  split at h
  · cases h
  rw [← pure_ok h]

theorem run_end : ∀ (cs : List ICmd) {s s' : Simulator std N} {now : Nat}, s.run ms sp cs = .done s' → Timed now s.core →
    s.core.last = now → s.interface.last = now → InOrder cs → (∀ c ∈ cs, now ≤ c.t) →
    Timed ((cs.getLast?.map ICmd.t).getD now) s'.core ∧ s'.core.last = (cs.getLast?.map ICmd.t).getD now ∧
      s'.interface.last = (cs.getLast?.map ICmd.t).getD now
  | [], s, s', now, h, ht, h1, h2, _, _ => by cases h; exact ⟨ht, h1, h2⟩
  | c :: cs, s, s', now, h, ht, h1, h2, ho, hn => by
    simp only [Simulator.run, Simulator.doCommand] at h
    cases hc : s.core.doCommand std ms c.core with
    | error e => simp only [hc] at h; cases h
    | ok core =>
      cases hi : s.interface.doCommand sp c with
      | error e => simp only [hc, hi] at h; cases h
      | ok interface =>
        simp only [hc, hi] at h
        obtain ⟨t1, t2⟩ := doCommand_timed ht (hn c (by simp)) hc
        have ho' := List.pairwise_cons.1 ho
        have := run_end cs (now := c.t) h t1 t2 (interface_last hi) ho'.2 (fun x hx => ho'.1 x hx)
        rw [List.getLast?_cons]
        cases hl : cs.getLast? with
        | none => rw [hl] at this; exact this
        | some x => rw [hl] at this; exact this

/-- The time of the last command, before and after a query for it. -/
theorem last_time {cs : List ICmd} {s0 s : Simulator std N} (hi : Simulator.init std N ms sp = .ok s0) (hr : s0.run ms sp cs = .done s)
    (ho : InOrder cs) : s.lastCommandTime = endOf cs ∧
      ∀ {s' : Simulator std N} {x : SimStats}, s.getWindowStats ms sp (endOf cs) = .ok (s', x) → s'.lastCommandTime = endOf cs := by
  obtain ⟨h1, h2⟩ := simulator_init hi
  obtain ⟨a, b, c⟩ := run_end cs (now := 0) hr (by rw [h1]; exact init_timed ms) (by rw [h1]; rfl) (interface_init_last h2) ho
    (fun _ _ => Nat.zero_le _)
  have ec : s.core.last = endOf cs := b
  have ei : s.interface.last = endOf cs := c
  refine ⟨by simp only [Simulator.lastCommandTime, Interface.lastCommandTime, ec, ei, Nat.max_self], ?_⟩
  intro s' x h
  unfold Simulator.getWindowStats at h
  obtain ⟨y, _, h⟩ := bind_ok h
  cases pure_ok h
  obtain ⟨p, q⟩ := process_timed (std := std) a (Nat.le_refl _)
  have hle : (s.core.process std (endOf cs)).last ≤ endOf cs := p.last
  have hge : endOf cs ≤ (s.core.process std (endOf cs)).last := Nat.le_trans (Nat.le_of_eq ec.symm) q
  show max (s.core.process std (endOf cs)).last s.interface.last = _
  omega

/-! ## The result -/

/-- Both ways to show the result show the same. -/
theorem shown {sink : Sink} {core : Energy} {interface : InterfaceInfo} {r : Report} (hl : core.bank.length = ps.ranks * ps.banks * ps.devices)
    (h : (match sink with
      | .file opened => jsonFileResult opened ps core interface
      | .stdout => stdoutResult ps core interface) = .ok (some r)) :
    r.core = core ∧ r.interface = interface ∧ r.total = core.total + interface.total ∧ r.labels.length = core.bank.length ∧
      ∀ k d b, k < ps.ranks → d < ps.devices → b < ps.banks → r.labels[cliOffset ps.banks ps.devices k d b]? = some (some (k, d, b)) := by
  obtain ⟨l, h1, h2, h3⟩ := C36_labels ps.ranks ps.devices ps.banks (core.bank.map fun _ => none) (by rw [List.length_map, hl])
  have key : r = { total := core.total + interface.total, core, interface, labels := l } := by
    cases sink with
    | file opened =>
      simp only [jsonFileResult] at h
      cases opened with
      | false => cases h
      | true =>
        rw [if_pos rfl, if_neg (by simp [hl]), h1] at h
        exact (Option.some.inj (ok_inj h)).symm
    | stdout =>
      simp only [stdoutResult, h1] at h
      exact (Option.some.inj (ok_inj h)).symm
  subst key
  exact ⟨rfl, rfl, rfl, by rw [h2, hl], h3⟩

/-- The result can be shown unless the file cannot be opened. -/
theorem shows {sink : Sink} (core : Energy) (interface : InterfaceInfo) (hl : core.bank.length = ps.ranks * ps.banks * ps.devices)
    (hs : sink ≠ .file false) :
    ∃ r, (match sink with
      | .file opened => jsonFileResult opened ps core interface
      | .stdout => stdoutResult ps core interface) = .ok (some r) := by
  obtain ⟨l, h1, h2, h3⟩ := C36_labels ps.ranks ps.devices ps.banks (core.bank.map fun _ => none) (by rw [List.length_map, hl])
  cases sink with
  | file opened =>
    cases opened with
    | false => exact absurd rfl hs
    | true =>
      refine ⟨{ total := core.total + interface.total, core, interface, labels := l }, ?_⟩
      simp only [jsonFileResult]
      rw [if_pos trivial, if_neg (by simp [hl]), h1]
      rfl
  | stdout =>
    refine ⟨{ total := core.total + interface.total, core, interface, labels := l }, ?_⟩
    simp only [stdoutResult, h1]

theorem core_entries {s s' : Simulator std N} {t : Nat} {e : Energy} (h : s.calcCoreEnergy ms sp ps t = .ok (s', e)) :
    e.bank.length = ps.ranks * ps.banks * ps.devices ∧ ∃ x, s.getWindowStats ms sp t = .ok (s', x) := by
  unfold Simulator.calcCoreEnergy at h
  obtain ⟨⟨s1, x⟩, hx, h⟩ := bind_ok h
  obtain ⟨e', he, h⟩ := bind_ok h
  cases pure_ok h
  exact ⟨(C36_energy std ps x e he).1, x, hx⟩

/-- The answer of the simulator to a query does not depend on an earlier query for the same time. -/
theorem window_again {s s' : Simulator std N} {t : Nat} {x : SimStats} (h : s.getWindowStats ms sp t = .ok (s', x)) :
    s'.getWindowStats ms sp t = .ok (s', x) := by
  unfold Simulator.getWindowStats at h
  obtain ⟨y, hy, h⟩ := bind_ok h
  cases pure_ok h
  have e : (s.core.process std t).getWindowStats std ms t = s.core.getWindowStats std ms t := by
    unfold Core.getWindowStats
    dsimp only
    rw [Core.process_process (Nat.le_refl t)]
  unfold Simulator.getWindowStats
  show (do
    let st ← s.interface.getWindowStats sp t ((s.core.process std t).getWindowStats std ms t).2.toSim
    pure (({ core := ((s.core.process std t).getWindowStats std ms t).1, interface := s.interface } : Simulator std N), st)) = _
  have hy' : s.interface.getWindowStats sp t (s.core.getWindowStats std ms t).2.toSim = .ok x := hy
  rw [e, hy']
  rfl

theorem interface_again {s s' s2 : Simulator std N} {t : Nat} {x : SimStats} {e : InterfaceInfo} (h : s.getWindowStats ms sp t = .ok (s', x)) :
    s'.calcInterfaceEnergy ms sp ws t = .ok (s2, e) ↔ s.calcInterfaceEnergy ms sp ws t = .ok (s2, e) := by
  unfold Simulator.calcInterfaceEnergy
  rw [h, window_again h]

/-- What the tool makes of accepted commands is the answer of the library. -/
theorem makeResult_right {cs : List ICmd} {s0 s : Simulator std N} {sink : Sink} {r : Report} (hi : Simulator.init std N ms sp = .ok s0)
    (hr : s0.run ms sp cs = .done s) (ho : InOrder cs) (h : makeResult ms sp ps ws sink s = .ok (some r)) :
    Right std N ms sp ps ws cs r := by
  obtain ⟨l1, l2⟩ := last_time hi hr ho
  unfold makeResult at h
  obtain ⟨⟨s1, core⟩, hc, h⟩ := bind_ok h
  dsimp only at h
  obtain ⟨⟨s2, interface⟩, hf, h⟩ := bind_ok h
  dsimp only at h
  rw [l1] at hc
  obtain ⟨hlen, x, hx⟩ := core_entries hc
  rw [l2 hx] at hf
  obtain ⟨e1, e2, e3, e4, e5⟩ := shown hlen h
  refine ⟨⟨s0, s, hi, hr, ⟨s1, by rw [e1]; exact hc⟩, ⟨s2, by rw [e2]; exact (interface_again hx).1 hf⟩, s2, ?_⟩, by rw [e1]; exact e4,
    by rw [e1]; exact hlen, e5⟩
  unfold Simulator.getTotalEnergy
  rw [hc]
  simp only [bind, Except.bind]
  rw [hf, e3]
  rfl

/-- Conversely, if the library has an answer the tool shows it. -/
theorem makeResult_shows {cs : List ICmd} {s0 s s1 : Simulator std N} {sink : Sink} {total : Rat} (hi : Simulator.init std N ms sp = .ok s0)
    (hr : s0.run ms sp cs = .done s) (ho : InOrder cs) (hs : sink ≠ .file false)
    (h : s.getTotalEnergy ms sp ps ws (endOf cs) = .ok (s1, total)) :
    ∃ r, makeResult ms sp ps ws sink s = .ok (some r) ∧ r.total = total := by
  obtain ⟨l1, l2⟩ := last_time hi hr ho
  unfold Simulator.getTotalEnergy at h
  obtain ⟨⟨s2, core⟩, hc, h⟩ := bind_ok h
  dsimp only at h
  obtain ⟨⟨s3, interface⟩, hf, h⟩ := bind_ok h
  cases pure_ok h
  obtain ⟨hlen, x, hx⟩ := core_entries hc
  obtain ⟨r, hr'⟩ := shows core interface hlen hs
  refine ⟨r, ?_, (shown hlen hr').2.2.1⟩
  unfold makeResult
  rw [l1, hc]
  simp only [bind, Except.bind]
  rw [l2 hx, hf]
  exact hr'

/-! ## The tool -/

/-- Whenever the tool ends with status 0 it has read one command for each row of the trace and reports what the library answers for these
commands at the time of the last one; with any other status it reports nothing. Required: the times of the trace do not decrease. Missing
from the property: the tool may die instead (`C55_violation`), and it reads more than it should (`C54_partial`). -/
theorem C55_partial (std : Std) (N : Nat) (ms : MemSpec) (sp : IfSpec) (ps : PowerSpec) (ws : WireSpec) (args : Args)
    (configOk memspecOk : Bool) (rows : List (List (List Char))) (sink : Sink) (status : Nat) (report : Option Report)
    (h : cliMain std N ms sp ps ws args configOk memspecOk rows sink = .exit status report) :
    (status ≠ 0 ∧ report = none) ∨
    (status = 0 ∧ configOk = true ∧ memspecOk = true ∧ sink ≠ .file false ∧
      ∃ cs r, report = some r ∧ List.Forall₂ AcceptedAs rows cs ∧ (InOrder cs → Right std N ms sp ps ws cs r)) := by
  unfold cliMain at h
  split at h
  · rename_i ha
    injection h with h1 h2
    exact .inl ⟨by rw [← h1]; exact ha, h2.symm⟩
  split at h
  · injection h with h1 h2; exact .inl ⟨by omega, h2.symm⟩
  rename_i hcfg
  split at h
  · cases h
  · injection h with h1 h2; exact .inl ⟨by omega, h2.symm⟩
  rename_i cs hcs
  split at h
  · cases h
  · injection h with h1 h2; exact .inl ⟨by omega, h2.symm⟩
  rename_i s0 hs0
  split at h
  · cases h
  · injection h with h1 h2; exact .inl ⟨by omega, h2.symm⟩
  rename_i s hs
  split at h
  · cases h
  · injection h with h1 h2; exact .inl ⟨by omega, h2.symm⟩
  rename_i r hr
  injection h with h1 h2
  have hmem : memspecOk = true ∧ Simulator.init std N ms sp = .ok s0 := by
    unfold getMemory at hs0
    split at hs0
    · rename_i hm
      refine ⟨hm, ?_⟩
      split at hs0
      · rename_i s' hs'
        rw [hs', Option.some.inj (ok_inj hs0)]
      · cases hs0
      · cases hs0
    · cases hs0
  have hrun : s0.run ms sp cs = .done s := by
    unfold runCommands at hs
    split at hs
    · rename_i s' hs'
      rw [hs', Option.some.inj (ok_inj hs)]
    all_goals cases hs
  refine .inr ⟨h1.symm, by simpa using hcfg, hmem.1, ?_, cs, r, h2.symm, C54_partial rows cs hcs,
    fun ho => makeResult_right hmem.2 hrun ho hr⟩
  rintro rfl
  unfold makeResult at hr
  obtain ⟨⟨s1, core⟩, hc, hr⟩ := bind_ok hr
  dsimp only at hr
  obtain ⟨⟨s2, interface⟩, hf, hr⟩ := bind_ok hr
  cases hr

/-- If the rows describe commands (with numbers below 2^63) the library accepts and has an energy for, the tool ends with status 0 and
reports this energy. -/
theorem C55_reports (std : Std) (N : Nat) (ms : MemSpec) (sp : IfSpec) (ps : PowerSpec) (ws : WireSpec) (rows : List (List (List Char)))
    (sink : Sink) (cs : List ICmd) (s0 s s1 : Simulator std N) (total : Rat) (hrows : List.Forall₂ Describes rows cs)
    (hread : ∀ c ∈ cs, Fits63 c) (ho : InOrder cs) (hi : Simulator.init std N ms sp = .ok s0) (hr : s0.run ms sp cs = .done s)
    (ht : s.getTotalEnergy ms sp ps ws (endOf cs) = .ok (s1, total)) (hs : sink ≠ .file false) :
    ∃ r, cliMain std N ms sp ps ws .given true true rows sink = .exit 0 (some r) ∧ r.total = total ∧ Right std N ms sp ps ws cs r := by
  obtain ⟨r, hr1, hr2⟩ := makeResult_shows hi hr ho hs ht
  refine ⟨r, ?_, hr2, makeResult_right hi hr ho hr1⟩
  unfold cliMain
  rw [if_neg (by decide), if_neg (by decide), C54_read rows cs hrows hread]
  have h1 : getMemory (std := std) (N := N) ms sp true = .ok (some s0) := by
    unfold getMemory
    rw [if_pos rfl, hi]
  have h2 : runCommands ms sp s0 cs = .ok (some s) := by
    unfold runCommands
    rw [hr]
  simp only [h1, h2, hr1]

/-- A command refused with an exception: status 1. -/
theorem C55_refused (std : Std) (N : Nat) (ms : MemSpec) (sp : IfSpec) (ps : PowerSpec) (ws : WireSpec) (rows : List (List (List Char)))
    (sink : Sink) (cs : List ICmd) (s0 : Simulator std N) (m : String) (hrows : List.Forall₂ Describes rows cs)
    (hread : ∀ c ∈ cs, Fits63 c) (hi : Simulator.init std N ms sp = .ok s0)
    (hr : s0.run ms sp cs = .refused (.exception m) ∨ ∃ core, s0.run ms sp cs = .halfway core (.exception m)) :
    cliMain std N ms sp ps ws .given true true rows sink = .exit 1 none := by
  unfold cliMain
  rw [if_neg (by decide), if_neg (by decide), C54_read rows cs hrows hread]
  have h1 : getMemory (std := std) (N := N) ms sp true = .ok (some s0) := by
    unfold getMemory
    rw [if_pos rfl, hi]
  have h2 : runCommands ms sp s0 cs = .ok none := by
    unfold runCommands
    rcases hr with hr | ⟨core, hr⟩ <;> rw [hr]
  simp only [h1, h2]

/-- A row of too few fields: status 1. -/
theorem C55_short (std : Std) (N : Nat) (ms : MemSpec) (sp : IfSpec) (ps : PowerSpec) (ws : WireSpec) (pre rest : List (List (List Char)))
    (row : List (List Char)) (cs : List ICmd) (memspecOk : Bool) (sink : Sink) (hpre : List.Forall₂ Describes pre cs)
    (hread : ∀ c ∈ cs, Fits63 c) (hl : row.length < 7) :
    cliMain std N ms sp ps ws .given true memspecOk (pre ++ row :: rest) sink = .exit 1 none := by
  unfold cliMain
  rw [if_neg (by decide), if_neg (by decide), C54_short pre cs hpre hread row hl rest]

/-! ## Where the property fails -/

/-- A field that is not a number terminates the program with an exception, whatever the rest of the input. -/
theorem C55_violation (std : Std) : ¬ C55_statement std ∧
    ∀ (N : Nat) (ms : MemSpec) (sp : IfSpec) (ps : PowerSpec) (ws : WireSpec) (memspecOk : Bool) (rest : List (List (List Char))) (sink : Sink),
      cliMain std N ms sp ps ws .given true memspecOk (c54Row "x" "ACT" "0" [] :: rest) sink = .died (.exception "Not a number.") := by
  have key : ∀ (N : Nat) (ms : MemSpec) (sp : IfSpec) (ps : PowerSpec) (ws : WireSpec) (memspecOk : Bool) (rest : List (List (List Char)))
      (sink : Sink),
      cliMain std N ms sp ps ws .given true memspecOk (c54Row "x" "ACT" "0" [] :: rest) sink = .died (.exception "Not a number.") := by
    intro N ms sp ps ws memspecOk rest sink
    have h : parseCommandList (c54Row "x" "ACT" "0" [] :: rest) = .error (.exception "Not a number.") := by
      rw [parseCommandList, show parseRow (c54Row "x" "ACT" "0" []) = .error (.exception "Not a number.") by decide +kernel]
      rfl
    unfold cliMain
    rw [if_neg (by decide), if_neg (by decide), h]
  refine ⟨fun hs => ?_, key⟩
  rcases hs 64 Ex.ms c53If c53Power c53Wires .given true true [c54Row "x" "ACT" "0" []] .stdout with ⟨cs, r, _, h, _⟩ | ⟨st, _, h⟩ <;>
    (rw [key] at h; cases h)

/-- Asked for help, the tool does not end: it goes on with the arguments it has. Without any it complains about the configuration and ends
with status 1. -/
theorem C55_violation_help (std : Std) (N : Nat) (ms : MemSpec) (sp : IfSpec) (ps : PowerSpec) (ws : WireSpec)
    (configOk memspecOk : Bool) (rows : List (List (List Char))) (sink : Sink) :
    cliMain std N ms sp ps ws .help false memspecOk rows sink = .exit 1 none ∧
    cliMain std N ms sp ps ws .help configOk memspecOk rows sink = cliMain std N ms sp ps ws .given configOk memspecOk rows sink :=
  ⟨rfl, rfl⟩

/-- A command refused with an assertion (here: a rank that does not exist) terminates the program. -/
theorem C55_violation_assertion (std : Std) :
    (match cliMain std 64 Ex.ms c53If c53Power c53Wires .given true true [c54Row "10" "ACT" "7" []] .stdout with
      | .died (.assertion _) => true
      | _ => false) = true := by
  cases std <;> decide +kernel

/-! ## The hypotheses can be met -/

/-- The total the tool prints and its status. -/
def c55Total (std : Std) (rows : List (List (List Char))) (sink : Sink) : Option (Nat × Option Rat) :=
  match cliMain std 64 Ex.ms c53If c53Power c53Wires .given true true rows sink with
  | .exit n r => some (n, r.map Report.total)
  | .died _ => none

/-- Activate, write, end: status 0 and a total. -/
example : ∀ std ∈ [Std.ddr4, .ddr5, .lpddr4, .lpddr5],
    (match c55Total std [c54Row "0" "ACT" "0" [], c54Row "10" "WR" "0" ["0x00000000ffffffff"], c54Row "40" "END" "0" []] .stdout with
      | some (0, some e) => decide (0 < e)
      | _ => false) = true ∧
    c55Total std [c54Row "0" "ACT" "0" [], c54Row "10" "WR" "0" []] (.file true) = some (1, none) ∧
    c55Total std [c54Row "0" "ACT" "0" []] (.file false) = some (1, none) := by decide +kernel

/-- Without the last row the window ends with the first beat of the burst: the payload has no influence on the report. -/
example : ∀ std ∈ [Std.ddr4, .ddr5, .lpddr4, .lpddr5],
    c55Total std [c54Row "0" "ACT" "0" [], c54Row "10" "WR" "0" ["0x00000000ffffffff"]] .stdout =
      c55Total std [c54Row "0" "ACT" "0" [], c54Row "10" "WR" "0" ["0xffffffffffffffff"]] .stdout ∧
    c55Total std [c54Row "0" "ACT" "0" [], c54Row "10" "WR" "0" ["0x00000000ffffffff"], c54Row "40" "END" "0" []] .stdout ≠
      c55Total std [c54Row "0" "ACT" "0" [], c54Row "10" "WR" "0" ["0xffffffffffffffff"], c54Row "40" "END" "0" []] .stdout := by
  decide +kernel

end DRAMPower
