import Verif.Lemmas.Extension
import Verif.Model.BusStats

/-!
# C40: extension manager

The full claim, for every history of registrations, lookups and calls: the extension registered last is found and used, types that were
not registered are not present (`C40`), a hook is called for the extensions that support it (`C40_hooks`), and saving and restoring preserves the
extensions (`C40_restore_partial`). The last part is false if a type is registered twice: the older object is destroyed but still on the list of
extensions to save (`C40_violation`). Hook enumerations of 64 bits are shifted out of range (`C40_violation_hooks`).
-/

namespace DRAMPower
open Spec ExtManager

/-- The operations on the manager. -/
def ExtManager.step (m : ExtManager) : ExtOp → Except Err ExtManager
  | .register t k s => m.register t k s
  | .use t f => .ok (m.withExtension t f)
  | .hook h f => .ok (m.callHook h f)

def ExtManager.run (m : ExtManager) (ops : List ExtOp) : Except Err ExtManager := ops.foldlM step m

theorem ExtManager.run_inv {D : Nat} (hD : D ≤ 32) (ops' ops : List ExtOp) {m : ExtManager} (h : Inv D m ops') :
    ∃ m', m.run ops = .ok m' ∧ Inv D m' (ops' ++ ops) := by
  induction ops generalizing m ops' with
  | nil => exact ⟨m, rfl, by rw [List.append_nil]; exact h⟩
  | cons op ops ih =>
    have : ∃ m1, m.step op = .ok m1 ∧ Inv D m1 (ops' ++ [op]) := by
      cases op with
      | register t k s => exact inv_register hD h t k s
      | use t f => exact ⟨_, rfl, inv_use h t f⟩
      | hook k f => exact ⟨_, rfl, inv_hook h k f⟩
    obtain ⟨m1, h1, h2⟩ := this
    obtain ⟨m', h3, h4⟩ := ih _ h2
    refine ⟨m', ?_, by rw [List.append_assoc] at h4; exact h4⟩
    unfold ExtManager.run
    rw [List.foldlM_cons, h1]
    exact h3

/-- After every history the extension registered last of a type, with all changes made since, is found and retrieved; types that were not
registered are not present. `D` is the number of hooks, 0 for a manager without hooks. -/
theorem C40 (D : Nat) (hD : D ≤ 32) (ops : List ExtOp) :
    ∃ m, (ExtManager.init D).run ops = .ok m ∧
      (∀ t, m.has t = (extension D ops t).isSome) ∧
      ∀ t, m.get t = (extension D ops t).map fun x => { type := t, hooks := x.1, state := x.2 } := by
  obtain ⟨m, h1, h2⟩ := run_inv hD [] ops (inv_init D)
  rw [List.nil_append] at h2
  exact ⟨m, h1, has_eq h2, get_eq h2⟩

/-- What is registered is present. -/
theorem extension_isSome (D : Nat) (ops : List ExtOp) (t : Nat) : (extension D ops t).isSome = true ↔ t ∈ (registered ops).map (·.1) := by
  unfold extension
  suffices ∀ s, (ops.foldl (current D t) s).isSome = true ↔ s.isSome = true ∨ t ∈ (registered ops).map (·.1) by
    rw [this]; simp
  induction ops with
  | nil => intro s; simp [registered]
  | cons op ops ih =>
    intro s
    rw [List.foldl_cons, ih]
    cases op with
    | register t' k st =>
      by_cases ht : t' = t
      · simp [current, registered, ht]
      · simp [current, registered, ht, Ne.symm ht]
    | use t' f =>
      by_cases ht : t' = t
      · simp [current, registered, ht]
      · simp [current, registered, ht]
    | hook h f => simp [current, registered]

/-- An extension is reported as present exactly if its type was registered. -/
theorem C40_present (D : Nat) (hD : D ≤ 32) (ops : List ExtOp) :
    ∃ m, (ExtManager.init D).run ops = .ok m ∧ ∀ t, m.has t = true ↔ t ∈ (registered ops).map (·.1) := by
  obtain ⟨m, h1, h2, -⟩ := C40 D hD ops
  exact ⟨m, h1, fun t => by rw [h2, extension_isSome]⟩

/-- A registration, two changes and a hook. -/
def exampleOps : List ExtOp :=
  [.register 1 0b101 (.dbi false), .register 2 0b100 (.metaData 0 0), .use 1 (ExtState.enable (fun _ => true) true),
    .use 3 (fun _ => .dbi true), .hook 0b100 fun s => if s = .dbi true then s else .metaData 7 9]

example : extension 8 exampleOps 1 = some (0b101, .dbi true) ∧ extension 8 exampleOps 2 = some (0b100, .metaData 7 9) ∧
    extension 8 exampleOps 3 = none := by decide +kernel

/-- `isEnabled` is the last accepted request. -/
theorem C40_enabled (callback : Bool → Bool) (requests : List Bool) (s : Bool) :
    (requests.foldl (fun s e => s.enable callback e) (ExtState.dbi s)).isEnabled = ((requests.filter callback).getLast?).getD s := by
  induction requests generalizing s with
  | nil => rfl
  | cons e l ih =>
    rw [List.foldl_cons]
    by_cases h : callback e = true
    · rw [show (ExtState.dbi s).enable callback e = .dbi e from if_pos h]
      rw [ih, List.filter_cons, if_pos h, List.getLast?_cons]
      rfl
    · rw [show (ExtState.dbi s).enable callback e = .dbi s from if_neg h]
      rw [ih, List.filter_cons, if_neg h]

example : ([true, false].foldl (fun s e => s.enable (fun e => e) e) (ExtState.dbi false)).isEnabled = true := by decide

/-- A hook is called once for each registration that supports it, in this order (also for an extension that was replaced later). -/
theorem C40_hooks (D : Nat) (hD : D ≤ 32) (ops : List ExtOp) (hook : Nat) :
    ∃ m, (ExtManager.init D).run ops = .ok m ∧
      (m.invoked hook).filterMap (fun i => m.objs[i]?.map fun o => (o.type, o.hooks)) =
        (registered ops).filter fun x => decide (hookMatches D x.2 hook) := by
  obtain ⟨m, h1, h2⟩ := run_inv hD [] ops (inv_init D)
  rw [List.nil_append] at h2
  refine ⟨m, h1, ?_⟩
  rw [invoked_eq h2, ← h2.reg]
  clear h1 h2
  generalize m.objs = l
  have key : ∀ n, n ≤ l.length → ((List.range n).filter fun i => decide (hookMatches D (hooksAt l i) hook)).filterMap
      (fun i => l[i]?.map fun o => (o.type, o.hooks)) =
      ((l.take n).map fun o => (o.type, o.hooks)).filter fun x => decide (hookMatches D x.2 hook) := by
    intro n hn
    induction n with
    | zero => simp
    | succ n ih =>
      have hlt : n < l.length := by omega
      rw [List.range_succ, List.filter_append, List.filterMap_append, ih (by omega), List.take_succ_eq_append_getElem hlt,
        List.map_append, List.filter_append]
      congr 1
      have hh : hooksAt l n = l[n].hooks := by unfold hooksAt; rw [List.getElem?_eq_getElem hlt]; rfl
      by_cases hs : hookMatches D l[n].hooks hook
      · simp [hh, hs, List.getElem?_eq_getElem hlt]
      · simp [hh, hs]
  have := key l.length (Nat.le_refl _)
  rw [List.take_length] at this
  exact this

example : registered exampleOps = [(1, 0b101), (2, 0b100)] ∧ ((registered exampleOps).filter fun x => decide (hookMatches 8 x.2 0b100)).length = 2 := by
  decide +kernel

/-- Saving a manager and restoring it into one with the same registrations transfers the state of every extension, also for everything that
happens later. Required: no type is registered twice. -/
theorem C40_restore_partial (D : Nat) (hD : D ≤ 32) (ops ops' : List ExtOp) (hu : Unique ops) (hr : registered ops' = registered ops)
    (hk : ∀ t k s k' s', extension D ops t = some (k, s) → extension D ops' t = some (k', s') → sameKind s s') :
    ∃ m m' bytes, (ExtManager.init D).run ops = .ok m ∧ (ExtManager.init D).run ops' = .ok m' ∧
      (∀ out, m.serialize out = .ok (out ++ bytes)) ∧
      ∀ rest, ∃ r, m'.deserialize (bytes ++ rest) = .ok (r, rest) ∧ (∀ t, r.get t = m.get t) ∧
        ∀ later, ∃ x y, r.run later = .ok x ∧ m.run later = .ok y ∧ ∀ t, x.get t = y.get t := by
  obtain ⟨m, h1, h2⟩ := run_inv hD [] ops (inv_init D)
  obtain ⟨m', h1', h2'⟩ := run_inv hD [] ops' (inv_init D)
  rw [List.nil_append] at h2 h2'
  have hu' : Unique ops' := by unfold Unique; rw [hr]; exact hu
  have hreg : m.objs.map (fun o => (o.type, o.hooks)) = m'.objs.map fun o => (o.type, o.hooks) := by rw [h2.reg, h2'.reg, hr]
  have hlen : m.objs.length = m'.objs.length := by have := congrArg List.length hreg; simpa using this
  refine ⟨m, m', _, h1, h1', fun out => serialize_ok h2 hu out, fun rest => ?_⟩
  have hkind : ∀ i (a : i < m.objs.length) (b : i < m'.objs.length), sameKind m.objs[i].state m'.objs[i].state := by
    intro i a b
    have ht := List.getElem_of_eq hreg (i := i) (by simpa using a)
    simp only [List.getElem_map, Prod.mk.injEq] at ht
    have l1 := (alive_of_unique h2 hu a).1
    have l2 := (alive_of_unique h2' hu' b).1
    refine hk m.objs[i].type m.objs[i].hooks _ m'.objs[i].hooks _ ((h2.cur _ _ _).2 ⟨i, l1, List.getElem?_eq_getElem a⟩) ?_
    rw [ht.1]
    exact (h2'.cur _ _ _).2 ⟨i, l2, List.getElem?_eq_getElem b⟩
  refine ⟨_, deserialize_ok h2' hu' m.objs hreg hkind rest, ?_⟩
  have hlast : ∀ t i, IsLast m'.objs t i ↔ IsLast m.objs t i := by
    have dir : ∀ (a b : List ExtObj), a.map (fun o => (o.type, o.hooks)) = b.map (fun o => (o.type, o.hooks)) → ∀ t i, IsLast a t i → IsLast b t i := by
      intro a b hab t i ⟨o, ho, ht, hl⟩
      have g : ∀ j : Nat, a[j]?.map (fun o => (o.type, o.hooks)) = b[j]?.map fun o => (o.type, o.hooks) := by
        intro j; rw [← List.getElem?_map, ← List.getElem?_map, hab]
      have gi := g i
      rw [ho] at gi
      obtain ⟨o1, ho1, he⟩ := Option.map_eq_some_iff.1 gi.symm
      simp only [Prod.mk.injEq] at he
      refine ⟨o1, ho1, by rw [he.1]; exact ht, fun j o' hj ho' => ?_⟩
      have gj := g j
      rw [ho'] at gj
      obtain ⟨o2, ho2, he2⟩ := Option.map_eq_some_iff.1 gj
      simp only [Prod.mk.injEq] at he2
      rw [← he2.1]
      exact hl j o2 hj ho2
    exact fun t i => ⟨dir _ _ hreg.symm t i, dir _ _ hreg t i⟩
  have hinv : Inv D { m' with objs := m.objs } ops := by
    refine ⟨?_, ?_, fun t i => ?_, h2.cur, h2.reg⟩
    · show m'.cache = _
      rw [h2'.cache]
      refine List.map_congr_left fun p _ => ?_
      unfold cacheOf
      rw [hlen]
      refine List.filter_congr fun i _ => ?_
      have : hooksAt m'.objs i = hooksAt m.objs i := by
        have g : m.objs[i]?.map (fun o => (o.type, o.hooks)) = m'.objs[i]?.map fun o => (o.type, o.hooks) := by
          rw [← List.getElem?_map, ← List.getElem?_map, hreg]
        unfold hooksAt
        cases h3 : m.objs[i]? <;> cases h4 : m'.objs[i]? <;> rw [h3, h4] at g <;> simp at g ⊢
        exact g.2.symm
      rw [this]
    · show m'.ser = _
      rw [h2'.ser, hlen]
    · show (t, i) ∈ m'.exts ↔ _
      rw [h2'.exts, hlast]
  refine ⟨fun t => by rw [get_eq hinv, get_eq h2], fun later => ?_⟩
  obtain ⟨x, hx, hxi⟩ := run_inv hD ops later hinv
  obtain ⟨y, hy, hyi⟩ := run_inv hD ops later h2
  exact ⟨x, y, hx, hy, fun t => by rw [get_eq hxi, get_eq hyi]⟩

/-- `exampleOps` saved, restored into freshly registered extensions. -/
example : Unique exampleOps ∧ registered [ExtOp.register 1 0b101 (.dbi false), .register 2 0b100 (.metaData 0 0)] = registered exampleOps := by
  unfold Unique; decide

/-- A type registered twice: the extension is present and enabled, but saving throws. -/
theorem C40_violation :
    ((ExtManager.init 0).run [.register 1 0 (.dbi false), .register 1 0 (.dbi true)]).bind (fun m => .ok (m.get 1)) =
      .ok (some { type := 1, hooks := 0, state := .dbi true }) ∧
    ((ExtManager.init 0).run [.register 1 0 (.dbi false), .register 1 0 (.dbi true)]).bind (fun m => m.serialize []) =
      .error (.exception "Empty shared_pointer in ExtensionManager is not allowed") := by
  decide +kernel

/-- With an enumeration of more than 32 bits (the tests of the project use 64) the first registration shifts an `int` by 32. -/
theorem C40_violation_hooks (D : Nat) (hD : 32 < D) (t k : Nat) (s : ExtState) : (ExtManager.init D).register t k s = .error (.ub "1 << i") := by
  have hl : (ExtManager.init D).cache.length = 33 + (D - 33) := by simp [ExtManager.init]; omega
  obtain ⟨c, hc, -⟩ := cacheLoop_eq (ExtManager.init D).cache k (ExtManager.init D).objs.length 32 (Nat.le_refl _)
  have : cacheLoop (ExtManager.init D).cache k (ExtManager.init D).objs.length = .error (.ub "1 << i") := by
    unfold cacheLoop
    rw [hl, List.range_add, List.foldlM_append, List.range_succ, List.foldlM_append, hc]
    rfl
  unfold register
  simp only [this, bind, Except.bind]

example : (32 : Nat) < 64 := by decide

end DRAMPower
