import Verif.Spec.Router
import Mathlib.Data.List.Induction

/-!
# C68: every command goes to the handler registered last for it
-/

namespace DRAMPower
open Spec

variable {S : Type}

theorem CmdType.value_inj {a b : CmdType} (h : a.value = b.value) : a = b := by
  cases a <;> cases b <;> first | rfl | (exact absurd h (by decide))

theorem CmdType.value_lt {a : CmdType} (h : a ≠ .COUNT) : a.value < CmdType.COUNT.value := by
  cases a <;> first | decide | exact absurd rfl h

/-- A list of registrations. -/
def Router.routes (r : Router S) (regs : List (CmdType × CmdHandler S)) : Except Err (Router S) :=
  regs.foldlM (fun r x => r.route x.1 x.2) r

theorem handlerFor_snoc (d : CmdHandler S) (regs : List (CmdType × CmdHandler S)) (a ty : CmdType) (h : CmdHandler S) :
    handlerFor d (regs ++ [(a, h)]) ty = if a = ty then h else handlerFor d regs ty := by
  induction regs with
  | nil => simp [handlerFor]
  | cons x regs ih =>
    rw [List.cons_append]
    unfold handlerFor
    rw [ih]
    by_cases ha : a = ty
    · simp [ha]
    · rw [if_neg ha, if_neg ha]
      refine if_congr ?_ rfl rfl
      constructor
      · rintro ⟨y, hy, e⟩
        rcases List.mem_append.1 hy with hy | hy
        · exact ⟨y, hy, e⟩
        · rw [List.mem_singleton.1 hy] at e
          exact absurd e ha
      · rintro ⟨y, hy, e⟩
        exact ⟨y, List.mem_append_left _ hy, e⟩

theorem routes_inv (d : Option (CmdHandler S)) (regs : List (CmdType × CmdHandler S)) (hr : ∀ x ∈ regs, x.1 ≠ .COUNT) :
    ∃ r, (Router.init d).routes regs = .ok r ∧ r.handlers.length = CmdType.COUNT.value ∧
      ∀ ty, ty ≠ .COUNT → r.handlers[ty.value]? = some (handlerFor (defaultHandler d) regs ty) := by
  induction regs using List.reverseRecOn with
  | nil =>
    refine ⟨Router.init d, rfl, by simp [Router.init], fun ty ht => ?_⟩
    simp only [Router.init, List.getElem?_replicate, if_pos (CmdType.value_lt ht), handlerFor]
    cases d <;> rfl
  | append_singleton regs x ih =>
    obtain ⟨r, h1, h2, h3⟩ := ih fun y hy => hr y (by simp [hy])
    have hx := CmdType.value_lt (hr x (by simp))
    refine ⟨{ handlers := r.handlers.set x.1.value x.2 }, ?_, by simpa using h2, fun ty ht => ?_⟩
    · unfold Router.routes at h1 ⊢
      rw [List.foldlM_append, h1]
      show (List.foldlM (fun (r : Router S) (x : CmdType × CmdHandler S) => r.route x.1 x.2) r [x]) = _
      simp only [List.foldlM_cons, List.foldlM_nil, Router.route, h2, if_pos hx]
      rfl
    · show (r.handlers.set x.1.value x.2)[ty.value]? = _
      rw [handlerFor_snoc, List.getElem?_set]
      by_cases hty : x.1 = ty
      · rw [if_pos (by rw [hty]), if_pos hty, if_pos (by rw [h2]; exact hx)]
      · rw [if_neg (fun h => hty (CmdType.value_inj h)), if_neg hty]
        exact h3 ty ht

/-- After any registrations a command is executed by the handler registered last for its type, by the default if there is none; without a
default it has no effect. -/
theorem C68 (d : Option (CmdHandler S)) (regs : List (CmdType × CmdHandler S)) (hr : ∀ x ∈ regs, x.1 ≠ .COUNT) :
    ∃ r, (Router.init d).routes regs = .ok r ∧ r.size = 23 ∧
      ∀ c : Cmd, c.type ≠ .COUNT → ∀ s, r.execute c s = outcome (handlerFor (defaultHandler d) regs c.type) c s := by
  obtain ⟨r, h1, h2, h3⟩ := routes_inv d regs hr
  refine ⟨r, h1, h2, fun c hc s => ?_⟩
  unfold Router.execute outcome
  rw [h3 c.type hc]
  cases handlerFor (defaultHandler d) regs c.type <;> rfl

/-- The number of commands is no command: it can neither be registered nor executed. -/
theorem C68_count (d : Option (CmdHandler S)) (regs : List (CmdType × CmdHandler S)) (hr : ∀ x ∈ regs, x.1 ≠ .COUNT) (r : Router S)
    (h : (Router.init d).routes regs = .ok r) :
    (∀ f, r.route .COUNT f = .error (.assertion "m_router.size() > cmd")) ∧
    ∀ c : Cmd, c.type = .COUNT → ∀ s, r.execute c s = .error (.assertion "m_router.size() > command.type") := by
  obtain ⟨r', h1, h2, _⟩ := routes_inv d regs hr
  rw [h1] at h
  injection h with h
  subst h
  refine ⟨fun f => by simp [Router.route, h2], fun c hc s => ?_⟩
  unfold Router.execute
  rw [hc, List.getElem?_eq_none (by rw [h2]; exact Nat.le_refl _)]

/-- Two registrations for activations, one for reads; the state is a list of what happened. -/
def c68Regs : List (CmdType × CmdHandler (List Nat)) :=
  [(.ACT, some fun _ s => .ok (s ++ [1])), (.RD, some fun c s => .ok (s ++ [c.bank])), (.ACT, some fun c s => .ok (s ++ [100 + c.bank]))]

example : (∀ x ∈ c68Regs, x.1 ≠ .COUNT) ∧ ∃ r, (Router.init none).routes c68Regs = .ok r ∧
    r.execute { t := 0, type := .ACT, bank := 2 } [] = .ok [102] ∧ r.execute { t := 0, type := .RD, bank := 3 } [7] = .ok [7, 3] ∧
    r.execute { t := 0, type := .WR, bank := 3 } [7] = .ok [7] := by
  refine ⟨by decide, _, rfl, rfl, rfl, rfl⟩

/-- An empty function as default cannot be called. -/
example : (Router.init (some none)).execute { t := 0, type := .WR } [7] = .error (.exception "bad_function_call") := rfl

end DRAMPower
